import Verif.Model.Log

/-! # How pflag splits the command line

The package `github.com/spf13/pflag` (version 1.0.5, see `go.mod`) is not part of the repository. This is its function `parseArgs` for the flags registered in
`data/option.go:475-557` `ParseFlags`, as far as it decides which texts are settings. -/
namespace Verif.Model
open Verif.Go

/-- What an argument is. -/
inductive ArgKind where
  | plain
  | stop
  | bad (settings : List (Str × Str))
  | settings (settings : List (Str × Str))
  | needsValue (settings : List (Str × Str)) (name : Str)

/-- A flag which needs no value: `data/option.go:475-557` `ParseFlags` calls `BoolVar` or `BoolVarP` for it. -/
def Flag.isBool (f : Flag) : Bool :=
  match f.kind with
  | .bool => true
  | _ => false

/-- The text before the first `=`, and the text after it, if there is one (`strings.SplitN(s, "=", 2)`). -/
def splitEquals : Str → Str × Option Str
  | [] => ([], none)
  | c :: s => if c = '=' then ([], some s) else (c :: (splitEquals s).1, (splitEquals s).2)

/-- `parseLongArg` of pflag, for the text after `--`. -/
def longArg (text : Str) : ArgKind :=
  match text with
  | [] => .stop
  | c :: _ =>
    if c = '-' ∨ c = '=' then .bad []
    else
      match flags.find? (fun f => f.name.toList = (splitEquals text).1) with
      | none => .bad []
      | some f =>
        match (splitEquals text).2 with
        | some value => .settings [((splitEquals text).1, value)]
        | none => if f.isBool then .settings [((splitEquals text).1, "true".toList)] else .needsValue [] (splitEquals text).1

/-- Put settings before those of an argument. -/
def ArgKind.after (l : List (Str × Str)) : ArgKind → ArgKind
  | .plain => .settings l
  | .stop => .settings l
  | .bad m => .bad (l ++ m)
  | .settings m => .settings (l ++ m)
  | .needsValue m name => .needsValue (l ++ m) name

/-- `parseShortArg` and `parseSingleShortArg` of pflag, for the text after `-`, with the shorthands `v` (version) and `o` (output). -/
def shortArg : Str → ArgKind
  | [] => .settings []
  | c :: rest =>
    if "test.".toList.isPrefixOf (c :: rest) then .settings []
    else if c = 'v' then
      match rest with
      | '=' :: d :: value => .settings [("version".toList, d :: value)]
      | _ => (shortArg rest).after [("version".toList, "true".toList)]
    else if c = 'o' then
      match rest with
      | '=' :: d :: value => .settings [("output".toList, d :: value)]
      | [] => .needsValue [] "output".toList
      | d :: value => .settings [("output".toList, d :: value)]
    else .bad []

/-- What pflag does with an argument. -/
def argKind : Str → ArgKind
  | '-' :: '-' :: text => longArg text
  | '-' :: c :: text => shortArg (c :: text)
  | _ => .plain

/-- `parseArgs` of pflag: the settings and the other arguments (flags and other arguments may be mixed). -/
def splitArgs : List Str → CommandLine
  | [] => {}
  | s :: rest =>
    match argKind s with
    | .plain => { splitArgs rest with args := s :: (splitArgs rest).args }
    | .stop => { args := rest }
    | .bad l => { settings := l, broken := true }
    | .settings l => { splitArgs rest with settings := l ++ (splitArgs rest).settings }
    | .needsValue l name =>
      match rest with
      | [] => { settings := l, broken := true }
      | value :: rest => { splitArgs rest with settings := l ++ (name, value) :: (splitArgs rest).settings }

/-- `cmd/goslice/main.go:16-37` `main` for the arguments of the program. -/
def mainArgs (ext : Externals) (argv : List Str) (w : World) : World × Nat := main ext (splitArgs argv) w

end Verif.Model
