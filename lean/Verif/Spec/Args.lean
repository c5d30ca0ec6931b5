import Verif.Spec.Flags

/-! # Specification of the arguments of the command -/
namespace Verif.Spec
open Verif.Go Verif.Model

/-- The end of an argument with short flags. -/
inductive ShortEnd where
  | nothing
  | ignored (text : Str)
  | version (value : Str)
  | output (value : Str)
  | outputEquals (value : Str)
  | outputNext (value : Str)

/-- One word of a call: an argument which is not a flag, or a flag with its value. -/
inductive Word where
  | path (text : Str)
  | equals (name : String) (value : Str)
  | next (name : String) (value : Str)
  | on (name : String)
  | short (count : Nat) (e : ShortEnd)

/-- How the end of an argument with short flags is written: the argument, and what follows it. -/
def ShortEnd.texts : ShortEnd → Str × List Str
  | .nothing => ([], [])
  | .ignored text => ("test.".toList ++ text, [])
  | .version value => ("v=".toList ++ value, [])
  | .output value => ('o' :: value, [])
  | .outputEquals value => ("o=".toList ++ value, [])
  | .outputNext value => (['o'], [value])

/-- How a word is written. -/
def Word.texts : Word → List Str
  | .path text => [text]
  | .equals name value => ["--".toList ++ name.toList ++ '=' :: value]
  | .next name value => ["--".toList ++ name.toList, value]
  | .on name => ["--".toList ++ name.toList]
  | .short count e => ('-' :: (List.replicate count 'v' ++ e.texts.1)) :: e.texts.2

/-- The settings made by a word. -/
def Word.settings : Word → List (Str × Str)
  | .path _ => []
  | .equals name value => [(name.toList, value)]
  | .next name value => [(name.toList, value)]
  | .on name => [(name.toList, "true".toList)]
  | .short count e => List.replicate count ("version".toList, "true".toList) ++
    match e with
    | .nothing => []
    | .ignored _ => []
    | .version value => [("version".toList, value)]
    | .output value => [("output".toList, value)]
    | .outputEquals value => [("output".toList, value)]
    | .outputNext value => [("output".toList, value)]

/-- The paths given by a word. -/
def Word.paths : Word → List Str
  | .path text => [text]
  | _ => []

/-- A flag for a truth value. -/
def IsSwitch (name : String) : Prop := ∃ b, optionOf {} name = some (.bool b)

/-- The words which exist. -/
def Word.Valid : Word → Prop
  | .path text => text = ['-'] ∨ text.head? ≠ some '-'
  | .equals name _ => optionOf {} name ≠ none
  | .next name _ => optionOf {} name ≠ none ∧ ¬ IsSwitch name
  | .on name => IsSwitch name
  | .short count e =>
    match e with
    | .nothing => 0 < count
    | .ignored _ => True
    | .version value => value ≠ []
    | .output value => value ≠ [] ∧ (value.head? = some '=' → value = ['='])
    | .outputEquals value => value ≠ []
    | .outputNext _ => True

end Verif.Spec
