import Verif.Go.Strings
import Mathlib.Algebra.Order.Field.Rat

/-! # Specification: an interpreter for G-code text

Written from the usual meaning of `G0` and `G1` (absolute coordinates, absolute extruder), independently of the code under
verification: an omitted word leaves its axis unchanged. -/
namespace Verif.Spec.GCode
open Verif.Go

/-- Value of a character as decimal digit. -/
def digit (c : Char) : Option Nat := if '0' ≤ c ∧ c ≤ '9' then some (c.toNat - '0'.toNat) else none

/-- Value of a digit sequence, starting with the value `n` of the digits before. -/
def digits : Nat → Str → Option Nat
  | n, [] => some n
  | n, c :: s => match digit c with
    | some d => digits (10 * n + d) s
    | none => none

/-- An unsigned decimal number: digits, optionally a point and more digits. -/
def unsigned (s : Str) : Option ℚ :=
  match split '.' s with
  | [a] => if a = [] then none else (digits 0 a).map (fun n => (n : ℚ))
  | [a, b] =>
    if a = [] ∨ b = [] then none
    else match digits 0 a, digits 0 b with
      | some n, some m => some (n + m / 10 ^ b.length)
      | _, _ => none
  | _ => none

/-- A decimal number with optional minus sign. -/
def number : Str → Option ℚ
  | '-' :: s => (unsigned s).map (fun x => -x)
  | s => unsigned s

/-- Machine state. `none` means that the value was never given. -/
structure Machine where
  x : Option ℚ := none
  y : Option ℚ := none
  z : Option ℚ := none
  e : Option ℚ := none
  f : Option ℚ := none
deriving DecidableEq, Repr

/-- A move as seen by the machine: the command, whether there was an E word, and the state after it. -/
structure Move where
  g1 : Bool
  hasE : Bool
  after : Machine
deriving DecidableEq, Repr

/-- Apply one word of a move. -/
def word (st : Option (Machine × Bool)) (w : Str) : Option (Machine × Bool) :=
  match st with
  | none => none
  | some (m, hasE) =>
    match w with
    | [] => none
    | c :: s =>
      match number s with
      | none => none
      | some v =>
        if c = 'X' then some ({ m with x := some v }, hasE)
        else if c = 'Y' then some ({ m with y := some v }, hasE)
        else if c = 'Z' then some ({ m with z := some v }, hasE)
        else if c = 'F' then some ({ m with f := some v }, hasE)
        else if c = 'E' then some ({ m with e := some v }, true)
        else none

/-- State of the interpretation: the machine and all moves so far; `none` if a move could not be read. -/
abbrev State := Option (Machine × List Move)

/-- The start: nothing is known about the machine. -/
def start : State := some ({}, [])

/-- Interpret one line. Lines whose first word is neither `G0` nor `G1` are ignored. -/
def line (st : State) (l : Str) : State :=
  match st with
  | none => none
  | some (m, log) =>
    match split ' ' l with
    | [] => st
    | w :: ws =>
      if w = ['G', '1'] ∨ w = ['G', '0'] then
        match ws.foldl word (some (m, false)) with
        | none => none
        | some (m', hasE) => some (m', log ++ [⟨w = ['G', '1'], hasE, m'⟩])
      else st

/-- Interpret a text. -/
def run (text : Str) : State := (split '\n' text).foldl line start

end Verif.Spec.GCode
