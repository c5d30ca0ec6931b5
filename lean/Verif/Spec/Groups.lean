import Verif.Spec.Number

/-! # Specification of integers with underscores between the digits -/
namespace Verif.Spec
open Verif.Go

/-- Groups of characters with one underscore between two groups; the characters together meet `P`. -/
def Grouped (P : Str → Prop) (s : Str) : Prop :=
  ∃ groups : List Str, groups ≠ [] ∧ (∀ g ∈ groups, g ≠ [] ∧ '_' ∉ g) ∧ s = List.intercalate ['_'] groups ∧ P groups.flatten

/-- The same, possibly with an underscore before the first group. -/
def GroupedAfter (P : Str → Prop) (s : Str) : Prop := Grouped P s ∨ ∃ t, s = '_' :: t ∧ Grouped P t

/-- Unsigned integers in Go syntax: decimal, octal with prefix `0` or `0o`, binary with `0b`, hexadecimal with `0x`; single underscores may stand between two digits, and
between prefix and digits. -/
inductive UIntText : Str → Nat → Prop
  | dec (s : Str) (v : Nat) : Grouped (fun u => u.head? ≠ some '0' ∧ IsNumeral 10 u v) s → UIntText s v
  | oct (s : Str) (v : Nat) : Grouped (fun u => ∃ t, u = '0' :: t ∧ IsNumeral 8 t v) s → UIntText s v
  | bin (p : Char) (t : Str) (v : Nat) : p = 'b' ∨ p = 'B' → GroupedAfter (fun u => IsNumeral 2 u v) t → UIntText ('0' :: p :: t) v
  | octo (p : Char) (t : Str) (v : Nat) : p = 'o' ∨ p = 'O' → GroupedAfter (fun u => IsNumeral 8 u v) t → UIntText ('0' :: p :: t) v
  | hex (p : Char) (t : Str) (v : Nat) : p = 'x' ∨ p = 'X' → GroupedAfter (fun u => IsNumeral 16 u v) t → UIntText ('0' :: p :: t) v

/-- Integers in Go syntax of the int64 range. -/
def IntText : Str → Int → Prop := Signed UIntText

end Verif.Spec
