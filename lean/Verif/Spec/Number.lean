import Verif.Go.Strings
import Mathlib.Data.Nat.Digits.Defs

/-! # Specification of numbers in text form -/
namespace Verif.Spec
open Verif.Go

/-- Value of a numeral: `0`-`9`, `a`-`z`, `A`-`Z`. -/
def numeral (c : Char) : Option Nat :=
  let lower := "0123456789abcdefghijklmnopqrstuvwxyz".toList
  let upper := "0123456789ABCDEFGHIJKLMNOPQRSTUVWXYZ".toList
  if c ∈ lower then some (lower.idxOf c) else if c ∈ upper then some (upper.idxOf c) else none

/-- `s` is a (possibly empty) sequence of numerals of base `b` with value `v`, most significant first. -/
def IsNumeral (b : Nat) (s : Str) (v : Nat) : Prop :=
  ∃ ds : List Nat, s.map numeral = ds.map some ∧ (∀ d ∈ ds, d < b) ∧ v = Nat.ofDigits b ds.reverse

/-- Unsigned integer literals: decimal, octal with prefix `0` or `0o`, binary with `0b`, hexadecimal with `0x`. -/
inductive UIntLit : Str → Nat → Prop
  | dec (c : Char) (t : Str) (v : Nat) : c ≠ '0' → IsNumeral 10 (c :: t) v → UIntLit (c :: t) v
  | oct (t : Str) (v : Nat) : IsNumeral 8 t v → UIntLit ('0' :: t) v
  | bin (p : Char) (t : Str) (v : Nat) : p = 'b' ∨ p = 'B' → t ≠ [] → IsNumeral 2 t v → UIntLit ('0' :: p :: t) v
  | octo (p : Char) (t : Str) (v : Nat) : p = 'o' ∨ p = 'O' → t ≠ [] → IsNumeral 8 t v → UIntLit ('0' :: p :: t) v
  | hex (p : Char) (t : Str) (v : Nat) : p = 'x' ∨ p = 'X' → t ≠ [] → IsNumeral 16 t v → UIntLit ('0' :: p :: t) v

/-- Unsigned decimal numbers. -/
def UDec (s : Str) (v : Nat) : Prop := s ≠ [] ∧ IsNumeral 10 s v

/-- An optional sign in front of an unsigned number, with the value in the int64 range. -/
def Signed (U : Str → Nat → Prop) (s : Str) (v : Int) : Prop :=
  (∃ t n, (s = t ∨ s = '+' :: t) ∧ U t n ∧ v = n ∧ v < 2 ^ 63) ∨ (∃ t n, s = '-' :: t ∧ U t n ∧ v = -(n : Int) ∧ -2 ^ 63 ≤ v)

/-- Decimal integers of the int64 range. -/
def DecInt : Str → Int → Prop := Signed UDec
/-- Integer literals (without underscores) of the int64 range. -/
def IntLit : Str → Int → Prop := Signed UIntLit

end Verif.Spec
