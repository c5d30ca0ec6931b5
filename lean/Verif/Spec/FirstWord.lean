import Verif.Spec.Blank
import Verif.Go.Strings

/-! # Lines which begin with a code -/
namespace Verif.Spec
open Verif.Go

/-- The text is in the first word of the line: only white space is before the word, and no space is in it. -/
def InFirstWord (code l : Str) : Prop :=
  ∃ blanks word rest, l = blanks ++ word ++ rest ∧ (∀ c ∈ blanks, WhiteSpace c) ∧ (∀ c ∈ word.head?, ¬ WhiteSpace c) ∧ ' ' ∉ word ∧ code <:+: word

/-- A line of the list sets the temperature of the hot end. -/
def SetsHotend (lines : List Str) : Prop := ∃ l ∈ lines, InFirstWord "M104".toList l ∨ InFirstWord "M109".toList l

/-- A line of the list sets the temperature of the bed. -/
def SetsBed (lines : List Str) : Prop := ∃ l ∈ lines, InFirstWord "M140".toList l ∨ InFirstWord "M190".toList l

end Verif.Spec
