import Verif.Go.Strings

/-! # Specification: replacing all occurrences of a text -/
namespace Verif.Spec
open Verif.Go

/-- `r` is `s` with all occurrences of `old` replaced by `new`: the text between the replaced occurrences is the same, and it contains no
further occurrence. -/
def Replaced (old new s r : Str) : Prop :=
  ∃ between : List Str, between ≠ [] ∧ s = old.intercalate between ∧ r = new.intercalate between ∧ ∀ u ∈ between, ¬ old <:+: u

end Verif.Spec
