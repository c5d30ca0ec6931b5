import Verif.Spec.Flags
import Verif.Model.FloatText

/-! # Specification of the words for infinity and NaN -/
namespace Verif.Spec
open Verif.Go Verif.Model

/-- The text is the word in small letters, in which any letters may be replaced by capital letters. -/
def AnyCase (word : String) (s : Str) : Prop := List.Forall₂ (fun c d => c = d ∨ c = d.toUpper) s word.toList

/-- The words which stand for infinity, with an optional sign, or for "not a number". -/
def SpecialLit (s : Str) (v : F32) : Prop :=
  (∃ sign negative w, (sign = [] ∧ negative = false ∨ sign = ['+'] ∧ negative = false ∨ sign = ['-'] ∧ negative = true) ∧ s = sign ++ w ∧
    (AnyCase "inf" w ∨ AnyCase "infinity" w) ∧ v = .inf negative) ∨ AnyCase "nan" s ∧ v = .nan

end Verif.Spec
