import Verif.Spec.GCode
import Verif.Spec.Calls

/-! # Specification: the head never goes below what is printed -/
namespace Verif.Spec
open Verif.Go Verif.Model Verif.Spec.GCode

/-- Each move ends at the height of every move before it which extrudes, or above. -/
def NeverBelow (moves : List Move) : Prop :=
  moves.Pairwise fun a b => a.hasE = true → ∃ za zb, a.after.z = some za ∧ b.after.z = some zb ∧ za ≤ zb

/-- The height at which a call draws. -/
def drawsAt : Call → Option Int
  | .polygon _ _ z _ => some z
  | _ => none

/-- Nothing is drawn below something which is drawn before. -/
def Rising (cs : List Call) : Prop := cs.Pairwise fun a b => ∀ za zb, drawsAt a = some za → drawsAt b = some zb → za ≤ zb

end Verif.Spec
