import Verif.Spec.Accuracy

/-! # Specification: points deep inside of an area -/
namespace Verif.Spec
open Verif.Model Verif.Spec.GCode

/-- The point is inside of the contours (even-odd rule), and all of the contours are farther than `r` away from it. -/
def Deep (r : ℚ) (cs : List (List IntPoint)) (x : ℚ × ℚ) : Prop :=
  x ∈ evenOdd enclosedBy cs ∧ ∀ c ∈ cs, ∀ y, OnPath false (asPath c) y → ¬ NearPt r x y

/-- The point is inside of a rectangle, at least `r` away from its border. -/
def InLimits (r : ℚ) (min max : Pt) (x : ℚ × ℚ) : Prop := min.x + r ≤ x.1 ∧ x.1 ≤ max.x - r ∧ min.y + r ≤ x.2 ∧ x.2 ≤ max.y - r

/-- One of the moves extrudes at the height `z` and passes within `r` of the point `x`. -/
def PrintedNear (moves : List Move) (z : Int) (r : ℚ) (x : ℚ × ℚ) : Prop :=
  ∃ (k : Nat) (before line : Move), moves[k]? = some before ∧ moves[k + 1]? = some line ∧ line.g1 = true ∧ line.hasE = true ∧
    before.after.z = some (decimals 2 (toMillimeter z)) ∧ line.after.z = some (decimals 2 (toMillimeter z)) ∧ ∃ y, Passes before.after line.after y ∧ NearPt r x y

end Verif.Spec
