import Verif.Spec.Outside

/-! # Specification: areas which are removed stay clear -/
namespace Verif.Spec
open Verif.Model

/-- Up to a tolerance, differences do not contain what was removed, and enlarged areas contain everything which is nearer than the distance: each point of an area of a
difference is near a point which is not removed; each point which is nearer than `d - tol` to an area is inside of its enlargement by `d`. -/
structure KeepsClear (inside : List IntPoint → Set (ℚ × ℚ)) (lib : ClipperLib) (tol : ℚ) : Prop where
  removed : ∀ s c tree, lib.execute .difference s c = some tree → ∀ a, IsArea tree a → ∀ x, Touches inside a x → ∃ y, y ∉ evenOdd inside c ∧ NearPt tol x y
  enlarged : ∀ s d, LibArea lib s → 0 ≤ d → ∀ z, Touches inside s z → ∀ y, ¬ Apart (d - tol) y z → y ∈ evenOdd inside (treesContours (lib.offset s d))

end Verif.Spec
