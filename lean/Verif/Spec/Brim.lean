import Verif.Spec.Skirt

/-! # What a brim is good for

The lines of a brim are around an outline, each one at its distance.
-/
namespace Verif.Spec
open Verif.Go Verif.Model

/-- The point is inside of the closed path or on it. -/
def InOrOn (path : Path) (x : ℚ × ℚ) : Prop := Encloses path x ∨ OnPath false path x

/-- All points of the closed path keep the distance `lo` from everything inside of the outline, and are not farther away from it than `hi`. -/
def KeepsFrom (outline : Path) (lo hi : ℚ) (path : Path) : Prop :=
  ∀ x, OnPath false path x → (∀ y, InOrOn outline y → Apart lo x y) ∧ ∃ y, InOrOn outline y ∧ NearPt hi x y

/-- The library enlarges the outline by `d`: the result is one contour (which may have holes). It encloses the outline, keeps the distance from it, and (because corners are squared off) is not
farther away than one and a half times the distance. All with a tolerance. -/
def EnlargedTo (lib : ClipperLib) (tol : ℚ) (outline : Path) (d : ℚ) (c : List IntPoint) : Prop :=
  (∃ holes, lib.offset [outline.map fun q => (⟨q.x, q.y⟩ : IntPoint)] d = [.node c holes]) ∧ (∀ x, InOrOn outline x → x ∈ enclosedBy c) ∧
    KeepsFrom outline (d - tol) (3 / 2 * d + tol) (asPath c)

end Verif.Spec
