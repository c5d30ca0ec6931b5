import Verif.Spec.Way
import Verif.Spec.Outside
import Verif.Model.Clip

/-! # What a skirt is good for

The skirt is printed around everything else. What "around" means is said with the convex hull of what is in the layer.
-/
namespace Verif.Spec
open Verif.Go Verif.Model

/-- The point is in the convex hull of the points: in each half plane which contains all of them. -/
def InHull (ps : Path) (x : ℚ × ℚ) : Prop := ∀ u v w : ℚ, (∀ p ∈ ps, u * p.x + v * p.y ≤ w) → u * x.1 + v * x.2 ≤ w

/-- The point is outside of the convex hull, and farther than `d` away: there is a line which is farther than `d` away, and all points are on the other side of it. -/
def BeyondHull (d : ℚ) (ps : Path) (x : ℚ × ℚ) : Prop :=
  ∃ u v w : ℚ, (∀ p ∈ ps, u * p.x + v * p.y ≤ w) ∧ w < u * x.1 + v * x.2 ∧ d ^ 2 * (u ^ 2 + v ^ 2) < (u * x.1 + v * x.2 - w) ^ 2

/-- The library makes a ring at the distance `d` around the points: the convex hull of the points, enlarged by `d`, is one contour. It encloses the convex hull, keeps the distance from
it, and (because corners are squared off) is not farther away than one and a half times the distance. All with a tolerance. -/
def RingAround (lib : ClipperLib) (tol : ℚ) (ps : Path) (d : ℚ) : Prop :=
  ∃ c, lib.offset [(lib.hull ps).map fun q => (⟨q.x, q.y⟩ : IntPoint)] d = [.node c []] ∧ (∀ x, InHull ps x → x ∈ enclosedBy c) ∧
    ∀ x, OnPath false (asPath c) x → (∀ y, InHull ps y → Apart (d - tol) x y) ∧ ∃ y, InHull ps y ∧ NearPt (3 / 2 * d + tol) x y

end Verif.Spec
