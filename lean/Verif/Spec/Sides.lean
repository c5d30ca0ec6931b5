import Verif.Spec.Accuracy
import Verif.Spec.Inside

/-! # Specification: which side of the contours a point is on

The clipper library works with whole micrometres, so its results are not exact near the contours. A point which is far enough from all contours is on the
same side of the results as it should be. -/
namespace Verif.Spec
open Verif.Model

mutual
/-- The areas of a tree: a contour with its holes, and the areas inside of the holes. -/
def areasOf : PolyNode → List (List (List IntPoint))
  | .node c cs => (c :: cs.map PolyNode.contour) :: areasInside cs
/-- The areas inside of holes. -/
def areasInside : List PolyNode → List (List (List IntPoint))
  | [] => []
  | .node _ islands :: holes => areas islands ++ areasInside holes
/-- The areas of a list of trees. -/
def areas : List PolyNode → List (List (List IntPoint))
  | [] => []
  | t :: ts => areasOf t ++ areas ts
end

open Classical in
/-- The number of areas which contain a point. -/
noncomputable def areaCount (as : List (List (List IntPoint))) (x : ℚ × ℚ) : Nat := as.countP fun a => decide (x ∈ evenOdd enclosedBy a)

open Classical in
/-- The library keeps points on their side of the contours. If all given contours are farther than `D + tol` away from a point, then the contours of the result
are farther than `D` away from it. The point is in exactly one area of the result if it belongs to the result of the set operation, and otherwise in none.
The same holds for an offset of an area by `d`, if the contours are farther away by `3/2·|d|` (the corners of the library's square joins are at the distance
`√2·|d|`). -/
structure KeepsSides (lib : ClipperLib) (tol : ℚ) : Prop where
  execute : ∀ t s c tree, lib.execute t s c = some tree → ∀ (D : ℚ) (x : ℚ × ℚ), 0 ≤ D → (∀ k ∈ s ++ c, FarFromPath (D + tol) (asPath k) x) →
    (∀ k ∈ treesContours tree, FarFromPath D (asPath k) x) ∧
    areaCount (areas tree) x = if x ∈ clipSets t (evenOdd enclosedBy s) (evenOdd enclosedBy c) then 1 else 0
  offset : ∀ s d, LibArea lib s → ∀ (D : ℚ) (x : ℚ × ℚ), 0 ≤ D → (∀ k ∈ s, FarFromPath (D + 3 / 2 * |d| + tol) (asPath k) x) →
    (∀ k ∈ treesContours (lib.offset s d), FarFromPath D (asPath k) x) ∧
    areaCount (areas (lib.offset s d)) x = if x ∈ evenOdd enclosedBy s then 1 else 0

end Verif.Spec
