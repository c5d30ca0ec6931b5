import Verif.Spec.Region

/-! # Specification: paths of the head and nesting of contours -/
namespace Verif.Spec
open Verif.Model

/-- A point of a straight line from `a` to `b`. -/
def OnLine (a b : IntPoint) (x : ℚ × ℚ) : Prop := ∃ t : ℚ, 0 ≤ t ∧ t ≤ 1 ∧ x = (a.x + t * (b.x - a.x), a.y + t * (b.y - a.y))

/-- If the library succeeds in cutting a region off a straight line, then nothing is left exactly if the whole line is inside of the region. -/
def CutsLines (inside : List IntPoint → Set (ℚ × ℚ)) (lib : ClipperLib) : Prop :=
  ∀ a b clip tree, lib.executeOpen .difference [[a, b]] clip = some tree → (tree = [] ↔ ∀ x, OnLine a b x → x ∈ evenOdd inside clip)

mutual
/-- Contours enclose their children, and siblings have no point in common. -/
def NestedTree {X : Type} (inside : List IntPoint → Set X) : PolyNode → Prop
  | .node c cs => (∀ d ∈ cs, inside d.contour ⊆ inside c) ∧ NestedTrees inside cs
/-- The same for a list of trees. -/
def NestedTrees {X : Type} (inside : List IntPoint → Set X) : List PolyNode → Prop
  | [] => True
  | t :: ts => NestedTree inside t ∧ (∀ u ∈ ts, ∀ x, ¬ (x ∈ inside t.contour ∧ x ∈ inside u.contour)) ∧ NestedTrees inside ts
end

/-- The library arranges contours by nesting. -/
def Nesting {X : Type} (inside : List IntPoint → Set X) (lib : ClipperLib) : Prop :=
  ∀ t subject clip tree, lib.execute t subject clip = some tree → NestedTrees inside tree

end Verif.Spec
