import Verif.Model.Clip
import Mathlib.Data.Set.Basic
import Mathlib.Algebra.Ring.Parity

/-! # Regions of contours with the even-odd rule

A contour encloses a set of points of the plane. Which set is left open here (`inside`), as the theorems hold for every interpretation for
which the clipper library is exact. -/
namespace Verif.Spec
open Verif.Model

section
variable {X : Type} (inside : List IntPoint → Set X)

open Classical in
/-- The number of contours which enclose a point. -/
noncomputable def crossings (cs : List (List IntPoint)) (x : X) : Nat := cs.countP fun c => decide (x ∈ inside c)

/-- The even-odd rule: the points enclosed by an odd number of contours. -/
def evenOdd (cs : List (List IntPoint)) : Set X := {x | Odd (crossings inside cs x)}

/-- The outline and the holes of a part, in the format of the library. -/
def partContours (p : LayerPart) : List (List IntPoint) :=
  (p.outline :: p.holes).map fun path => path.map fun q => ⟨q.x, q.y⟩

/-- The region of a list of parts (all contours together, with the even-odd rule). -/
def region (parts : List LayerPart) : Set X := evenOdd inside (parts.flatMap partContours)

mutual
/-- All contours of a tree. -/
def treeContours : PolyNode → List (List IntPoint)
  | .node c cs => c :: treesContours cs
/-- All contours of a list of trees. -/
def treesContours : List PolyNode → List (List IntPoint)
  | [] => []
  | t :: ts => treeContours t ++ treesContours ts
end

/-- The set operations of the library. -/
def clipSets (t : ClipType) (subject clip : Set X) : Set X :=
  match t with
  | .union => {x | x ∈ subject ∨ x ∈ clip}
  | .difference => {x | x ∈ subject ∧ x ∉ clip}
  | .intersection => {x | x ∈ subject ∧ x ∈ clip}

/-- The library computes the set operations exactly (if it succeeds). -/
def Exact (lib : ClipperLib) : Prop :=
  ∀ t subject clip tree, lib.execute t subject clip = some tree →
    evenOdd inside (treesContours tree) = clipSets t (evenOdd inside subject) (evenOdd inside clip)

/-- The union of the regions of the single parts. -/
def cover (parts : List LayerPart) : Set X := {x | ∃ p ∈ parts, x ∈ region inside [p]}

/-- No point is in the regions of two parts. -/
def Separate (parts : List LayerPart) : Prop := parts.Pairwise fun p q => ∀ x, ¬(x ∈ region inside [p] ∧ x ∈ region inside [q])

end

end Verif.Spec
