import Verif.Model.Clip

/-! # Specification for the `clip` package: contours of a tree and iteration over nested results -/
namespace Verif.Spec
open Verif.Model

/-- A contour of the library as a path. -/
def asPath (c : List IntPoint) : Path := c.map fun p => ⟨p.x, p.y⟩

mutual
/-- The contours of a tree with even depth (`true`) or odd depth (`false`), if the depth of its root is even; `even = false` exchanges the
two. -/
def contours (even : Bool) : PolyNode → List Path
  | .node c cs => (if even then [asPath c] else []) ++ contoursList (!even) cs
/-- The same for a list of trees. -/
def contoursList (even : Bool) : List PolyNode → List Path
  | [] => []
  | c :: cs => contours even c ++ contoursList even cs
end

/-- `Below root n`: the node `n` has an even distance from `root`, i.e. it is `root` or a grandchild of such a node. -/
inductive EvenBelow : PolyNode → PolyNode → Prop
  | refl (n : PolyNode) : EvenBelow n n
  | step {root n child grand : PolyNode} : EvenBelow root n → child ∈ n.childs → grand ∈ child.childs → EvenBelow root grand

/-- All elements of a nested list with their indices, in reading order. -/
def visits {α : Type} (r : List (List (List α))) : List (α × Nat × Nat × Nat) :=
  r.zipIdx.flatMap fun (part, i) => part.zipIdx.flatMap fun (inset, j) => inset.zipIdx.map fun (x, k) => (x, i, j, k)

/-- Apply `cb` to the elements in order, until it answers `true`. -/
def untilTrue {σ β : Type} (cb : σ → β → σ × Bool) : σ → List β → σ
  | s, [] => s
  | s, b :: bs => if (cb s b).2 then (cb s b).1 else untilTrue cb (cb s b).1 bs

end Verif.Spec
