import Verif.Spec.Mesh

/-! # The same triangles in another order, and several bodies in one model -/
namespace Verif.Spec
open Verif.Model

/-- Both meshes have the same triangles. The order of the triangles, the order of the corners of each triangle, and repetitions do not matter. -/
def SameTriangles {α : Type} (m m' : List (Tri α)) : Prop := (∀ t ∈ m, ∃ t' ∈ m', SameCorners t t') ∧ ∀ t' ∈ m', ∃ t ∈ m, SameCorners t' t

instance {α : Type} [DecidableEq α] (m m' : List (Tri α)) : Decidable (SameTriangles m m') := by unfold SameTriangles; infer_instance

end Verif.Spec
