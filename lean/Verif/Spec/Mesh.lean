import Verif.Model.Optimizer

/-! # Specification of meshes -/
namespace Verif.Spec
open Verif.Model

/-- All vertices of a mesh, in order. -/
def vertices (m : Mesh) : List Vec3 := m.flatMap Tri.corners

/-- The square of the distance of two vectors. -/
def vecDist2 (p q : Vec3) : Int := (p.x - q.x) ^ 2 + (p.y - q.y) ^ 2 + (p.z - q.z) ^ 2

/-- The three corners of a triangle are different. -/
def Proper {α : Type} (t : Tri α) : Prop := t.a ≠ t.b ∧ t.a ≠ t.c ∧ t.b ≠ t.c

/-- Two triangles have the same set of corners. -/
def SameCorners {α : Type} (t u : Tri α) : Prop := t.corners ⊆ u.corners ∧ u.corners ⊆ t.corners

instance {α : Type} [DecidableEq α] (t : Tri α) : Decidable (Proper t) := by unfold Proper; infer_instance
instance {α : Type} [DecidableEq α] (t u : Tri α) : Decidable (SameCorners t u) :=
  decidable_of_iff ((∀ x ∈ t.corners, x ∈ u.corners) ∧ ∀ x ∈ u.corners, x ∈ t.corners) Iff.rfl

/-- Of a list of triangles only those are kept (after the already kept ones) which have three different corners and not the same corners as one kept
before. -/
def firstFaces {α : Type} [DecidableEq α] : (kept : List (Tri α)) → List (Tri α) → List (Tri α)
  | kept, [] => kept
  | kept, t :: ts => firstFaces (if Proper t ∧ ∀ u ∈ kept, ¬ SameCorners t u then kept ++ [t] else kept) ts

/-- The side number `n` (0, 1 or 2) of a triangle. -/
def faceSide {α : Type} (t : Tri α) : Nat → α × α
  | 0 => (t.a, t.b)
  | 1 => (t.b, t.c)
  | _ => (t.c, t.a)

/-- The element for side number `n` of an array with one element for each side. -/
def ofSide {α : Type} (t : Tri α) : Nat → α
  | 0 => t.a
  | 1 => t.b
  | _ => t.c

/-- A triangle has both end points of the side as corners. -/
def HasSide {α : Type} (t : Tri α) (s : α × α) : Prop := s.1 ∈ t.corners ∧ s.2 ∈ t.corners

/-- `lo` and `hi` are the corners of the smallest box around the points. -/
structure IsBox (ps : List Vec3) (lo hi : Vec3) : Prop where
  inside : ∀ p ∈ ps, lo.x ≤ p.x ∧ p.x ≤ hi.x ∧ lo.y ≤ p.y ∧ p.y ≤ hi.y ∧ lo.z ≤ p.z ∧ p.z ≤ hi.z
  reached : (∃ p ∈ ps, p.x = lo.x) ∧ (∃ p ∈ ps, p.x = hi.x) ∧ (∃ p ∈ ps, p.y = lo.y) ∧ (∃ p ∈ ps, p.y = hi.y) ∧ (∃ p ∈ ps, p.z = lo.z) ∧
    ∃ p ∈ ps, p.z = hi.z

/-- The translation which moves the middle of the box (rounded towards 0) to the center, and its bottom to the height of the center. -/
def placed (center lo hi p : Vec3) : Vec3 :=
  ⟨p.x - (lo.x + hi.x).tdiv 2 + center.x, p.y - (lo.y + hi.y).tdiv 2 + center.y, p.z - lo.z + center.z⟩

/-- The mesh moved by a vector. -/
def movedMesh (v : Vec3) (m : Mesh) : Mesh := m.map (Tri.map fun p => ⟨p.x + v.x, p.y + v.y, p.z + v.z⟩)

/-- The rounding of the half of a sum towards 0 goes to the same side after the movement: the sum is even, or it does not change its sign. -/
def SameRounding (sum d : Int) : Prop := 2 ∣ sum ∨ 0 ≤ sum ∧ 0 ≤ sum + 2 * d ∨ sum ≤ 0 ∧ sum + 2 * d ≤ 0

end Verif.Spec
