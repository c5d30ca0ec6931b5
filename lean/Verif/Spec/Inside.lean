import Verif.Spec.Polygons
import Verif.Spec.Slice
import Verif.Spec.Region
import Mathlib.Algebra.Ring.Parity

/-! # Specification: points inside of polygons and inside of a solid

A point is inside if a ray from it crosses the border an odd number of times. The ray goes in the direction of the x axis. -/
namespace Verif.Spec
open Verif.Model

/-- The ray from `q` in the direction of the x axis crosses the line from `a` to `b`. An end of the line with the same height as `q` counts as below the ray. -/
def RayCrosses (q a b : ℚ × ℚ) : Prop := ¬(q.2 < a.2 ↔ q.2 < b.2) ∧ q.1 < a.1 + (b.1 - a.1) * (q.2 - a.2) / (b.2 - a.2)

instance (q a b : ℚ × ℚ) : Decidable (RayCrosses q a b) := by unfold RayCrosses; infer_instance

/-- A point of a path as a point of the plane. -/
def exactPt (p : Pt) : ℚ × ℚ := (p.x, p.y)

/-- The lines of a closed path: from each point to the next one, and from the last one to the first one. -/
def sidesOf (p : Path) : List (Pt × Pt) := p.zip (p.rotate 1)

/-- The closed path encloses the point. -/
def Encloses (p : Path) (q : ℚ × ℚ) : Prop := Odd ((sidesOf p).countP fun s => decide (RayCrosses q (exactPt s.1) (exactPt s.2)))

instance (p : Path) (q : ℚ × ℚ) : Decidable (Encloses p q) := by unfold Encloses; infer_instance

/-- The point is enclosed by an odd number of the closed paths. -/
def InsidePaths (ps : Paths) (q : ℚ × ℚ) : Prop := Odd (ps.countP fun p => decide (Encloses p q))

instance (ps : Paths) (q : ℚ × ℚ) : Decidable (InsidePaths ps q) := by unfold InsidePaths; infer_instance

/-- The points enclosed by a contour of the clipper library. -/
def enclosedBy (c : List IntPoint) : Set (ℚ × ℚ) := {q | Encloses (c.map fun p => ⟨p.x, p.y⟩) q}

/-- The three directed sides of a face. -/
def faceSides (f : Tri Vec3) : List (Vec3 × Vec3) := [(f.a, f.b), (f.b, f.c), (f.c, f.a)]

/-- The ray from the point `q` in the plane of height `z`, in the direction of the x axis, hits the face. A corner in the plane counts as above it. -/
def RayHits (z : Int) (q : ℚ × ℚ) (f : Tri Vec3) : Prop :=
  ∃ d ∈ faceSides f, ∃ u ∈ faceSides f, Down z d ∧ Up z u ∧ RayCrosses q (meetPoint z d) (meetPoint z u)

instance (z : Int) (s : Vec3 × Vec3) : Decidable (Down z s) := by unfold Down; infer_instance
instance (z : Int) (s : Vec3 × Vec3) : Decidable (Up z s) := by unfold Up; infer_instance
instance (z : Int) (q : ℚ × ℚ) (f : Tri Vec3) : Decidable (RayHits z q f) := by unfold RayHits; infer_instance

/-- The point `q` in the plane of height `z` is inside of the solid with the given surface. -/
def InsideSolid (fs : List (Tri Vec3)) (z : Int) (q : ℚ × ℚ) : Prop := Odd (fs.countP fun f => decide (RayHits z q f))

instance (fs : List (Tri Vec3)) (z : Int) (q : ℚ × ℚ) : Decidable (InsideSolid fs z q) := by unfold InsideSolid; infer_instance

/-- The distance is at most `d`. -/
def NearPt (d : ℚ) (p q : ℚ × ℚ) : Prop := 0 ≤ d ∧ (p.1 - q.1) ^ 2 + (p.2 - q.2) ^ 2 ≤ d ^ 2

/-- A point of the line from `a` to `b`. -/
def lineAt (a b : ℚ × ℚ) (t : ℚ) : ℚ × ℚ := (a.1 + t * (b.1 - a.1), a.2 + t * (b.2 - a.2))

/-- The point is farther than `d` away from all points of the line from `a` to `b`. -/
def FarFrom (d : ℚ) (a b q : ℚ × ℚ) : Prop :=
  ∀ t : ℚ, 0 ≤ t → t ≤ 1 → d ^ 2 < (a.1 + t * (b.1 - a.1) - q.1) ^ 2 + (a.2 + t * (b.2 - a.2) - q.2) ^ 2

/-- The point is farther than `d` away from all points of the closed path. -/
def FarFromPath (d : ℚ) (p : Path) (q : ℚ × ℚ) : Prop := ∀ s ∈ sidesOf p, FarFrom d (exactPt s.1) (exactPt s.2) q

/-- The point `q` in the plane of height `z` is farther than `d` away from the surface, measured in the plane. -/
def FarFromSurface (d : ℚ) (fs : List (Tri Vec3)) (z : Int) (q : ℚ × ℚ) : Prop :=
  ∀ f ∈ fs, ∀ s ∈ faceSides f, ∀ s' ∈ faceSides f, Down z s → Up z s' → FarFrom d (meetPoint z s) (meetPoint z s') q

end Verif.Spec
