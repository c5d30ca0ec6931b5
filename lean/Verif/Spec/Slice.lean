import Verif.Spec.Mesh
import Mathlib.Data.Fintype.Basic
import Mathlib.Data.Rat.Defs
import Mathlib.Algebra.Order.Field.Rat
import Mathlib.Logic.Relation

/-! # Specification of slicing

A corner is below a plane if its height is less than the height of the plane; otherwise it is not below (so it may be in the plane). -/
namespace Verif.Spec
open Verif.Model

/-- Number of corners below the plane. -/
def belowCount (z : Int) (f : Tri Vec3) : Nat := f.corners.countP fun p => decide (p.z < z)

/-- The plane cuts the face: one corner is below, or two are below and the third is above (not in the plane). -/
def Crosses (z : Int) (f : Tri Vec3) : Prop := belowCount z f = 1 ∨ belowCount z f = 2 ∧ ∀ p ∈ f.corners, p.z ≠ z

instance (z : Int) (f : Tri Vec3) : Decidable (Crosses z f) := by unfold Crosses; infer_instance

/-- `s` is one of the three directed sides of the face. -/
def IsSide (f : Tri Vec3) (s : Vec3 × Vec3) : Prop := s = (f.a, f.b) ∨ s = (f.b, f.c) ∨ s = (f.c, f.a)

/-- The side goes through the plane from above (or the plane) to below. -/
def Down (z : Int) (s : Vec3 × Vec3) : Prop := s.2.z < z ∧ z ≤ s.1.z

/-- The side goes through the plane from below to above (or the plane). -/
def Up (z : Int) (s : Vec3 × Vec3) : Prop := s.1.z < z ∧ z ≤ s.2.z

/-- One coordinate of the exact point in which the line through two points meets the plane. -/
def meet (z a0 z0 a1 z1 : Int) : ℚ := a0 + (a1 - a0) * (z - z0) / (z1 - z0)

/-- The integer is less than 1 away from the exact coordinate, and not outside of the two ends. -/
def NearMeet (z a0 z0 a1 z1 r : Int) : Prop := |(r : ℚ) - meet z a0 z0 a1 z1| < 1 ∧ min a0 a1 ≤ r ∧ r ≤ max a0 a1

/-- The point is less than 1 µm (in each coordinate) away from the point in which the side meets the plane. -/
def OnSide (z : Int) (s : Vec3 × Vec3) (p : Pt) : Prop :=
  NearMeet z s.1.x s.1.z s.2.x s.2.z p.x ∧ NearMeet z s.1.y s.1.z s.2.y s.2.z p.y

/-- The exact point in which a side meets the plane. -/
def meetPoint (z : Int) (s : Vec3 × Vec3) : ℚ × ℚ := (meet z s.1.x s.1.z s.2.x s.2.z, meet z s.1.y s.1.z s.2.y s.2.z)

/-- The x and y coordinate of the normal vector (b - a) × (c - a) of a face; it points to the outside for a face whose corners are in
counterclockwise order, seen from outside. -/
def normalX (f : Tri Vec3) : Int := (f.b.y - f.a.y) * (f.c.z - f.a.z) - (f.b.z - f.a.z) * (f.c.y - f.a.y)
@[inherit_doc normalX]
def normalY (f : Tri Vec3) : Int := (f.b.z - f.a.z) * (f.c.x - f.a.x) - (f.b.x - f.a.x) * (f.c.z - f.a.z)

/-- The height of layer number `n`. -/
def heightOf (initial thickness : Int) (n : Nat) : Int := initial + n * thickness

/-- The face reaches the height of layer `n`: it has a corner not above it and a corner not below it. The first layer also takes the faces which end less
than one layer thickness below it. -/
def ReachesLayer (initial thickness : Int) (n : Nat) (f : Tri Vec3) : Prop :=
  (∃ p ∈ f.corners, p.z ≤ heightOf initial thickness n) ∧
    ((∃ p ∈ f.corners, heightOf initial thickness n ≤ p.z) ∨ n = 0 ∧ ∃ p ∈ f.corners, initial - thickness < p.z)

/-- The faces form a closed surface with a consistent orientation: each side of each face is, in the opposite direction, a side of exactly one other face, and no third face
has this side. -/
def ClosedSurface (fs : List (Tri Vec3)) : Prop :=
  ∀ (i : Nat) f s, fs[i]? = some f → IsSide f s → ∃ j g, j ≠ i ∧ fs[j]? = some g ∧ IsSide g s.swap ∧
    ∀ (k : Nat) h, fs[k]? = some h → HasSide h s → k = i ∨ k = j

/-- One can go from one point to the other along the faces, from corner to corner. -/
def Linked (fs : List (Tri Vec3)) : Vec3 → Vec3 → Prop := Relation.ReflTransGen fun v w => ∃ t ∈ fs, v ∈ t.corners ∧ w ∈ t.corners

/-- The mesh is connected: one can go from each corner to each other corner along the faces. -/
def ConnectedMesh (fs : List (Tri Vec3)) : Prop := ∀ v ∈ vertices fs, ∀ w ∈ vertices fs, Linked fs v w

/-- There is no gap in the height of the mesh: each height between two of its corners is reached by a face. The mesh may consist of several bodies. -/
def NoGap (fs : List (Tri Vec3)) : Prop :=
  ∀ z : Int, (∃ v ∈ vertices fs, v.z ≤ z) → (∃ w ∈ vertices fs, z ≤ w.z) → ∃ f ∈ fs, (∃ p ∈ f.corners, p.z ≤ z) ∧ ∃ p ∈ f.corners, z ≤ p.z

/-- No two different corners are within the distance. -/
def Separated (d : Int) (fs : List (Tri Vec3)) : Prop := ∀ v ∈ vertices fs, ∀ w ∈ vertices fs, v ≠ w → d ^ 2 < vecDist2 v w

/-- No face touches the plane from below with a single corner. -/
def NoTip (z : Int) (fs : List (Tri Vec3)) : Prop := ∀ f ∈ fs, ¬ (belowCount z f = 2 ∧ ∃ p ∈ f.corners, p.z = z)

/-- The side has exactly one other face. -/
def OtherFace (fs : List (Tri Vec3)) (i : Fin fs.length) (s : Vec3 × Vec3) : Prop := ∃ j : Fin fs.length, j ≠ i ∧
  s.swap ∈ [(fs[j].a, fs[j].b), (fs[j].b, fs[j].c), (fs[j].c, fs[j].a)] ∧
  ∀ k : Fin fs.length, s.1 ∈ fs[k].corners ∧ s.2 ∈ fs[k].corners → k = i ∨ k = j

instance (fs : List (Tri Vec3)) (i : Fin fs.length) (s : Vec3 × Vec3) : Decidable (OtherFace fs i s) := by unfold OtherFace; infer_instance

/-- Whether faces form a closed surface can be decided. -/
instance (fs : List (Tri Vec3)) : Decidable (ClosedSurface fs) :=
  decidable_of_iff (∀ i : Fin fs.length, OtherFace fs i (fs[i].a, fs[i].b) ∧ OtherFace fs i (fs[i].b, fs[i].c) ∧ OtherFace fs i (fs[i].c, fs[i].a)) (by
    constructor
    · intro h i f s hf hs
      obtain ⟨hi, rfl⟩ := List.getElem?_eq_some_iff.1 hf
      obtain ⟨j, hji, hjs, hk⟩ : OtherFace fs ⟨i, hi⟩ s := by
        rcases hs with rfl | rfl | rfl
        exacts [(h ⟨i, hi⟩).1, (h ⟨i, hi⟩).2.1, (h ⟨i, hi⟩).2.2]
      refine ⟨j, fs[j], fun e => hji (Fin.ext e), List.getElem?_eq_getElem j.2, by simpa [IsSide] using hjs, ?_⟩
      intro k f hf hs
      obtain ⟨hk', rfl⟩ := List.getElem?_eq_some_iff.1 hf
      rcases hk ⟨k, hk'⟩ hs with e | e
      · exact .inl (congrArg Fin.val e)
      · exact .inr (congrArg Fin.val e)
    · intro h i
      suffices hh : ∀ s, IsSide fs[i] s → OtherFace fs i s from ⟨hh _ (.inl rfl), hh _ (.inr (.inl rfl)), hh _ (.inr (.inr rfl))⟩
      intro s hs
      obtain ⟨j, g, hji, hg, hgs, hk⟩ := h i fs[i] s (List.getElem?_eq_getElem i.2) hs
      obtain ⟨hj, rfl⟩ := List.getElem?_eq_some_iff.1 hg
      refine ⟨⟨j, hj⟩, fun e => hji (congrArg Fin.val e), by simpa [IsSide] using hgs, ?_⟩
      intro k hk'
      rcases hk k fs[k] (List.getElem?_eq_getElem k.2) hk' with e | e
      · exact .inl (Fin.ext e)
      · exact .inr (Fin.ext e))

instance (z : Int) (fs : List (Tri Vec3)) : Decidable (NoTip z fs) := by unfold NoTip; infer_instance

end Verif.Spec
