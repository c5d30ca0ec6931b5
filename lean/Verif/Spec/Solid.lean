import Verif.Spec.Inside
import Verif.Spec.Outside

/-! # Specification: the solid and what is printed of it -/
namespace Verif.Spec
open Verif.Model

/-- The point `x` of the plane of height `z` is on the surface. -/
def OnSurface (fs : List (Tri Vec3)) (z : Int) (x : ℚ × ℚ) : Prop :=
  ∃ f ∈ fs, ∃ s ∈ faceSides f, ∃ s' ∈ faceSides f, Down z s ∧ Up z s' ∧ OnSegment (meetPoint z s) (meetPoint z s') x

/-- Up to a tolerance, the union of contours with nothing else encloses the points which are enclosed by an odd number of the contours. -/
def UnionKeeps (lib : ClipperLib) (tol : ℚ) : Prop :=
  ∀ s tree, lib.execute .union s [] = some tree → ∀ q, (∀ c ∈ s, FarFromPath tol (asPath c) q) → (q ∈ evenOdd enclosedBy (treesContours tree) ↔ q ∈ evenOdd enclosedBy s)

/-- From each path at most `k` points were removed. -/
def Removed (k : Nat) (before after : Paths) : Prop := List.Forall₂ (fun p r => p.length ≤ r.length + k) before after

/-- All corners are less than 67 m away from the origin. -/
def SmallSurface (fs : List (Tri Vec3)) : Prop := ∀ f ∈ fs, ∀ v ∈ [f.a, f.b, f.c], |v.x| < 2 ^ 26 ∧ |v.y| < 2 ^ 26

end Verif.Spec
