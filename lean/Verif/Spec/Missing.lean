import Verif.Spec.Together

/-! # Models with missing triangles (C139)

A closed surface of which the faces `gs` are not in the file. -/
namespace Verif.Spec
open Verif.Go Verif.Model

/-- Both sides are at the same missing face, on the other side of it. -/
def AtMissing (gs : List (Tri Vec3)) (s s' : Vec3 × Vec3) : Prop := ∃ g ∈ gs, s.swap ∈ faceSides g ∧ s'.swap ∈ faceSides g

/-- Different sides are met at points which are farther apart than `d`, except for the two sides at a missing face. -/
def SpreadOutBut (d : ℚ) (z : Int) (gs fs : List (Tri Vec3)) : Prop :=
  ∀ f ∈ fs, ∀ g ∈ fs, ∀ s ∈ faceSides f, ∀ s' ∈ faceSides g, Up z s → Down z s' → s' ≠ s.swap → ¬ AtMissing gs s s' → ¬ NearPt d (meetPoint z s) (meetPoint z s')

/-- The gaps which the missing faces leave in the plane of height `z` are at most `d` wide. -/
def GapsWithin (d : ℚ) (z : Int) (gs : List (Tri Vec3)) : Prop :=
  ∀ g ∈ gs, ∀ s ∈ faceSides g, ∀ s' ∈ faceSides g, Down z s → Up z s' → NearPt d (meetPoint z s) (meetPoint z s')

/-- The missing face leaves a gap in the plane of height `z` which is wider than `d`. -/
def WideGap (d : ℚ) (z : Int) (g : Tri Vec3) : Prop :=
  ∃ s ∈ faceSides g, ∃ s' ∈ faceSides g, Down z s ∧ Up z s' ∧ ¬ NearPt d (meetPoint z s) (meetPoint z s')

/-- The faces `fs` are a closed surface without the faces `gs`. The plane of height `z` cuts no two missing faces side by side, and at most one of them
leaves a gap which is wider than the snap distances (less 4 µm). It cuts the faces which are there well: different sides are met at points which are farther apart than the meld distance (and 4 µm), and than the join
distance (and 4 µm) except at a missing face. -/
structure MissingAt (o : Options) (z : Int) (gs fs : List (Tri Vec3)) : Prop where
  closed : ClosedSurface (gs ++ fs)
  proper : ∀ g ∈ gs, Proper g
  tip : NoTip z (gs ++ fs)
  apart : ∀ g ∈ gs, ∀ g' ∈ gs, ∀ s ∈ faceSides g, Down z s ∨ Up z s → s.swap ∉ faceSides g'
  wide : gs.Pairwise fun g g' => ¬ (WideGap (min o.slicing.joinPolygonSnapDistance o.slicing.finishPolygonSnapDistance - 4) z g ∧
    WideGap (min o.slicing.joinPolygonSnapDistance o.slicing.finishPolygonSnapDistance - 4) z g')
  meld : SpreadOut (o.slicing.meldDistance + 4) z fs
  join : SpreadOutBut (o.slicing.joinPolygonSnapDistance + 4) z gs fs

/-- The plane of layer `n` cuts the surface without the faces `gs` well, and so that the gap is not too wide; `k` is a bound for the number of cut faces. -/
def GoodGap (o : Options) (gs fs : List (Tri Vec3)) (k n : Nat) : Prop :=
  MissingAt o (layerHeight o n) gs fs ∧ GapsWithin (o.slicing.finishPolygonSnapDistance - 4) (layerHeight o n) gs ∧ 2 * cutFaces (layerHeight o n) fs ≤ k

end Verif.Spec
