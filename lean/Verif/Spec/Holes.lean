import Verif.Spec.Missing

/-! # Models with holes (C146 to C149) -/
namespace Verif.Spec
open Verif.Go Verif.Model

/-- The faces are a surface which may have holes: each side belongs to this face only, or to one other face, where it goes in the other direction. -/
def OpenSurface (fs : List (Tri Vec3)) : Prop :=
  ∀ (i : Nat) f s, fs[i]? = some f → IsSide f s → (∀ (k : Nat) h, fs[k]? = some h → HasSide h s → k = i) ∨
    ∃ j g, j ≠ i ∧ fs[j]? = some g ∧ IsSide g s.swap ∧ ∀ (k : Nat) h, fs[k]? = some h → HasSide h s → k = i ∨ k = j

/-- No face is on the other side of `s`: `s` is at a hole. -/
def Loose (fs : List (Tri Vec3)) (s : Vec3 × Vec3) : Prop := ∀ f ∈ fs, s.swap ∉ faceSides f

/-- The way over a hole in a plane, from a side at which the cut of a face ends to one at which the cut of a face starts. -/
abbrev Gap := (Vec3 × Vec3) × (Vec3 × Vec3)

/-- The ends of the gap in the plane of height `z` are more than `d` apart. -/
def Gap.Wider (d : ℚ) (z : Int) (g : Gap) : Prop := ¬ NearPt d (meetPoint z g.1) (meetPoint z g.2)

/-- The gaps in the plane of height `z` are at most `d` wide. -/
def Narrow (d : ℚ) (z : Int) (gaps : List Gap) : Prop := ∀ g ∈ gaps, NearPt d (meetPoint z g.1) (meetPoint z g.2)

/-- The plane of height `z` cuts the faces `fs`, which may have holes, well, and meets the holes in `gaps`: each cut which ends at a hole is the start of one gap, and different gaps
end at different cuts. Different sides are met at points which are farther apart than the meld distance (and 4 µm), and, except for the ends of a gap, than the join distance (and 4 µm). -/
structure OpenAt (o : Options) (z : Int) (gaps : List Gap) (fs : List (Tri Vec3)) : Prop where
  surface : OpenSurface fs
  tip : NoTip z fs
  ends : ∀ g ∈ gaps, Up z g.1 ∧ Down z g.2 ∧ Loose fs g.1 ∧ Loose fs g.2 ∧ (∃ f ∈ fs, g.1 ∈ faceSides f) ∧ ∃ f ∈ fs, g.2 ∈ faceSides f
  all : ∀ f ∈ fs, ∀ s ∈ faceSides f, Up z s → Loose fs s → s ∈ gaps.map Prod.fst
  once : (gaps.map Prod.fst).Nodup ∧ (gaps.map Prod.snd).Nodup
  meld : SpreadOut (o.slicing.meldDistance + 4) z fs
  join : ∀ f ∈ fs, ∀ g ∈ fs, ∀ s ∈ faceSides f, ∀ s' ∈ faceSides g, Up z s → Down z s' → s' ≠ s.swap → (s, s') ∉ gaps →
    ¬ NearPt (o.slicing.joinPolygonSnapDistance + 4) (meetPoint z s) (meetPoint z s')

/-- In addition, at most one gap is wider than the snap distances (less 4 µm). -/
structure HolesAt (o : Options) (z : Int) (gaps : List Gap) (fs : List (Tri Vec3)) : Prop extends OpenAt o z gaps fs where
  wide : gaps.Pairwise fun g g' => ¬ (g.Wider (min o.slicing.joinPolygonSnapDistance o.slicing.finishPolygonSnapDistance - 4) z ∧
    g'.Wider (min o.slicing.joinPolygonSnapDistance o.slicing.finishPolygonSnapDistance - 4) z)

/-- The point is inside, in the plane of height `z`, of the cuts of the faces together with straight lines over the gaps: a ray meets them an odd number of times. -/
def InsideClosed (gaps : List Gap) (fs : List (Tri Vec3)) (z : Int) (q : ℚ × ℚ) : Prop :=
  Odd ((fs.countP fun f => decide (RayHits z q f)) + gaps.countP fun g => decide (RayCrosses q (meetPoint z g.1) (meetPoint z g.2)))

/-- The point is farther than `D` from the straight lines over the gaps. -/
def FarFromGaps (D : ℚ) (gaps : List Gap) (z : Int) (q : ℚ × ℚ) : Prop := ∀ g ∈ gaps, FarFrom D (meetPoint z g.1) (meetPoint z g.2) q

/-! ## Any number of wide gaps -/

/-- The cut of the face in the plane of height `z` belongs to an outline with a gap wider than `d`: following the cuts and the gaps in their direction, one comes to such a gap. -/
inductive Torn (d : ℚ) (z : Int) (gaps : List Gap) (fs : List (Tri Vec3)) : Tri Vec3 → Prop
  | wide {f : Tri Vec3} {g : Gap} : g ∈ gaps → g.Wider d z → g.1 ∈ faceSides f → Torn d z gaps fs f
  | next {f f' : Tri Vec3} {s : Vec3 × Vec3} : s ∈ faceSides f → Up z s → f' ∈ fs → s.swap ∈ faceSides f' → Torn d z gaps fs f' → Torn d z gaps fs f
  | over {f f' : Tri Vec3} {g : Gap} : g ∈ gaps → g.1 ∈ faceSides f → f' ∈ fs → g.2 ∈ faceSides f' → Torn d z gaps fs f' → Torn d z gaps fs f

open Classical in
/-- The faces and gaps without those of the outlines with a gap wider than `d`. -/
noncomputable def wholeFaces (d : ℚ) (z : Int) (gaps : List Gap) (fs : List (Tri Vec3)) : List (Tri Vec3) := fs.filter fun f => decide (¬ Torn d z gaps fs f)

open Classical in
noncomputable def wholeGaps (d : ℚ) (z : Int) (gaps : List Gap) (fs : List (Tri Vec3)) : List Gap := gaps.filter fun g => decide (∀ f ∈ fs, g.1 ∈ faceSides f → ¬ Torn d z gaps fs f)

/-- Each gap is either not wider than both snap distances (less 4 µm), or wider than the join distance (and 4 µm); the ends of the latter are farther apart than the finish distance (and 4 µm), also those of different gaps. -/
structure TornAt (o : Options) (z : Int) (gaps : List Gap) (fs : List (Tri Vec3)) : Prop extends OpenAt o z gaps fs where
  split : ∀ g ∈ gaps, g.Wider (o.slicing.joinPolygonSnapDistance + 4) z ∨ NearPt (min o.slicing.joinPolygonSnapDistance o.slicing.finishPolygonSnapDistance - 4) (meetPoint z g.1) (meetPoint z g.2)
  far : ∀ g ∈ gaps, ∀ g' ∈ gaps, g.Wider (o.slicing.joinPolygonSnapDistance + 4) z → g'.Wider (o.slicing.joinPolygonSnapDistance + 4) z →
    ¬ NearPt (o.slicing.finishPolygonSnapDistance + 4) (meetPoint z g.1) (meetPoint z g'.2)

/-- In the plane of layer `n`, each outline of the faces `fs` which does not belong to the closed surface `body` has a wide gap, and all gaps are at these outlines. `k` is a bound for the number of cut faces. -/
def GoodRest (o : Options) (body fs : List (Tri Vec3)) (k n : Nat) : Prop :=
  ∃ gaps, TornAt o (layerHeight o n) gaps fs ∧ (∀ f ∈ fs, Crosses (layerHeight o n) f → f ∉ body → Torn (o.slicing.joinPolygonSnapDistance + 4) (layerHeight o n) gaps fs f) ∧
    (∀ g ∈ gaps, ∀ f ∈ body, g.1 ∉ faceSides f) ∧ 2 * cutFaces (layerHeight o n) fs ≤ k

/-! ## Holes which are closed by several triangles -/

/-- A face of the patch is on the other side of `s`. -/
def AtPatch (patch : List (Tri Vec3)) (s : Vec3 × Vec3) : Prop := ∃ g ∈ patch, s.swap ∈ faceSides g

/-- In the plane of height `z`, the patch leaves a gap between the faces `fs` which is wider than `d`. -/
def WidePatch (d : ℚ) (z : Int) (fs patch : List (Tri Vec3)) : Prop :=
  ∃ f ∈ fs, ∃ f' ∈ fs, ∃ s ∈ faceSides f, ∃ s' ∈ faceSides f', Up z s ∧ Down z s' ∧ AtPatch patch s ∧ AtPatch patch s' ∧ ¬ NearPt d (meetPoint z s) (meetPoint z s')

/-- The faces `fs` are a closed surface without the faces of the patches. In the plane of height `z` the patches do not touch each other, and each patch leaves only one gap. At most one gap
is wider than the snap distances (less 4 µm). The plane cuts the faces which are there well: different sides are met at points which are farther apart than the meld distance (and 4 µm), and than the join
distance (and 4 µm) except at the same patch. -/
structure PatchesAt (o : Options) (z : Int) (patches : List (List (Tri Vec3))) (fs : List (Tri Vec3)) : Prop where
  closed : ClosedSurface (patches.flatten ++ fs)
  proper : ∀ g ∈ patches.flatten, Proper g
  tip : NoTip z fs
  apart : patches.Pairwise fun P P' => ∀ g ∈ P, ∀ g' ∈ P', ∀ s ∈ faceSides g, Down z s ∨ Up z s → s.swap ∉ faceSides g'
  one : ∀ P ∈ patches, ∀ f ∈ fs, ∀ f' ∈ fs, ∀ s ∈ faceSides f, ∀ s' ∈ faceSides f', Up z s → Up z s' → AtPatch P s → AtPatch P s' → s = s'
  wide : patches.Pairwise fun P P' => ¬ (WidePatch (min o.slicing.joinPolygonSnapDistance o.slicing.finishPolygonSnapDistance - 4) z fs P ∧
    WidePatch (min o.slicing.joinPolygonSnapDistance o.slicing.finishPolygonSnapDistance - 4) z fs P')
  meld : SpreadOut (o.slicing.meldDistance + 4) z fs
  join : ∀ f ∈ fs, ∀ g ∈ fs, ∀ s ∈ faceSides f, ∀ s' ∈ faceSides g, Up z s → Down z s' → s' ≠ s.swap → (∀ P ∈ patches, ¬ (AtPatch P s ∧ AtPatch P s')) →
    ¬ NearPt (o.slicing.joinPolygonSnapDistance + 4) (meetPoint z s) (meetPoint z s')

/-- The points in which the plane of height `z` meets the sides of a patch are at most `d` apart. -/
def PatchesWithin (d : ℚ) (z : Int) (patches : List (List (Tri Vec3))) : Prop :=
  ∀ P ∈ patches, ∀ g ∈ P, ∀ g' ∈ P, ∀ s ∈ faceSides g, ∀ s' ∈ faceSides g', Down z s ∨ Up z s → Down z s' ∨ Up z s' → NearPt d (meetPoint z s) (meetPoint z s')

/-- The plane of layer `n` cuts the surface without the patches well, and so that they are not too wide; `k` is a bound for the number of cut faces and, in steps of 5 µm, the width of the patches. -/
def GoodPatches (o : Options) (patches : List (List (Tri Vec3))) (fs : List (Tri Vec3)) (k n : Nat) : Prop :=
  PatchesAt o (layerHeight o n) patches fs ∧ PatchesWithin (o.slicing.finishPolygonSnapDistance - 4) (layerHeight o n) patches ∧
    ∃ c : Nat, PatchesWithin (5 * c) (layerHeight o n) patches ∧ 2 * cutFaces (layerHeight o n) fs + c ≤ k

/-- In the plane of layer `n`: the faces `part` are a closed surface without the faces of narrow patches, and no side of them belongs to another face of `fs`; each outline of the other faces has a wide gap. All gaps at `part` are
those at patches. `k` is a bound for the number of cut faces and, in steps of 5 µm, the width of the patches. -/
def GoodMixed (o : Options) (patches : List (List (Tri Vec3))) (part fs : List (Tri Vec3)) (k n : Nat) : Prop :=
  PatchesAt o (layerHeight o n) patches part ∧
  (∀ f ∈ fs, f ∉ part → ∀ s ∈ faceSides f, Down (layerHeight o n) s ∨ Up (layerHeight o n) s → ∀ g ∈ part, s.swap ∉ faceSides g) ∧
  PatchesWithin (min o.slicing.joinPolygonSnapDistance o.slicing.finishPolygonSnapDistance - 4) (layerHeight o n) patches ∧
  (∃ gaps, TornAt o (layerHeight o n) gaps fs ∧
    (∀ f ∈ fs, Crosses (layerHeight o n) f → f ∉ part → Torn (o.slicing.joinPolygonSnapDistance + 4) (layerHeight o n) gaps fs f) ∧
    ∀ g ∈ gaps, ∀ f ∈ part, g.1 ∈ faceSides f → (∃ f' ∈ part, g.2 ∈ faceSides f') ∧ ∃ P ∈ patches, AtPatch P g.1 ∧ AtPatch P g.2) ∧
  ∃ c : Nat, PatchesWithin (5 * c) (layerHeight o n) patches ∧ 2 * cutFaces (layerHeight o n) fs + c ≤ k

/-! ## All of these -/

/-- What can be taken as the solid of the triangles `m`, and in which layers: with missing triangles or patches where the gaps are narrow, or the closed bodies among them where all other outlines have wide gaps,
or bodies with patches where both hold. `place` puts triangles on the bed. -/
inductive Completion (o : Options) (place : List (Tri Vec3) → List (Tri Vec3)) (m : List (Tri Vec3)) : (Nat → Nat → Prop) → List (Tri Vec3) → Prop
  | triangles (gap : List (Tri Vec3)) : Completion o place m (GoodGap o (place gap) (place m)) (place (gap ++ m))
  | patches (ps : List (List (Tri Vec3))) : Completion o place m (GoodPatches o (ps.map place) (place m)) (place (ps.flatten ++ m))
  | bodies (body : List (Tri Vec3)) : ClosedSurface body → (∀ f ∈ body, f ∈ m) → Completion o place m (GoodRest o (place body) (place m)) (place body)
  | mixed (ps : List (List (Tri Vec3))) (part : List (Tri Vec3)) : (∀ f ∈ part, f ∈ m) → Completion o place m (GoodMixed o (ps.map place) (place part) (place m)) (place (ps.flatten ++ part))

end Verif.Spec
