import Verif.Props.Torn
import Verif.Props.SidesExample

/-! # Example for C148: two boxes, of which one has lost two walls -/
namespace Verif
open Verif.Go Verif.Model Verif.Spec

/-- A part of a closed surface is a surface with holes. -/
theorem openSurface_part {gs fs : List (Tri Vec3)} (h : ClosedSurface (gs ++ fs)) : OpenSurface fs := by
  have hR : ∀ (i : Nat), (gs ++ fs)[gs.length + i]? = fs[i]? := fun i => by rw [List.getElem?_append_right (by omega)]; congr 1; omega
  intro i f s hi hs
  obtain ⟨j, g, hj, hgj, hgs, honly⟩ := h _ f s (by rw [hR]; exact hi) hs
  by_cases hjl : j < gs.length
  · refine .inl fun k h hk hh => ?_
    rw [← hR] at hk
    have := honly _ h hk hh
    omega
  · obtain ⟨j', rfl⟩ : ∃ j', j = gs.length + j' := ⟨j - gs.length, by omega⟩
    rw [hR] at hgj
    refine .inr ⟨j', g, by omega, hgj, hgs, fun k h hk hh => ?_⟩
    rw [← hR] at hk
    have := honly _ h hk hh
    omega

/-- Two walls, bottom and top of a box, and its two other walls. -/
def boxPart (x y : Int) : Mesh :=
  let v (a b c : Int) : Vec3 := ⟨x + 20000 * a, y + 20000 * b, 1000 * c⟩
  [⟨v 1 0 0, v 1 1 0, v 1 1 1⟩, ⟨v 1 0 0, v 1 1 1, v 1 0 1⟩, ⟨v 0 1 0, v 0 0 0, v 0 0 1⟩, ⟨v 0 1 0, v 0 0 1, v 0 1 1⟩,
   ⟨v 0 0 0, v 1 1 0, v 1 0 0⟩, ⟨v 0 0 0, v 0 1 0, v 1 1 0⟩, ⟨v 0 0 1, v 1 0 1, v 1 1 1⟩, ⟨v 0 0 1, v 1 1 1, v 0 1 1⟩]

def boxWalls (x y : Int) : Mesh :=
  let v (a b c : Int) : Vec3 := ⟨x + 20000 * a, y + 20000 * b, 1000 * c⟩
  [⟨v 0 0 0, v 1 0 0, v 1 0 1⟩, ⟨v 0 0 0, v 1 0 1, v 0 0 1⟩, ⟨v 1 1 0, v 0 1 0, v 0 1 1⟩, ⟨v 1 1 0, v 0 1 1, v 1 1 1⟩]

/-- A complete box, and one without two walls. -/
def boxes : Mesh := boxPart 0 0 ++ boxWalls 0 0 ++ boxPart 40000 0

/-- The faces on the bed. -/
def boxFaces : List (Tri Vec3) := boxPart 70000 90000 ++ boxWalls 70000 90000 ++ boxPart 110000 90000

def boxOpt : OptModel := ((optimize {} boxes).toOption).getD { points := [], faces := [], size := ⟨0, 0, 0⟩ }

theorem boxOpt_ok : optimize {} boxes = .ok boxOpt := by decide +kernel

theorem boxFaces_ok : boxOpt.faces.mapM boxOpt.facePoints = .ok boxFaces := by decide +kernel

/-- The ways over the missing walls. -/
def boxGaps : List Gap :=
  [((⟨130000, 110000, 0⟩, ⟨130000, 110000, 1000⟩), (⟨110000, 110000, 1000⟩, ⟨110000, 110000, 0⟩)),
   ((⟨110000, 90000, 0⟩, ⟨110000, 90000, 1000⟩), (⟨130000, 90000, 1000⟩, ⟨130000, 90000, 0⟩))]

theorem box_torn : TornAt {} 400 boxGaps boxFaces := by
  refine ⟨⟨openSurface_part (gs := boxWalls 110000 90000) (by decide +kernel), by decide +kernel, ?_, ?_, by decide +kernel, ?_, ?_⟩, ?_, ?_⟩
  · unfold Up Down Loose
    decide +kernel
  · unfold Up Loose
    decide +kernel
  · unfold SpreadOut Up Down NearPt
    decide +kernel
  · unfold Up Down NearPt
    set_option synthInstance.maxHeartbeats 400000 in set_option synthInstance.maxSize 4000 in
    decide +kernel
  · unfold Gap.Wider NearPt
    decide +kernel
  · unfold Gap.Wider NearPt
    decide +kernel

/-- The walls which are still there. -/
def restWalls : List (Tri Vec3) := (boxPart 110000 90000).take 4

theorem rest_torn : ∀ f ∈ boxFaces, Torn (({} : Options).slicing.joinPolygonSnapDistance + 4) 400 boxGaps boxFaces f ↔ f ∈ restWalls := by
  have w : ∀ g ∈ boxGaps, g.Wider (({} : Options).slicing.joinPolygonSnapDistance + 4) 400 := by unfold Gap.Wider NearPt; decide +kernel
  intro f hf
  constructor
  · intro h
    induction h with
    | @wide f g hg _ hgs =>
      have : ∀ f ∈ boxFaces, ∀ g ∈ boxGaps, g.1 ∈ faceSides f → f ∈ restWalls := by decide +kernel
      exact this f hf g hg hgs
    | @next f f' s hs hu hf' hs' _ ih =>
      have : ∀ f ∈ boxFaces, ∀ f' ∈ restWalls, ∀ s ∈ faceSides f, Up 400 s → s.swap ∈ faceSides f' → f ∈ restWalls := by unfold Up; decide +kernel
      exact this f hf f' (ih hf') s hs hu hs'
    | @over f f' g hg hgs hf' hs' _ ih =>
      have : ∀ f ∈ boxFaces, ∀ g ∈ boxGaps, g.1 ∈ faceSides f → f ∈ restWalls := by decide +kernel
      exact this f hf g hg hgs
  · intro h
    have : ∀ f ∈ restWalls, (∃ g ∈ boxGaps, g.1 ∈ faceSides f) ∨ ∃ f' ∈ boxFaces, (∃ g ∈ boxGaps, g.1 ∈ faceSides f') ∧ ∃ s ∈ faceSides f, Up 400 s ∧ s.swap ∈ faceSides f' := by
      unfold Up
      decide +kernel
    rcases this f h with ⟨g, hg, hgs⟩ | ⟨f', hf', ⟨g, hg, hgs⟩, s, hs, hu, hs'⟩
    · exact .wide hg (w g hg) hgs
    · exact .next hs hu hf' hs' (.wide hg (w g hg) hgs)

theorem box_whole : wholeFaces (({} : Options).slicing.joinPolygonSnapDistance + 4) 400 boxGaps boxFaces = boxPart 70000 90000 ++ boxWalls 70000 90000 ++ (boxPart 110000 90000).drop 4 ∧
    wholeGaps (({} : Options).slicing.joinPolygonSnapDistance + 4) 400 boxGaps boxFaces = [] := by
  constructor
  · have : wholeFaces (({} : Options).slicing.joinPolygonSnapDistance + 4) 400 boxGaps boxFaces = boxFaces.filter fun f => decide (f ∉ restWalls) := by
      unfold wholeFaces
      refine List.filter_congr fun f hf => ?_
      rw [decide_eq_decide, rest_torn f hf]
    rw [this]
    decide +kernel
  · classical
    unfold wholeGaps
    rw [List.filter_eq_nil_iff]
    intro g hg h
    have := (decide_eq_true_iff (p := ∀ f ∈ boxFaces, g.1 ∈ faceSides f → ¬ Torn (({} : Options).slicing.joinPolygonSnapDistance + 4) 400 boxGaps boxFaces f)).1 h
    have hex : ∀ g ∈ boxGaps, ∃ f ∈ boxFaces, g.1 ∈ faceSides f ∧ f ∈ restWalls := by decide +kernel
    obtain ⟨f, hf, hs, hr⟩ := hex g hg
    exact this f hf hs ((rest_torn f hf).2 hr)

theorem box_segments : ((sliceSegments {} boxOpt).toOption.bind fun ls => ls[1]?.bind id).isSome := by decide +kernel

theorem box_height : layerHeight {} 1 = 400 := by decide

/-- Non-vacuity of `C148_outlines`: the outlines enclose the middle of the complete box, and nothing of the other one. -/
example : ∃ layers layer paths, sliceSegments {} boxOpt = .ok layers ∧ layers[1]? = some (some layer) ∧ makePolygons {} boxOpt layer = .ok paths ∧
    InsidePaths paths (80000, 100000) ∧ ¬ InsidePaths paths (120000, 100000) := by
  obtain ⟨layers, layer, h, hl⟩ : ∃ layers layer, sliceSegments {} boxOpt = .ok layers ∧ layers[1]? = some (some layer) := by
    have h := box_segments
    cases hs : sliceSegments {} boxOpt with
    | error f => rw [hs] at h; cases h
    | ok ls =>
      rw [hs] at h
      simp only [Except.toOption, Option.bind_some] at h
      match hl : ls[1]? with
      | none => rw [hl] at h; cases h
      | some none => rw [hl] at h; cases h
      | some (some layer) => exact ⟨ls, layer, rfl, hl⟩
  obtain ⟨paths, hp, hin⟩ := C148_outlines {} boxes boxOpt boxOpt_ok boxFaces boxGaps boxFaces_ok (by decide) (by decide) (by decide) (by decide) (by decide)
    layers h 1 layer hl (by rw [box_height]; exact box_torn)
  refine ⟨layers, layer, paths, h, hl, hp, ?_⟩
  rw [box_height, box_whole.1, box_whole.2] at hin
  have hfar : ∀ x ∈ [(80000 : ℚ), 120000], FarEnough {} (boxPart 70000 90000 ++ boxWalls 70000 90000 ++ (boxPart 110000 90000).drop 4) 1 (x, 100000) := by
    have hD : (2 * ((max 0 ({} : Options).slicing.finishPolygonSnapDistance : Int) : ℚ) + 2) = 2002 := by decide +kernel
    unfold FarEnough
    rw [box_height, hD]
    have hc : ∀ x ∈ [(80000 : ℚ), 120000], ∀ f ∈ boxPart 70000 90000 ++ boxWalls 70000 90000 ++ (boxPart 110000 90000).drop 4, ∀ s ∈ faceSides f, ∀ s' ∈ faceSides f, Down 400 s → Up 400 s' →
      ((x + 2002 < (meetPoint 400 s).1 ∧ x + 2002 < (meetPoint 400 s').1) ∨ ((meetPoint 400 s).1 < x - 2002 ∧ (meetPoint 400 s').1 < x - 2002) ∨
       ((100000 : ℚ) + 2002 < (meetPoint 400 s).2 ∧ (100000 : ℚ) + 2002 < (meetPoint 400 s').2) ∨ ((meetPoint 400 s).2 < (100000 : ℚ) - 2002 ∧ (meetPoint 400 s').2 < (100000 : ℚ) - 2002)) := by
      unfold Down Up
      decide +kernel
    intro x hx f hf s hs s' hs' h1 h2
    exact farFrom_side (by norm_num) (hc x hx f hf s hs s' hs' h1 h2)
  have hgap : ∀ x : ℚ, FarFromGaps 2 [] 400 (x, 100000) := fun x g hg => by cases hg
  have i1 : InsideClosed [] (boxPart 70000 90000 ++ boxWalls 70000 90000 ++ (boxPart 110000 90000).drop 4) 400 (80000, 100000) := by unfold InsideClosed; decide +kernel
  have i2 : ¬ InsideClosed [] (boxPart 70000 90000 ++ boxWalls 70000 90000 ++ (boxPart 110000 90000).drop 4) 400 (120000, 100000) := by unfold InsideClosed; decide +kernel
  exact ⟨(hin _ (hfar _ (by simp)) (hgap _)).2 i1, fun hc => i2 ((hin _ (hfar _ (by simp)) (hgap _)).1 hc)⟩

end Verif
