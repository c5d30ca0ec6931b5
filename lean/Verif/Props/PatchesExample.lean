import Verif.Props.PatchesWhole
import Verif.Props.TogetherExample

/-! # Examples for C146 and C147: the pyramid without two triangles which are side by side -/
namespace Verif
open Verif.Go Verif.Model Verif.Spec Verif.Spec.GCode

/-- A flat pyramid with a right angle and a notch at one side. The two triangles of the notch are missing in the file; at the bottom it is `e` wide. -/
def tent (e : Int) : Mesh :=
  [⟨⟨0, 0, 0⟩, ⟨20000, 0, 0⟩, ⟨0, 0, 1000⟩⟩, ⟨⟨20000, 0, 0⟩, ⟨0, 20000, 0⟩, ⟨0, 0, 1000⟩⟩, ⟨⟨0, 20000, 0⟩, ⟨0, e, 0⟩, ⟨0, 0, 1000⟩⟩,
   ⟨⟨20000, 0, 0⟩, ⟨0, 0, 0⟩, ⟨50, e / 2, 0⟩⟩, ⟨⟨20000, 0, 0⟩, ⟨50, e / 2, 0⟩, ⟨0, e, 0⟩⟩, ⟨⟨0, 20000, 0⟩, ⟨20000, 0, 0⟩, ⟨0, e, 0⟩⟩]

/-- The missing triangles. -/
def tentPatch (e : Int) : Mesh := [⟨⟨50, e / 2, 0⟩, ⟨0, 0, 0⟩, ⟨0, 0, 1000⟩⟩, ⟨⟨0, e, 0⟩, ⟨50, e / 2, 0⟩, ⟨0, 0, 1000⟩⟩]

/-- The faces on the bed. -/
def tentFaces (e : Int) : List (Tri Vec3) := (tent e).map (Tri.map fun v => ⟨v.x + 90000, v.y + 90000, v.z⟩)
def tentGap (e : Int) : List (Tri Vec3) := (tentPatch e).map (Tri.map fun v => ⟨v.x + 90000, v.y + 90000, v.z⟩)

def tentOpt (e : Int) : OptModel := ((optimize {} (tent e)).toOption).getD { points := [], faces := [], size := ⟨0, 0, 0⟩ }

theorem tent_ok : optimize {} (tent 500) = .ok (tentOpt 500) ∧ optimize {} (tent 5000) = .ok (tentOpt 5000) := by constructor <;> decide +kernel

theorem tentFaces_ok : (tentOpt 500).faces.mapM (tentOpt 500).facePoints = .ok (tentFaces 500) ∧ (tentOpt 5000).faces.mapM (tentOpt 5000).facePoints = .ok (tentFaces 5000) := by
  constructor <;> decide +kernel

theorem tent_patches : PatchesAt {} 400 [tentGap 500] (tentFaces 500) ∧ PatchesAt {} 400 [tentGap 5000] (tentFaces 5000) := by
  constructor <;>
  · refine ⟨by decide +kernel, by decide +kernel, by decide +kernel, List.pairwise_singleton _ _, ?_, List.pairwise_singleton _ _, ?_, ?_⟩
    · unfold AtPatch Up
      decide +kernel
    · unfold SpreadOut Up Down NearPt
      decide +kernel
    · unfold AtPatch Up Down NearPt
      decide +kernel

theorem tent_proper : (∀ f ∈ tentFaces 500, Proper f) ∧ ∀ f ∈ tentFaces 5000, Proper f := by
  constructor <;> decide +kernel

/-- The way over the hole in the plane: from the side between the notch and the rest of its wall to the edge of the pyramid. -/
def tentGaps (e : Int) : List Gap := [((⟨90000, 90000 + e, 0⟩, ⟨90000, 90000, 1000⟩), (⟨90000, 90000, 1000⟩, ⟨90000, 90000, 0⟩))]

theorem tent_gaps : patchGaps 400 [tentGap 500] = tentGaps 500 ∧ patchGaps 400 [tentGap 5000] = tentGaps 5000 := by
  unfold patchGaps gapsOf looseDowns looseUps downs ups Down Up
  constructor <;> decide +kernel

theorem tent_holes : HolesAt {} 400 (tentGaps 500) (tentFaces 500) ∧ HolesAt {} 400 (tentGaps 5000) (tentFaces 5000) := by
  rw [← tent_gaps.1, ← tent_gaps.2]
  exact ⟨patches_holes tent_patches.1 tent_proper.1, patches_holes tent_patches.2 tent_proper.2⟩

theorem tent_segments : ((sliceSegments {} (tentOpt 500)).toOption.bind fun ls => ls[1]?.bind id).isSome ∧ ((sliceSegments {} (tentOpt 5000)).toOption.bind fun ls => ls[1]?.bind id).isSome := by
  constructor <;> decide +kernel

theorem tent_layer {e : Int} (h : ((sliceSegments {} (tentOpt e)).toOption.bind fun ls => ls[1]?.bind id).isSome) :
    ∃ layers layer, sliceSegments {} (tentOpt e) = .ok layers ∧ layers[1]? = some (some layer) := by
  cases hs : sliceSegments {} (tentOpt e) with
  | error f => rw [hs] at h; cases h
  | ok ls =>
    rw [hs] at h
    simp only [Except.toOption, Option.bind_some] at h
    match hl : ls[1]? with
    | none => rw [hl] at h; cases h
    | some none => rw [hl] at h; cases h
    | some (some layer) => exact ⟨ls, layer, rfl, hl⟩

/-- The points (93.5 mm, 93.5 mm) and (86 mm, 93.5 mm) are far from the lines in which the plane of the second layer meets the pyramid. -/
theorem tent_far {e : Int} (he : e = 500 ∨ e = 5000) : FarEnough {} (tentGap e ++ tentFaces e) 1 (93500, 93500) ∧ FarEnough {} (tentGap e ++ tentFaces e) 1 (86000, 93500) := by
  have hD : (2 * ((max 0 ({} : Options).slicing.finishPolygonSnapDistance : Int) : ℚ) + 2) = 2002 := by decide +kernel
  unfold FarEnough
  rw [roof_height, hD]
  have cuts : ∀ f ∈ tentGap e ++ tentFaces e, ∀ s ∈ faceSides f, ∀ s' ∈ faceSides f, Down 400 s → Up 400 s' → (meetPoint 400 s, meetPoint 400 s') ∈
      [((90000, 90000), (102000, 90000)), ((102000, 90000), (90000, 102000)), ((90000, 102000), (90000, 90000 + 3 / 5 * (e : ℚ))),
       ((90000, 90000 + 3 / 5 * (e : ℚ)), (90030, 90000 + 3 / 10 * (e : ℚ))), ((90030, 90000 + 3 / 10 * (e : ℚ)), ((90000 : ℚ), (90000 : ℚ)))] := by
    rcases he with rfl | rfl <;> decide +kernel
  constructor <;>
  · intro f hf s hs s' hs' hd hu t h0 h1
    have := cuts f hf s hs s' hs' hd hu
    simp only [List.mem_cons, Prod.mk.injEq, List.not_mem_nil, or_false] at this
    rcases he with rfl | rfl <;> rcases this with ⟨e, e'⟩ | ⟨e, e'⟩ | ⟨e, e'⟩ | ⟨e, e'⟩ | ⟨e, e'⟩ <;> rw [e, e'] <;> norm_num <;> nlinarith

theorem tent_line {e : Int} (he : e = 500 ∨ e = 5000) : FarFromGaps 2 (tentGaps e) 400 (93500, 93500) ∧ FarFromGaps 2 (tentGaps e) 400 (86000, 93500) := by
  have cuts : ∀ g ∈ tentGaps e, meetPoint 400 g.1 = (90000, 90000 + 3 / 5 * (e : ℚ)) ∧ meetPoint 400 g.2 = (90000, 90000) := by
    rcases he with rfl | rfl <;> decide +kernel
  constructor <;>
  · intro g hg t h0 h1
    obtain ⟨e1, e2⟩ := cuts g hg
    rw [e1, e2]
    rcases he with rfl | rfl <;> norm_num <;> nlinarith

theorem far_part {gs fs : List (Tri Vec3)} {x : ℚ × ℚ} {o : Options} {n : Nat} (h : FarEnough o (gs ++ fs) n x) : FarEnough o fs n x := (farFromSurface_append h).2

/-- Non-vacuity of `C146_repaired`: with a gap of 0.3 mm, the outline is closed by a line: (93.5 mm, 93.5 mm) is enclosed, (86 mm, 93.5 mm) is not. -/
example : ∃ layers layer paths, sliceSegments {} (tentOpt 500) = .ok layers ∧ layers[1]? = some (some layer) ∧ makePolygons {} (tentOpt 500) layer = .ok paths ∧
    InsidePaths paths (93500, 93500) ∧ ¬ InsidePaths paths (86000, 93500) := by
  obtain ⟨layers, layer, h, hl⟩ := tent_layer tent_segments.1
  obtain ⟨paths, hp, hin⟩ := C146_repaired {} (tent 500) (tentOpt 500) tent_ok.1 (tentFaces 500) (tentGaps 500) tentFaces_ok.1 (by decide) (by decide) (by decide) (by decide) (by decide)
    layers h 1 layer hl (by rw [roof_height]; exact tent_holes.1) (by
      rw [roof_height]
      unfold Narrow NearPt
      decide +kernel)
  have hf := tent_far (e := 500) (.inl rfl)
  have hg := tent_line (e := 500) (.inl rfl)
  rw [roof_height] at hin
  have i1 : InsideClosed (tentGaps 500) (tentFaces 500) 400 (93500, 93500) := by unfold InsideClosed; decide +kernel
  have i2 : ¬ InsideClosed (tentGaps 500) (tentFaces 500) 400 (86000, 93500) := by unfold InsideClosed; decide +kernel
  exact ⟨layers, layer, paths, h, hl, hp, (hin _ (far_part hf.1) hg.1).2 i1, fun hc => i2 ((hin _ (far_part hf.2) hg.2).1 hc)⟩

/-- Non-vacuity of `C146_lost`: with a gap of 3 mm, an outline is lost. -/
example : ∃ layers layer paths p, sliceSegments {} (tentOpt 5000) = .ok layers ∧ layers[1]? = some (some layer) ∧ makePolygons {} (tentOpt 5000) layer = .ok paths ∧
    (InsidePaths paths (93500, 93500) ↔ ¬ Encloses p (93500, 93500)) := by
  obtain ⟨layers, layer, h, hl⟩ := tent_layer tent_segments.2
  obtain ⟨paths, p, hp, -, hin⟩ := C146_lost {} (tent 5000) (tentOpt 5000) tent_ok.2 (tentFaces 5000) (tentGaps 5000) tentFaces_ok.2 (by decide) (by decide) (by decide) (by decide) (by decide)
    layers h 1 layer hl (by rw [roof_height]; exact tent_holes.2) (by
      rw [roof_height]
      unfold Gap.Wider NearPt
      decide +kernel)
  refine ⟨layers, layer, paths, p, h, hl, hp, ?_⟩
  rw [roof_height] at hin
  rw [hin _ (far_part (tent_far (e := 5000) (.inr rfl)).1) (tent_line (e := 5000) (.inr rfl)).1]
  have : InsideClosed (tentGaps 5000) (tentFaces 5000) 400 (93500, 93500) := by unfold InsideClosed; decide +kernel
  exact ⟨fun hn he => hn ⟨fun _ => this, fun _ => he⟩, fun hn hi => hn (hi.2 this)⟩

/-! ## The program -/

theorem tent_connected : ConnectedMesh (tent 500) := by
  have h : ∀ v ∈ vertices (tent 500), ∀ w ∈ vertices (tent 500), ∃ u ∈ vertices (tent 500), (∃ t ∈ tent 500, v ∈ t.corners ∧ u ∈ t.corners) ∧ ∃ t ∈ tent 500, u ∈ t.corners ∧ w ∈ t.corners := by
    decide +kernel
  intro v hv w hw
  obtain ⟨u, -, h1, h2⟩ := h v hv w hw
  exact .tail (.single h1) h2

theorem tent_sheet : IsSheet ({} : Options).slicing.meldDistance (tent 500) where
  nonempty := by decide
  proper := by decide +kernel
  different := by decide +kernel
  separated := by unfold Separated; decide +kernel
  noGap := C91_no_gap _ tent_connected

theorem tent_box : IsBox (vertices (tent 500)) ⟨0, 0, 0⟩ ⟨20000, 20000, 1000⟩ := by
  constructor <;> decide +kernel

/-- The files of the example: any content stands for the pyramid, in millimetres. -/
noncomputable def tentExt : Externals where
  lib := squareLib
  stl := fun _ => (tent 500).map (Tri.map fun v => ((v.x : ℚ) / 1000, (v.y : ℚ) / 1000, (v.z : ℚ) / 1000))
  trig := blockExt.trig
  tan := 1

theorem tent_stl : (tentExt.stl []).map stlTriangleToFace = tent 500 := by decide +kernel

theorem tent_placed : placedBody ({} : Options).printer.center ⟨0, 0, 0⟩ ⟨20000, 20000, 1000⟩ (tent 500) = tentFaces 500 ∧
    placedBody ({} : Options).printer.center ⟨0, 0, 0⟩ ⟨20000, 20000, 1000⟩ (tentPatch 500) = tentGap 500 := by
  constructor <;> decide +kernel

theorem tent_good : GoodPatches {} [tentGap 500] (tentFaces 500) 80 1 := by
  refine ⟨by rw [roof_height]; exact tent_patches.1, ?_, 70, ?_, by rw [roof_height]; decide +kernel⟩ <;>
  · rw [roof_height]
    unfold PatchesWithin Up Down NearPt
    decide +kernel

/-- Non-vacuity of `C147_program`: although two triangles are missing side by side, every way from the inside of the pyramid through the wall or the hole to the outside crosses both walls. -/
example : ∃ t body mc moves, gcodeOf tentExt {} [] = .ok t ∧ t = startText {} ++ body ++ endText {} ∧ run body = some (mc, moves) ∧
    ∀ way, WayFrom (93500, 93500) (86000, 93500) way → ∀ j : Nat, j < 2 → ∃ z, OnWay way z ∧ PrintedNear moves 400 8 z := by
  obtain ⟨t, om, sliced, top, h1, -, h3, -, h5, h6, body, mc, moves, h7, h8, -, h10⟩ := C147_program tentExt {} [] (tol := 2) (by norm_num) square_good turns_never usual_empty (by decide) (by decide)
    [tentPatch 500] (tent 500) tent_stl.symm tent_sheet tent_box ⟨by decide, by decide, by decide, by decide, by decide⟩ (by unfold Rect.Small; decide +kernel) (by decide)
  have h := h10 2 (fun l hl => square_walls {} (square_sliced h3 l hl)) (by norm_num)
  have htop : 1 ≤ top := by
    simp only [layerHeight] at h5 h6
    norm_num at h5 h6
    omega
  rw [placed_patches, List.map_singleton, tent_placed.1, tent_placed.2, List.flatten_singleton] at h
  refine ⟨t, body, mc, moves, h1, h7, h8, fun way hway j hj => ?_⟩
  have hf := tent_far (e := 500) (.inl rfl)
  have hall : ∀ q ∈ [((93500, 93500) : ℚ × ℚ), (86000, 93500)], FarEnough {} (tentGap 500 ++ tentFaces 500) 1 q := by
    intro q hq
    rcases List.mem_cons.1 hq with rfl | hq
    · exact hf.1
    · rw [List.mem_singleton.1 hq]; exact hf.2
  have hdj : ∀ j < 2, 0 ≤ wallReach {} 2 80 j ∧ wallReach {} 2 80 j ≤ 2 * ((max 0 ({} : Options).slicing.finishPolygonSnapDistance : Int) : ℚ) + 2 := by decide +kernel
  obtain ⟨z, z1, z2, -⟩ := h.walls 1 htop 80 tent_good _ _ way hway (by decide +kernel) (by decide +kernel) hall j (show (j : Int) < 2 by omega)
    fun q hq => farFromSurface_mono (hall q hq) (hdj j hj).1 (hdj j hj).2
  exact ⟨z, z1, z2⟩

end Verif
