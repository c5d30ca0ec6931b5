import Verif.Props.Mixed
import Verif.Props.RestExample

/-! # Examples for C152: an overhang with a slit, above a box which has lost two walls -/
namespace Verif
open Verif.Go Verif.Model Verif.Spec Verif.Spec.GCode

/-- The missing triangles: a slit of 0.1 mm at the end of the overhang. -/
def slitPatch : Mesh := [⟨⟨38000, 0, 1900⟩, ⟨38000, 0, 900⟩, ⟨38000, 100, 900⟩⟩, ⟨⟨38000, 0, 1900⟩, ⟨38000, 100, 900⟩, ⟨38000, 100, 1900⟩⟩]

/-- The body of the example of C138 with two more corners, without the missing triangles. -/
def slitHook : Mesh :=
  let p (x z : Int) : Vec3 := ⟨x, 0, z⟩
  let q (x z : Int) : Vec3 := ⟨x, 38000, z⟩
  let r : Vec3 := ⟨38000, 100, 900⟩
  let u : Vec3 := ⟨38000, 100, 1900⟩
  [⟨p 0 0, p 8000 0, p 8000 900⟩, ⟨p 0 0, p 8000 900, p 0 1900⟩, ⟨p 8000 900, p 38000 1900, p 0 1900⟩, ⟨p 8000 900, p 38000 900, p 38000 1900⟩,
   ⟨q 8000 900, q 8000 0, q 0 0⟩, ⟨q 0 1900, q 8000 900, q 0 0⟩, ⟨q 0 1900, q 38000 1900, q 8000 900⟩, ⟨q 38000 1900, q 38000 900, q 8000 900⟩,
   ⟨p 8000 0, p 0 0, q 0 0⟩, ⟨p 8000 0, q 0 0, q 8000 0⟩, ⟨p 8000 900, p 8000 0, q 8000 0⟩, ⟨p 8000 900, q 8000 0, q 8000 900⟩,
   ⟨p 38000 900, p 8000 900, q 8000 900⟩, ⟨p 38000 900, q 8000 900, r⟩, ⟨q 8000 900, q 38000 900, r⟩, ⟨u, r, q 38000 900⟩, ⟨u, q 38000 900, q 38000 1900⟩,
   ⟨p 0 1900, p 38000 1900, u⟩, ⟨p 0 1900, u, q 38000 1900⟩, ⟨p 0 1900, q 38000 1900, q 0 1900⟩, ⟨p 0 0, p 0 1900, q 0 1900⟩, ⟨p 0 0, q 0 1900, q 0 0⟩]

def slitMesh : Mesh := slitHook ++ underBox 15000 10000 0

theorem slitHook_connected : ConnectedMesh slitHook := by
  have h : ∀ v ∈ vertices slitHook, ∀ w ∈ vertices slitHook, ∃ u ∈ vertices slitHook, (∃ t ∈ slitHook, v ∈ t.corners ∧ u ∈ t.corners) ∧ ∃ u' ∈ vertices slitHook,
      (∃ t ∈ slitHook, u ∈ t.corners ∧ u' ∈ t.corners) ∧ ∃ t ∈ slitHook, u' ∈ t.corners ∧ w ∈ t.corners := by
    decide +kernel
  intro v hv w hw
  obtain ⟨u, -, h1, u', -, h2, h3⟩ := h v hv w hw
  exact .tail (.tail (.single h1) h2) h3

theorem slit_sheet : IsSheet 30 slitMesh where
  nonempty := by decide
  proper := by decide +kernel
  different := by decide +kernel
  separated := by unfold Separated; decide +kernel
  noGap := C91_several _ _ (C91_no_gap _ slitHook_connected) (C91_no_gap _ underBox_connected) 0 (by decide +kernel) (by decide +kernel) (by decide +kernel) (by decide +kernel)

theorem slit_box : IsBox (vertices slitMesh) ⟨0, 0, 0⟩ ⟨38000, 38000, 1900⟩ := by
  constructor <;> decide +kernel

/-- The file format of the example: any content stands for the body and the box, in millimetres. -/
noncomputable def slitExt : Externals where
  lib := squareLib
  stl := fun _ => slitMesh.map (Tri.map fun v => ((v.x : ℚ) / 1000, (v.y : ℚ) / 1000, (v.z : ℚ) / 1000))
  trig := fun _ => (0, 1)
  tan := 1

theorem slit_stl : slitMesh = (slitExt.stl []).map stlTriangleToFace := by decide +kernel

/-- The body on the bed, the missing triangles and all faces. -/
def slitFaces : List (Tri Vec3) := slitHook.map (Tri.map fun v => ⟨v.x + 81000, v.y + 81000, v.z⟩)
def slitGap : List (Tri Vec3) := slitPatch.map (Tri.map fun v => ⟨v.x + 81000, v.y + 81000, v.z⟩)
def slitAll : List (Tri Vec3) := slitFaces ++ underBox 96000 91000 0

theorem slit_placed : placedBody hookOptions.printer.center ⟨0, 0, 0⟩ ⟨38000, 38000, 1900⟩ slitMesh = slitAll ∧
    placedBody hookOptions.printer.center ⟨0, 0, 0⟩ ⟨38000, 38000, 1900⟩ slitHook = slitFaces ∧
    placedBody hookOptions.printer.center ⟨0, 0, 0⟩ ⟨38000, 38000, 1900⟩ slitPatch = slitGap := by
  refine ⟨?_, ?_, ?_⟩ <;> decide +kernel

/-- The ways over the missing walls of the box below, and over the slit above. -/
def slitGaps (i : Nat) : List Gap := if i < 4 then underGaps i else [((⟨119000, 81000, 900⟩, ⟨119000, 81000, 1900⟩), (⟨119000, 81100, 1900⟩, ⟨119000, 81100, 900⟩))]

theorem slit_patches : ∀ i < 9, PatchesAt hookOptions (layerHeight hookOptions i) [slitGap] slitFaces := by
  intro i hi
  refine ⟨by decide +kernel, by decide +kernel, ?_, List.pairwise_singleton _ _, ?_, List.pairwise_singleton _ _, ?_, ?_⟩
  · revert i
    decide +kernel
  · revert i
    unfold AtPatch Up
    set_option synthInstance.maxHeartbeats 400000 in set_option synthInstance.maxSize 4000 in
    decide +kernel
  · revert i
    unfold SpreadOut Up Down NearPt
    decide +kernel
  · revert i
    unfold AtPatch Up Down NearPt
    set_option synthInstance.maxHeartbeats 400000 in set_option synthInstance.maxSize 4000 in
    decide +kernel

set_option maxHeartbeats 1000000 in
set_option synthInstance.maxHeartbeats 400000 in
set_option synthInstance.maxSize 4000 in
theorem slit_torn : ∀ i < 9, TornAt hookOptions (layerHeight hookOptions i) (slitGaps i) slitAll := by
  intro i hi
  refine ⟨⟨openSurface_part (gs := slitGap ++ underWalls 96000 91000 0) (by decide +kernel), ?_, ?_, ?_, ?_, ?_, ?_⟩, ?_, ?_⟩
  · revert i
    decide +kernel
  · revert i
    unfold Up Down Loose
    decide +kernel
  · revert i
    unfold Up Loose
    decide +kernel
  · revert i
    decide +kernel
  · revert i
    unfold SpreadOut Up Down NearPt
    decide +kernel
  · revert i
    unfold Up Down NearPt
    decide +kernel
  · revert i
    unfold Gap.Wider NearPt
    decide +kernel
  · revert i
    unfold Gap.Wider NearPt
    decide +kernel

theorem torn_of_wide {W : ℚ} {z : Int} {gaps : List Gap} {fs : List (Tri Vec3)} {f : Tri Vec3}
    (h : (∃ g ∈ gaps, g.Wider W z ∧ g.1 ∈ faceSides f) ∨ ∃ f' ∈ fs, (∃ g ∈ gaps, g.Wider W z ∧ g.1 ∈ faceSides f') ∧ ∃ s ∈ faceSides f, Up z s ∧ s.swap ∈ faceSides f') : Torn W z gaps fs f := by
  rcases h with ⟨g, hg, hw, hgs⟩ | ⟨f', hf', ⟨g, hg, hw, hgs⟩, s, hs, hu, hs'⟩
  · exact .wide hg hw hgs
  · exact .next hs hu hf' hs' (.wide hg hw hgs)

set_option synthInstance.maxHeartbeats 400000 in
set_option synthInstance.maxSize 4000 in
theorem slit_good : ∀ i < 9, GoodMixed hookOptions [slitGap] slitFaces slitAll 80 i := by
  intro i hi
  refine ⟨slit_patches i hi, ?_, ?_, ⟨slitGaps i, slit_torn i hi, ?_, ?_⟩, 21, ?_, ?_⟩
  · revert i
    unfold Up Down
    decide +kernel
  · revert i
    unfold PatchesWithin Up Down NearPt
    decide +kernel
  · intro f hf hc hb
    refine torn_of_wide ?_
    revert f i
    unfold Up Gap.Wider NearPt
    decide +kernel
  · revert i
    unfold AtPatch
    decide +kernel
  · revert i
    unfold PatchesWithin Up Down NearPt
    decide +kernel
  · revert i
    decide +kernel

theorem slit_far : ∀ i < 9, FarFromSurface 14000 (slitGap ++ slitFaces) (layerHeight hookOptions i) (104000, 100000) := by
  have h : ∀ i < 9, ∀ f ∈ slitGap ++ slitFaces, ∀ s ∈ faceSides f, ∀ s' ∈ faceSides f, Down (layerHeight hookOptions i) s → Up (layerHeight hookOptions i) s' →
      (((104000 : ℚ) + 14000 < (meetPoint (layerHeight hookOptions i) s).1 ∧ (104000 : ℚ) + 14000 < (meetPoint (layerHeight hookOptions i) s').1) ∨
       ((meetPoint (layerHeight hookOptions i) s).1 < (104000 : ℚ) - 14000 ∧ (meetPoint (layerHeight hookOptions i) s').1 < (104000 : ℚ) - 14000) ∨
       ((100000 : ℚ) + 14000 < (meetPoint (layerHeight hookOptions i) s).2 ∧ (100000 : ℚ) + 14000 < (meetPoint (layerHeight hookOptions i) s').2) ∨
       ((meetPoint (layerHeight hookOptions i) s).2 < (100000 : ℚ) - 14000 ∧ (meetPoint (layerHeight hookOptions i) s').2 < (100000 : ℚ) - 14000)) := by
    unfold Down Up
    decide +kernel
  exact fun i hi f hf s hs s' hs' h1 h2 => farFrom_side (by norm_num) (h i hi f hf s hs s' hs' h1 h2)

/-- Also a point beyond the end of the overhang is far from it. -/
theorem slit_beyond : FarFromSurface 5000 (slitGap ++ slitFaces) 1200 (125000, 100000) := by
  have h : ∀ f ∈ slitGap ++ slitFaces, ∀ s ∈ faceSides f, ∀ s' ∈ faceSides f, Down 1200 s → Up 1200 s' →
      (((125000 : ℚ) + 5000 < (meetPoint 1200 s).1 ∧ (125000 : ℚ) + 5000 < (meetPoint 1200 s').1) ∨
       ((meetPoint 1200 s).1 < (125000 : ℚ) - 5000 ∧ (meetPoint 1200 s').1 < (125000 : ℚ) - 5000) ∨
       ((100000 : ℚ) + 5000 < (meetPoint 1200 s).2 ∧ (100000 : ℚ) + 5000 < (meetPoint 1200 s').2) ∨
       ((meetPoint 1200 s).2 < (100000 : ℚ) - 5000 ∧ (meetPoint 1200 s').2 < (100000 : ℚ) - 5000)) := by
    unfold Down Up
    decide +kernel
  exact fun f hf s hs s' hs' h1 h2 => farFrom_side (by norm_num) (h f hf s hs s' hs' h1 h2)

theorem slit_inside : ∀ i < 9, (InsideSolid (slitGap ++ slitFaces) (layerHeight hookOptions i) (104000, 100000) ↔ 4 ≤ i) := by decide +kernel

theorem slit_column (m : Nat) : Column 1 9 (fun i => InsideSolid (slitGap ++ slitFaces) (layerHeight hookOptions i) (104000, 100000)) m ↔ m ≤ 2 := by
  constructor
  · rintro ⟨k, h1, h2, ⟨h3, h4, h5⟩, -⟩
    have h4 := (slit_inside _ h3).1 h4
    have h5 : ¬ 4 ≤ k + 1 := fun h => h5 ((slit_inside (k + 1) (by omega)).2 h)
    omega
  · intro hm
    refine ⟨2, hm, by omega, ⟨by omega, (slit_inside _ (by omega)).2 (by omega), fun h => ?_⟩, fun i _ h2 _ h => ?_⟩
    · have := (slit_inside _ (by omega)).1 h
      omega
    · have := (slit_inside _ (by omega)).1 h
      omega

/-- Non-vacuity of `C152_program` and `C152_support`: at 1.2 mm, every way from the middle of the overhang to the outside crosses a wall, also through the slit; below, support is printed through the box which has lost its walls. -/
example : ∃ t body mc moves, gcodeOf slitExt hookOptions [] = .ok t ∧ t = startText hookOptions ++ body ++ endText hookOptions ∧ run body = some (mc, moves) ∧
    (∀ way, WayFrom (104000, 100000) (125000, 100000) way → ∃ z, OnWay way z ∧ PrintedNear moves 1200 8 z) ∧ PrintedNear moves 400 (1000 / 2 + 9) (104000, 100000) := by
  have hsub : ∀ f ∈ slitHook, f ∈ slitMesh := fun f hf => List.mem_append_left _ hf
  obtain ⟨t, om, sliced, top, ht, -, h3, -, h5, h6, body, mc, moves, h7, h8, -, h10⟩ := C152_program slitExt hookOptions [] (tol := 2) (by norm_num) square_good turns_never hook_usual (by decide) (by decide)
    slitMesh slit_stl slit_sheet [slitPatch] slitHook hsub slit_box ⟨by decide, by decide, by decide, by decide, by decide⟩ (by unfold Rect.Small; decide +kernel) (by decide)
  have hp := h10 2 (fun l hl => square_walls hookOptions (square_sliced h3 l hl)) (by norm_num)
  obtain rfl : top = 8 := by
    simp only [layerHeight] at h5 h6
    norm_num [hookOptions, raisedOptions] at h5 h6
    omega
  obtain ⟨body', mc', moves', b1, b2, hs⟩ := C152_support slitExt hookOptions [] (tol := 2) (by norm_num) (by norm_num) square_good turns_never hook_usual (by decide) (by decide)
    slitMesh slit_stl slit_sheet [slitPatch] slitHook hsub slit_box ⟨by decide, by decide, by decide, by decide, by decide⟩ (by decide) rfl
    ⟨hook_fits.options.thickness.2, (by rw [show slitExt.tan = 1 from rfl, show hookOptions.print.layerThickness = 200 from rfl]; norm_num), hook_fits.options.spacing.2.trans (by norm_num),
      hook_fits.options.gap.trans (by norm_num)⟩ ⟨by decide +kernel, by decide +kernel, by decide +kernel, by decide +kernel⟩ ht h5 h6
  rw [h7] at b1
  obtain rfl := body_unique b1
  rw [h8] at b2
  cases b2
  rw [placed_patches, List.map_singleton, slit_placed.1, slit_placed.2.1, slit_placed.2.2, List.flatten_singleton] at hp hs
  refine ⟨t, body, mc, moves, ht, h7, h8, fun way hway => ?_, ?_⟩
  · have e5 : layerHeight hookOptions 5 = 1200 := by decide
    have hall : ∀ q ∈ [((104000, 100000) : ℚ × ℚ), (125000, 100000)], FarFromSurface 5000 (slitGap ++ slitFaces) (layerHeight hookOptions 5) q := by
      intro q hq
      rcases List.mem_cons.1 hq with rfl | hq
      · exact farFromSurface_mono (slit_far 5 (by norm_num)) (by norm_num) (by norm_num)
      · rw [List.mem_singleton.1 hq, e5]; exact slit_beyond
    have hd : 0 ≤ wallReach hookOptions 2 80 0 ∧ wallReach hookOptions 2 80 0 ≤ 5000 := by decide +kernel
    obtain ⟨z, z1, z2, -⟩ := hp.walls 5 (by norm_num) 80 (slit_good 5 (by norm_num)) _ _ way hway (by decide +kernel) (by decide +kernel)
      (fun q hq => farFromSurface_mono (hall q hq) (by decide +kernel) (by decide +kernel)) 0 (by decide) fun q hq => farFromSurface_mono (hall q hq) hd.1 hd.2
    exact ⟨z, z1, by rw [e5] at z2; exact z2⟩
  · have hdep : 0 ≤ columnDepth hookOptions 1 2 8 80 705 ∧ columnDepth hookOptions 1 2 8 80 705 ≤ 14000 := by decide +kernel
    have hsp : toMicrometer hookOptions.print.support.patternSpacing = 1000 := by decide +kernel
    have hwd : hookOptions.printer.extrusionWidth = 400 := rfl
    have e1 : layerHeight hookOptions 1 = 400 := by decide
    have := hs.column 1 80 (by norm_num) (.inl le_rfl) (fun i _ h => slit_good i (by omega)) _
      (fun i _ h => farFromSurface_mono (slit_far i (by omega)) (by decide +kernel) (by decide +kernel)) ((slit_column 1).2 (by norm_num)) ⟨by decide, by decide, (slit_column _).2 (by decide)⟩
      (fun i _ hi => by
        rw [hsp, hwd, show slitExt.tan = 1 from rfl, show (((1000 : Int) : ℚ) / 2 + ((400 : Int) : ℚ) / 2 + 5) = 705 by norm_num]
        exact farFromSurface_mono (slit_far i (by omega)) hdep.1 hdep.2)
    rw [hsp, e1] at this
    push_cast at this
    exact this

end Verif
