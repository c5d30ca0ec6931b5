import Verif.Props.PatchesWhole
import Verif.Props.CommandExample

/-! # Example for C147: support below an overhang with two missing triangles side by side -/
namespace Verif
open Verif.Go Verif.Model Verif.Spec Verif.Spec.GCode

/-- The missing triangles, at the end of the overhang. -/
def hookPatch : Mesh := [⟨⟨38000, 0, 1900⟩, ⟨38000, 0, 900⟩, ⟨37950, 200, 900⟩⟩, ⟨⟨38000, 0, 1900⟩, ⟨37950, 200, 900⟩, ⟨38000, 400, 900⟩⟩]

/-- The body of the example of C138 with two more corners, without the missing triangles. -/
def tornHook : Mesh :=
  let p (x z : Int) : Vec3 := ⟨x, 0, z⟩
  let q (x z : Int) : Vec3 := ⟨x, 38000, z⟩
  let r : Vec3 := ⟨38000, 400, 900⟩
  [⟨p 0 0, p 8000 0, p 8000 900⟩, ⟨p 0 0, p 8000 900, p 0 1900⟩, ⟨p 8000 900, p 38000 1900, p 0 1900⟩, ⟨p 8000 900, p 38000 900, p 38000 1900⟩,
   ⟨q 8000 900, q 8000 0, q 0 0⟩, ⟨q 0 1900, q 8000 900, q 0 0⟩, ⟨q 0 1900, q 38000 1900, q 8000 900⟩, ⟨q 38000 1900, q 38000 900, q 8000 900⟩,
   ⟨p 8000 0, p 0 0, q 0 0⟩, ⟨p 8000 0, q 0 0, q 8000 0⟩, ⟨p 8000 900, p 8000 0, q 8000 0⟩, ⟨p 8000 900, q 8000 0, q 8000 900⟩,
   ⟨p 38000 900, p 8000 900, q 8000 900⟩, ⟨p 38000 900, q 8000 900, ⟨37950, 200, 900⟩⟩, ⟨q 8000 900, r, ⟨37950, 200, 900⟩⟩, ⟨q 8000 900, q 38000 900, r⟩, ⟨p 38000 1900, r, q 38000 900⟩, ⟨p 38000 1900, q 38000 900, q 38000 1900⟩,
   ⟨p 0 1900, p 38000 1900, q 38000 1900⟩, ⟨p 0 1900, q 38000 1900, q 0 1900⟩, ⟨p 0 0, p 0 1900, q 0 1900⟩, ⟨p 0 0, q 0 1900, q 0 0⟩]

theorem tornHook_connected : ConnectedMesh tornHook := by
  have h : ∀ v ∈ vertices tornHook, ∀ w ∈ vertices tornHook, ∃ u ∈ vertices tornHook, (∃ t ∈ tornHook, v ∈ t.corners ∧ u ∈ t.corners) ∧ ∃ u' ∈ vertices tornHook,
      (∃ t ∈ tornHook, u ∈ t.corners ∧ u' ∈ t.corners) ∧ ∃ t ∈ tornHook, u' ∈ t.corners ∧ w ∈ t.corners := by
    decide +kernel
  intro v hv w hw
  obtain ⟨u, -, h1, u', -, h2, h3⟩ := h v hv w hw
  exact .tail (.tail (.single h1) h2) h3

theorem tornHook_sheet : IsSheet 30 tornHook where
  nonempty := by decide
  proper := by decide +kernel
  different := by decide +kernel
  separated := by unfold Separated; decide +kernel
  noGap := C91_no_gap _ tornHook_connected

theorem tornHook_box : IsBox (vertices tornHook) ⟨0, 0, 0⟩ ⟨38000, 38000, 1900⟩ := by
  constructor <;> decide +kernel

/-- The file format of the example: any content stands for the torn body, in millimetres. -/
noncomputable def tornHookExt : Externals where
  lib := squareLib
  stl := fun _ => tornHook.map (Tri.map fun v => ((v.x : ℚ) / 1000, (v.y : ℚ) / 1000, (v.z : ℚ) / 1000))
  trig := fun _ => (0, 1)
  tan := 1

theorem tornHook_stl : tornHook = (tornHookExt.stl []).map stlTriangleToFace := by decide +kernel

/-- The body on the bed, and the missing triangles. -/
def tornFaces : List (Tri Vec3) := tornHook.map (Tri.map fun v => ⟨v.x + 81000, v.y + 81000, v.z⟩)
def tornGap : List (Tri Vec3) := hookPatch.map (Tri.map fun v => ⟨v.x + 81000, v.y + 81000, v.z⟩)

theorem torn_placed : placedBody hookOptions.printer.center ⟨0, 0, 0⟩ ⟨38000, 38000, 1900⟩ tornHook = tornFaces ∧
    placedBody hookOptions.printer.center ⟨0, 0, 0⟩ ⟨38000, 38000, 1900⟩ hookPatch = tornGap := by
  constructor <;> decide +kernel

theorem torn_good : ∀ i < 9, GoodPatches hookOptions [tornGap] tornFaces 110 i := by
  intro i hi
  refine ⟨⟨by decide +kernel, by decide +kernel, ?_, List.pairwise_singleton _ _, ?_, List.pairwise_singleton _ _, ?_, ?_⟩, ?_, 72, ?_, ?_⟩
  · revert i
    decide +kernel
  · revert i
    unfold AtPatch Up
    set_option synthInstance.maxHeartbeats 400000 in set_option synthInstance.maxSize 4000 in
    decide +kernel
  · revert i
    unfold SpreadOut Up Down NearPt
    decide +kernel
  · revert i
    unfold AtPatch Up Down NearPt
    set_option synthInstance.maxHeartbeats 400000 in set_option synthInstance.maxSize 4000 in
    decide +kernel
  · revert i
    unfold PatchesWithin Up Down NearPt
    decide +kernel
  · revert i
    unfold PatchesWithin Up Down NearPt
    decide +kernel
  · revert i
    decide +kernel

theorem torn_far : ∀ i < 9, FarFromSurface 14000 (tornGap ++ tornFaces) (layerHeight hookOptions i) (104000, 100000) := by
  have h : ∀ i < 9, ∀ f ∈ tornGap ++ tornFaces, ∀ s ∈ faceSides f, ∀ s' ∈ faceSides f, Down (layerHeight hookOptions i) s → Up (layerHeight hookOptions i) s' →
      (((104000 : ℚ) + 14000 < (meetPoint (layerHeight hookOptions i) s).1 ∧ (104000 : ℚ) + 14000 < (meetPoint (layerHeight hookOptions i) s').1) ∨
       ((meetPoint (layerHeight hookOptions i) s).1 < (104000 : ℚ) - 14000 ∧ (meetPoint (layerHeight hookOptions i) s').1 < (104000 : ℚ) - 14000) ∨
       ((100000 : ℚ) + 14000 < (meetPoint (layerHeight hookOptions i) s).2 ∧ (100000 : ℚ) + 14000 < (meetPoint (layerHeight hookOptions i) s').2) ∨
       ((meetPoint (layerHeight hookOptions i) s).2 < (100000 : ℚ) - 14000 ∧ (meetPoint (layerHeight hookOptions i) s').2 < (100000 : ℚ) - 14000)) := by
    unfold Down Up
    decide +kernel
  exact fun i hi f hf s hs s' hs' h1 h2 => farFrom_side (by norm_num) (h i hi f hf s hs s' hs' h1 h2)

theorem torn_inside : ∀ i < 9, (InsideSolid (tornGap ++ tornFaces) (layerHeight hookOptions i) (104000, 100000) ↔ 4 ≤ i) := by decide +kernel

theorem torn_column (m : Nat) : Column 1 9 (fun i => InsideSolid (tornGap ++ tornFaces) (layerHeight hookOptions i) (104000, 100000)) m ↔ m ≤ 2 := by
  constructor
  · rintro ⟨k, h1, h2, ⟨h3, h4, h5⟩, -⟩
    have h4 := (torn_inside _ h3).1 h4
    have h5 : ¬ 4 ≤ k + 1 := fun h => h5 ((torn_inside (k + 1) (by omega)).2 h)
    omega
  · intro hm
    refine ⟨2, hm, by omega, ⟨by omega, (torn_inside _ (by omega)).2 (by omega), fun h => ?_⟩, fun i _ h2 _ h => ?_⟩
    · have := (torn_inside _ (by omega)).1 h
      omega
    · have := (torn_inside _ (by omega)).1 h
      omega

/-- Non-vacuity of `C147_support`: although two triangles are missing side by side at the end of the overhang, support is printed in the second and interface in the third layer below its middle. -/
example : ∃ t body mc moves, gcodeOf tornHookExt hookOptions [] = .ok t ∧ t = startText hookOptions ++ body ++ endText hookOptions ∧ run body = some (mc, moves) ∧
    PrintedNear moves 400 (1000 / 2 + 9) (104000, 100000) ∧ PrintedNear moves 600 (400 / 2 + 9) (104000, 100000) := by
  obtain ⟨t, om, sliced, top, ht, -, -, -, h2, h3, -⟩ := C147_program tornHookExt hookOptions [] (tol := 2) (by norm_num) square_good turns_never hook_usual (by decide) (by decide)
    [hookPatch] tornHook tornHook_stl tornHook_sheet tornHook_box ⟨by decide, by decide, by decide, by decide, by decide⟩ (by unfold Rect.Small; decide +kernel) (by decide)
  obtain rfl : top = 8 := by
    simp only [layerHeight] at h2 h3
    norm_num [hookOptions, raisedOptions] at h2 h3
    omega
  obtain ⟨body, mc, moves, h4, h5, hs⟩ := C147_support tornHookExt hookOptions [] (tol := 2) (by norm_num) (by norm_num) square_good turns_never hook_usual (by decide) (by decide)
    [hookPatch] tornHook tornHook_stl tornHook_sheet tornHook_box ⟨by decide, by decide, by decide, by decide, by decide⟩ (by decide) rfl
    ⟨hook_fits.options.thickness.2, (by rw [show tornHookExt.tan = 1 from rfl, show hookOptions.print.layerThickness = 200 from rfl]; norm_num), hook_fits.options.spacing.2.trans (by norm_num),
      hook_fits.options.gap.trans (by norm_num)⟩ ⟨by decide +kernel, by decide +kernel, by decide +kernel, by decide +kernel⟩ ht h2 h3
  refine ⟨t, body, mc, moves, ht, h4, h5, ?_⟩
  rw [placed_patches, List.map_singleton, torn_placed.1, torn_placed.2, List.flatten_singleton] at hs
  have hgood : ∀ n i : Nat, n ≤ i → i ≤ 8 → GoodPatches hookOptions [tornGap] tornFaces 110 i := fun _ i _ h => torn_good i (by omega)
  have hen : ∀ n i : Nat, n ≤ i → i ≤ 8 → FarEnough hookOptions (tornGap ++ tornFaces) i (104000, 100000) :=
    fun _ i _ h => farFromSurface_mono (torn_far i (by omega)) (by decide +kernel) (by decide +kernel)
  have hdep : ∀ D : ℚ, 0 ≤ D → D ≤ 705 → 0 ≤ columnDepth hookOptions tornHookExt.tan 2 8 110 D ∧ columnDepth hookOptions tornHookExt.tan 2 8 110 D ≤ 14000 := by
    intro D h0 h1
    have e : columnDepth hookOptions tornHookExt.tan 2 8 110 D = D + columnDepth hookOptions 1 2 8 110 0 := by
      unfold columnDepth
      rw [show tornHookExt.tan = 1 from rfl]
      ring
    have e' : 0 ≤ columnDepth hookOptions 1 2 8 110 0 ∧ columnDepth hookOptions 1 2 8 110 0 ≤ 13000 := by decide +kernel
    rw [e]
    constructor <;> linarith
  have hsp : toMicrometer hookOptions.print.support.patternSpacing = 1000 := by decide +kernel
  have hwd : hookOptions.printer.extrusionWidth = 400 := rfl
  have e1 : layerHeight hookOptions 1 = 400 := by decide
  have e2 : layerHeight hookOptions 2 = 600 := by decide
  constructor
  · have := hs.column 1 110 (by norm_num) (.inl le_rfl) (hgood 1) _ (hen 1) ((torn_column 1).2 (by norm_num)) ⟨by decide, by decide, (torn_column _).2 (by decide)⟩
      (fun i _ hi => farFromSurface_mono (torn_far i (by omega)) (hdep _ (by rw [hsp, hwd]; norm_num) (by rw [hsp, hwd]; norm_num)).1
        (hdep _ (by rw [hsp, hwd]; norm_num) (by rw [hsp, hwd]; norm_num)).2)
    rw [hsp, e1] at this
    push_cast at this
    exact this
  · have := hs.interface 2 110 (by norm_num) (.inl (by norm_num)) (hgood 2) _ (hen 2) ((torn_column 2).2 le_rfl) (fun hc => by
        have := (torn_column _).1 hc.2.2
        revert this
        decide)
      (fun i _ hi => farFromSurface_mono (torn_far i (by omega)) (hdep _ (by rw [hwd]; norm_num) (by rw [hwd]; norm_num)).1
        (hdep _ (by rw [hwd]; norm_num) (by rw [hwd]; norm_num)).2)
    rw [hwd, e2] at this
    push_cast at this
    exact this

end Verif
