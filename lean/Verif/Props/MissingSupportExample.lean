import Verif.Props.MissingSupport
import Verif.Props.CommandExample

/-! # Example for C140: support below an overhang with a missing triangle -/
namespace Verif
open Verif.Go Verif.Model Verif.Spec Verif.Spec.GCode

/-- The missing triangle, at the end of the overhang. -/
def hookMissing : Mesh := [⟨⟨38000, 0, 1900⟩, ⟨38000, 0, 900⟩, ⟨38000, 500, 900⟩⟩]

/-- The body of the example of C138 with one more corner, without the missing triangle. -/
def openHook : Mesh :=
  let p (x z : Int) : Vec3 := ⟨x, 0, z⟩
  let q (x z : Int) : Vec3 := ⟨x, 38000, z⟩
  let r : Vec3 := ⟨38000, 500, 900⟩
  [⟨p 0 0, p 8000 0, p 8000 900⟩, ⟨p 0 0, p 8000 900, p 0 1900⟩, ⟨p 8000 900, p 38000 1900, p 0 1900⟩, ⟨p 8000 900, p 38000 900, p 38000 1900⟩,
   ⟨q 8000 900, q 8000 0, q 0 0⟩, ⟨q 0 1900, q 8000 900, q 0 0⟩, ⟨q 0 1900, q 38000 1900, q 8000 900⟩, ⟨q 38000 1900, q 38000 900, q 8000 900⟩,
   ⟨p 8000 0, p 0 0, q 0 0⟩, ⟨p 8000 0, q 0 0, q 8000 0⟩, ⟨p 8000 900, p 8000 0, q 8000 0⟩, ⟨p 8000 900, q 8000 0, q 8000 900⟩,
   ⟨p 38000 900, p 8000 900, q 8000 900⟩, ⟨p 38000 900, q 8000 900, r⟩, ⟨q 8000 900, q 38000 900, r⟩, ⟨p 38000 1900, r, q 38000 900⟩, ⟨p 38000 1900, q 38000 900, q 38000 1900⟩,
   ⟨p 0 1900, p 38000 1900, q 38000 1900⟩, ⟨p 0 1900, q 38000 1900, q 0 1900⟩, ⟨p 0 0, p 0 1900, q 0 1900⟩, ⟨p 0 0, q 0 1900, q 0 0⟩]

theorem openHook_connected : ConnectedMesh openHook := by
  have h : ∀ v ∈ vertices openHook, ∀ w ∈ vertices openHook, ∃ u ∈ vertices openHook, (∃ t ∈ openHook, v ∈ t.corners ∧ u ∈ t.corners) ∧ ∃ u' ∈ vertices openHook,
      (∃ t ∈ openHook, u ∈ t.corners ∧ u' ∈ t.corners) ∧ ∃ t ∈ openHook, u' ∈ t.corners ∧ w ∈ t.corners := by
    decide +kernel
  intro v hv w hw
  obtain ⟨u, -, h1, u', -, h2, h3⟩ := h v hv w hw
  exact .tail (.tail (.single h1) h2) h3

theorem openHook_sheet : IsSheet 30 openHook where
  nonempty := by decide
  proper := by decide +kernel
  different := by decide +kernel
  separated := by unfold Separated; decide +kernel
  noGap := C91_no_gap _ openHook_connected

theorem openHook_box : IsBox (vertices openHook) ⟨0, 0, 0⟩ ⟨38000, 38000, 1900⟩ := by
  constructor <;> decide +kernel

/-- The file format of the example: any content stands for the open body, in millimetres. -/
noncomputable def openHookExt : Externals where
  lib := squareLib
  stl := fun _ => openHook.map (Tri.map fun v => ((v.x : ℚ) / 1000, (v.y : ℚ) / 1000, (v.z : ℚ) / 1000))
  trig := fun _ => (0, 1)
  tan := 1

theorem openHook_stl : openHook = (openHookExt.stl []).map stlTriangleToFace := by decide +kernel

/-- The body on the bed, and the missing triangle. -/
def openFaces : List (Tri Vec3) := openHook.map (Tri.map fun v => ⟨v.x + 81000, v.y + 81000, v.z⟩)
def openGap : List (Tri Vec3) := hookMissing.map (Tri.map fun v => ⟨v.x + 81000, v.y + 81000, v.z⟩)

theorem open_placed : placedBody hookOptions.printer.center ⟨0, 0, 0⟩ ⟨38000, 38000, 1900⟩ openHook = openFaces ∧
    placedBody hookOptions.printer.center ⟨0, 0, 0⟩ ⟨38000, 38000, 1900⟩ hookMissing = openGap := by
  constructor <;> decide +kernel

theorem open_good : ∀ i < 9, GoodGap hookOptions openGap openFaces 30 i := by
  intro i hi
  refine ⟨⟨by decide +kernel, by decide +kernel, ?_, ?_, ?_, ?_, ?_⟩, ?_, ?_⟩
  · revert i
    decide +kernel
  · revert i
    unfold Up Down
    decide +kernel
  · exact List.pairwise_singleton _ _
  · revert i
    unfold SpreadOut Up Down NearPt
    decide +kernel
  · revert i
    unfold SpreadOutBut AtMissing Up Down NearPt
    set_option synthInstance.maxHeartbeats 200000 in set_option synthInstance.maxSize 1000 in
    decide +kernel
  · revert i
    unfold GapsWithin Up Down NearPt
    decide +kernel
  · revert i
    decide +kernel

theorem open_far : ∀ i < 9, FarFromSurface 14000 (openGap ++ openFaces) (layerHeight hookOptions i) (104000, 100000) := by
  have h : ∀ i < 9, ∀ f ∈ openGap ++ openFaces, ∀ s ∈ faceSides f, ∀ s' ∈ faceSides f, Down (layerHeight hookOptions i) s → Up (layerHeight hookOptions i) s' →
      (((104000 : ℚ) + 14000 < (meetPoint (layerHeight hookOptions i) s).1 ∧ (104000 : ℚ) + 14000 < (meetPoint (layerHeight hookOptions i) s').1) ∨
       ((meetPoint (layerHeight hookOptions i) s).1 < (104000 : ℚ) - 14000 ∧ (meetPoint (layerHeight hookOptions i) s').1 < (104000 : ℚ) - 14000) ∨
       ((100000 : ℚ) + 14000 < (meetPoint (layerHeight hookOptions i) s).2 ∧ (100000 : ℚ) + 14000 < (meetPoint (layerHeight hookOptions i) s').2) ∨
       ((meetPoint (layerHeight hookOptions i) s).2 < (100000 : ℚ) - 14000 ∧ (meetPoint (layerHeight hookOptions i) s').2 < (100000 : ℚ) - 14000)) := by
    unfold Down Up
    decide +kernel
  exact fun i hi f hf s hs s' hs' h1 h2 => farFrom_side (by norm_num) (h i hi f hf s hs s' hs' h1 h2)

theorem open_inside : ∀ i < 9, (InsideSolid (openGap ++ openFaces) (layerHeight hookOptions i) (104000, 100000) ↔ 4 ≤ i) := by decide +kernel

theorem open_column (m : Nat) : Column 1 9 (fun i => InsideSolid (openGap ++ openFaces) (layerHeight hookOptions i) (104000, 100000)) m ↔ m ≤ 2 := by
  constructor
  · rintro ⟨k, h1, h2, ⟨h3, h4, h5⟩, -⟩
    have h4 := (open_inside _ h3).1 h4
    have h5 : ¬ 4 ≤ k + 1 := fun h => h5 ((open_inside (k + 1) (by omega)).2 h)
    omega
  · intro hm
    refine ⟨2, hm, by omega, ⟨by omega, (open_inside _ (by omega)).2 (by omega), fun h => ?_⟩, fun i _ h2 _ h => ?_⟩
    · have := (open_inside _ (by omega)).1 h
      omega
    · have := (open_inside _ (by omega)).1 h
      omega

/-- Non-vacuity of `C140_support`: although a triangle is missing at the end of the overhang, support is printed in the second and interface in the third layer below its middle. -/
example : ∃ t body mc moves, gcodeOf openHookExt hookOptions [] = .ok t ∧ t = startText hookOptions ++ body ++ endText hookOptions ∧ run body = some (mc, moves) ∧
    PrintedNear moves 400 (1000 / 2 + 9) (104000, 100000) ∧ PrintedNear moves 600 (400 / 2 + 9) (104000, 100000) := by
  obtain ⟨t, om, sliced, top, ht, -, -, -, h2, h3, -⟩ := C140_program openHookExt hookOptions [] (tol := 2) (by norm_num) square_good turns_never hook_usual (by decide) (by decide)
    hookMissing openHook openHook_stl openHook_sheet openHook_box ⟨by decide, by decide, by decide, by decide, by decide⟩ (by unfold Rect.Small; decide +kernel) (by decide)
  obtain rfl : top = 8 := by
    simp only [layerHeight] at h2 h3
    norm_num [hookOptions, raisedOptions] at h2 h3
    omega
  obtain ⟨body, mc, moves, h4, h5, hs⟩ := C140_support openHookExt hookOptions [] (tol := 2) (by norm_num) (by norm_num) square_good turns_never hook_usual (by decide) (by decide)
    hookMissing openHook openHook_stl openHook_sheet openHook_box ⟨by decide, by decide, by decide, by decide, by decide⟩ (by decide) rfl
    ⟨hook_fits.options.thickness.2, (by rw [show openHookExt.tan = 1 from rfl, show hookOptions.print.layerThickness = 200 from rfl]; norm_num), hook_fits.options.spacing.2.trans (by norm_num),
      hook_fits.options.gap.trans (by norm_num)⟩ ⟨by decide +kernel, by decide +kernel, by decide +kernel, by decide +kernel⟩ ht h2 h3
  refine ⟨t, body, mc, moves, ht, h4, h5, ?_⟩
  rw [show placedBody hookOptions.printer.center ⟨0, 0, 0⟩ ⟨38000, 38000, 1900⟩ (hookMissing ++ openHook) = openGap ++ openFaces by
    rw [← open_placed.1, ← open_placed.2]; exact List.map_append, open_placed.1, open_placed.2] at hs
  have hgood : ∀ n i : Nat, n ≤ i → i ≤ 8 → GoodGap hookOptions openGap openFaces 30 i := fun _ i _ h => open_good i (by omega)
  have hen : ∀ n i : Nat, n ≤ i → i ≤ 8 → FarEnough hookOptions (openGap ++ openFaces) i (104000, 100000) :=
    fun _ i _ h => farFromSurface_mono (open_far i (by omega)) (by decide +kernel) (by decide +kernel)
  have hdep : ∀ D : ℚ, 0 ≤ D → D ≤ 705 → 0 ≤ columnDepth hookOptions openHookExt.tan 2 8 30 D ∧ columnDepth hookOptions openHookExt.tan 2 8 30 D ≤ 14000 := by
    intro D h0 h1
    have e : columnDepth hookOptions openHookExt.tan 2 8 30 D = D + columnDepth hookOptions 1 2 8 30 0 := by
      unfold columnDepth
      rw [show openHookExt.tan = 1 from rfl]
      ring
    have e' : 0 ≤ columnDepth hookOptions 1 2 8 30 0 ∧ columnDepth hookOptions 1 2 8 30 0 ≤ 13000 := by decide +kernel
    rw [e]
    constructor <;> linarith
  have hsp : toMicrometer hookOptions.print.support.patternSpacing = 1000 := by decide +kernel
  have hwd : hookOptions.printer.extrusionWidth = 400 := rfl
  have e1 : layerHeight hookOptions 1 = 400 := by decide
  have e2 : layerHeight hookOptions 2 = 600 := by decide
  constructor
  · have := hs.column 1 30 (by norm_num) (.inl le_rfl) (hgood 1) _ (hen 1) ((open_column 1).2 (by norm_num)) ⟨by decide, by decide, (open_column _).2 (by decide)⟩
      (fun i _ hi => farFromSurface_mono (open_far i (by omega)) (hdep _ (by rw [hsp, hwd]; norm_num) (by rw [hsp, hwd]; norm_num)).1
        (hdep _ (by rw [hsp, hwd]; norm_num) (by rw [hsp, hwd]; norm_num)).2)
    rw [hsp, e1] at this
    push_cast at this
    exact this
  · have := hs.interface 2 30 (by norm_num) (.inl (by norm_num)) (hgood 2) _ (hen 2) ((open_column 2).2 le_rfl) (fun hc => by
        have := (open_column _).1 hc.2.2
        revert this
        decide)
      (fun i _ hi => farFromSurface_mono (open_far i (by omega)) (hdep _ (by rw [hwd]; norm_num) (by rw [hwd]; norm_num)).1
        (hdep _ (by rw [hwd]; norm_num) (by rw [hwd]; norm_num)).2)
    rw [hwd, e2] at this
    push_cast at this
    exact this

end Verif
