import Verif.Props.Command
import Verif.Props.SupportExample

/-! # C138: an example -/
namespace Verif
open Verif.Go Verif.Model Verif.Spec Verif.Spec.GCode

/-- A body with an overhang: seen from the side it has the form of an L which stands on its short end. -/
def hookMesh : Mesh :=
  let p (x z : Int) : Vec3 := ⟨x, 0, z⟩
  let q (x z : Int) : Vec3 := ⟨x, 38000, z⟩
  [⟨p 0 0, p 8000 0, p 8000 900⟩, ⟨p 0 0, p 8000 900, p 0 1900⟩, ⟨p 8000 900, p 38000 1900, p 0 1900⟩, ⟨p 8000 900, p 38000 900, p 38000 1900⟩,
   ⟨q 8000 900, q 8000 0, q 0 0⟩, ⟨q 0 1900, q 8000 900, q 0 0⟩, ⟨q 0 1900, q 38000 1900, q 8000 900⟩, ⟨q 38000 1900, q 38000 900, q 8000 900⟩,
   ⟨p 8000 0, p 0 0, q 0 0⟩, ⟨p 8000 0, q 0 0, q 8000 0⟩, ⟨p 8000 900, p 8000 0, q 8000 0⟩, ⟨p 8000 900, q 8000 0, q 8000 900⟩,
   ⟨p 38000 900, p 8000 900, q 8000 900⟩, ⟨p 38000 900, q 8000 900, q 38000 900⟩, ⟨p 38000 1900, p 38000 900, q 38000 900⟩, ⟨p 38000 1900, q 38000 900, q 38000 1900⟩,
   ⟨p 0 1900, p 38000 1900, q 38000 1900⟩, ⟨p 0 1900, q 38000 1900, q 0 1900⟩, ⟨p 0 0, p 0 1900, q 0 1900⟩, ⟨p 0 0, q 0 1900, q 0 0⟩]

/-- `goslice --support-enabled=true … hook.stl` -/
def hookLine : CommandLine where
  settings := [("support-enabled".toList, "true".toList), ("support-top-gap-layers".toList, "1".toList), ("support-interface-layers".toList, "1".toList),
    ("support-pattern-spacing".toList, "1".toList), ("number-bottom-layers".toList, "1".toList), ("number-top-layers".toList, "1".toList)]
  args := ["hook.stl".toList]

def hookOptions : Options := { raisedOptions with goSlice := { inputFilePath := "hook.stl".toList } }

theorem hook_line : parseFlags hookLine = some hookOptions := by
  with_unfolding_all rfl

theorem hook_connected : ConnectedMesh hookMesh := by
  have h : ∀ v ∈ vertices hookMesh, ∀ w ∈ vertices hookMesh, ∃ u ∈ vertices hookMesh, (∃ t ∈ hookMesh, v ∈ t.corners ∧ u ∈ t.corners) ∧ ∃ u' ∈ vertices hookMesh,
      (∃ t ∈ hookMesh, u ∈ t.corners ∧ u' ∈ t.corners) ∧ ∃ t ∈ hookMesh, u' ∈ t.corners ∧ w ∈ t.corners := by
    decide +kernel
  intro v hv w hw
  obtain ⟨u, -, h1, u', -, h2, h3⟩ := h v hv w hw
  exact .tail (.tail (.single h1) h2) h3

theorem hook_body : IsBody 30 hookMesh where
  nonempty := by decide
  proper := by decide +kernel
  different := by decide +kernel
  separated := by unfold Separated; decide +kernel
  noGap := C91_no_gap _ hook_connected
  closed := by decide +kernel

theorem hook_box : IsBox (vertices hookMesh) ⟨0, 0, 0⟩ ⟨38000, 38000, 1900⟩ := by
  constructor <;> decide +kernel

/-- The file format of the example: any content stands for the body, in millimetres. -/
noncomputable def hookExt : Externals where
  lib := squareLib
  stl := fun _ => hookMesh.map (Tri.map fun v => ((v.x : ℚ) / 1000, (v.y : ℚ) / 1000, (v.z : ℚ) / 1000))
  trig := fun _ => (0, 1)
  tan := 1

theorem hook_stl : hookMesh = (hookExt.stl []).map stlTriangleToFace := by decide +kernel

theorem hook_usual : UsualOptions hookOptions where
  sensible := by
    obtain ⟨h1, h2, h3, h4, h5, h6, h7, h8, h9⟩ := raised_sensible
    exact ⟨h1, h2, h3, h4, h5, h6, h7, h8, h9⟩
  moderate := by
    obtain ⟨h1, h2, h3, h4, h5, h6⟩ := raised_moderate
    exact ⟨h1, h2, h3, h4, h5, h6⟩
  extrudes := ⟨by decide, by decide, by decide, by decide, by decide⟩
  meld := by decide
  finish := by decide
  insets := by decide
  rotation := by decide
  overlap := by decide
  overlap2 := by decide

theorem hook_fits : PrintFits 1 hookOptions where
  options := ⟨by decide, by decide +kernel, by decide +kernel, by decide +kernel, by decide +kernel, by decide +kernel, by decide +kernel, by decide +kernel, by decide +kernel⟩
  moderate := hook_usual.moderate
  slicing := ⟨by decide +kernel, by decide +kernel, by decide +kernel, by decide +kernel, by decide +kernel⟩
  percent := by decide
  layerSpeed := by decide +kernel
  outerSpeed := by decide +kernel
  initialSpeed := by decide +kernel
  moveSpeed := by decide +kernel
  retractionSpeed := by decide +kernel
  zHop := by decide +kernel
  center := by unfold VecIn; decide +kernel
  margin := by decide +kernel

/-- The body on the bed. -/
def hookFaces : List (Tri Vec3) := hookMesh.map (Tri.map fun v => ⟨v.x + 81000, v.y + 81000, v.z⟩)

theorem hook_placed : placedBody hookOptions.printer.center ⟨0, 0, 0⟩ ⟨38000, 38000, 1900⟩ hookMesh = hookFaces := by decide +kernel

theorem hook_good : ∀ i < 9, GoodPlane hookOptions hookFaces 16 i := by
  intro i hi
  refine ⟨⟨?_, ?_⟩, ?_⟩
  · revert i
    decide +kernel
  · revert i
    unfold SpreadOut Up Down NearPt
    decide +kernel
  · revert i
    decide +kernel

theorem hook_far : ∀ i < 9, FarFromSurface 14000 hookFaces (layerHeight hookOptions i) (104000, 100000) := by
  have h : ∀ i < 9, ∀ f ∈ hookFaces, ∀ s ∈ faceSides f, ∀ s' ∈ faceSides f, Down (layerHeight hookOptions i) s → Up (layerHeight hookOptions i) s' →
      (((104000 : ℚ) + 14000 < (meetPoint (layerHeight hookOptions i) s).1 ∧ (104000 : ℚ) + 14000 < (meetPoint (layerHeight hookOptions i) s').1) ∨
       ((meetPoint (layerHeight hookOptions i) s).1 < (104000 : ℚ) - 14000 ∧ (meetPoint (layerHeight hookOptions i) s').1 < (104000 : ℚ) - 14000) ∨
       ((100000 : ℚ) + 14000 < (meetPoint (layerHeight hookOptions i) s).2 ∧ (100000 : ℚ) + 14000 < (meetPoint (layerHeight hookOptions i) s').2) ∨
       ((meetPoint (layerHeight hookOptions i) s).2 < (100000 : ℚ) - 14000 ∧ (meetPoint (layerHeight hookOptions i) s').2 < (100000 : ℚ) - 14000)) := by
    unfold Down Up
    decide +kernel
  exact fun i hi f hf s hs s' hs' h1 h2 => farFrom_side (by norm_num) (h i hi f hf s hs s' hs' h1 h2)

theorem hook_inside : ∀ i < 9, (InsideSolid hookFaces (layerHeight hookOptions i) (104000, 100000) ↔ 4 ≤ i) := by decide +kernel

theorem hook_column (m : Nat) : Column 1 9 (fun i => InsideSolid hookFaces (layerHeight hookOptions i) (104000, 100000)) m ↔ m ≤ 2 := by
  constructor
  · rintro ⟨k, h1, h2, ⟨h3, h4, h5⟩, -⟩
    have h4 := (hook_inside _ h3).1 h4
    have h5 : ¬ 4 ≤ k + 1 := fun h => h5 ((hook_inside (k + 1) (by omega)).2 h)
    omega
  · intro hm
    refine ⟨2, hm, by omega, ⟨by omega, (hook_inside _ (by omega)).2 (by omega), fun h => ?_⟩, fun i _ h2 _ h => ?_⟩
    · have := (hook_inside _ (by omega)).1 h
      omega
    · have := (hook_inside _ (by omega)).1 h
      omega

/-- Non-vacuity of `C138_command` and `C138_support`: the command ends with status 0, and its output file prints support in the second and interface in the third layer below the middle of the
overhang. -/
example : ∃ (w : World) (t : Str), (mainM hookExt hookLine w).2 = 0 ∧ (mainM hookExt hookLine w).1.files "hook.stl.gcode".toList = some t ∧
    ∃ body mc moves, t = startText hookOptions ++ body ++ endText hookOptions ∧ run body = some (mc, moves) ∧
      PrintedNear moves 400 (1000 / 2 + 9) (104000, 100000) ∧ PrintedNear moves 600 (400 / 2 + 9) (104000, 100000) := by
  have key := fun n : Nat => C138_command hookExt hookLine hookOptions hook_line rfl (by decide) (tol := 2) (by norm_num) square_good turns_never hook_usual hook_fits
    { files := fun _ => some [], space := n } rfl hookMesh hook_stl ⟨by unfold VecIn; decide +kernel, by decide +kernel⟩ hook_body hook_box
    ⟨by decide, by decide, by decide, by decide, by decide⟩ (by decide)
  obtain ⟨t, -, -, -, ht, -⟩ := key 0
  obtain ⟨t', om, sliced, top, ht', -, -, h2, h3, hrun, body, mc, moves, h4, h5, -, -, h6⟩ := key t.length
  rw [ht] at ht'
  cases ht'
  obtain rfl : top = 8 := by
    simp only [layerHeight] at h2 h3
    norm_num [hookOptions, raisedOptions] at h2 h3
    omega
  obtain ⟨r1, r2⟩ := hrun rfl le_rfl
  refine ⟨_, t, r1, r2, body, mc, moves, h4, h5, ?_⟩
  have hs := h6 rfl (by norm_num) (by rw [show hookExt.tan = 1 from rfl, show hookOptions.print.layerThickness = 200 from rfl]; norm_num)
    ⟨by decide +kernel, by decide +kernel, by decide +kernel, by decide +kernel⟩
  rw [hook_placed] at hs
  have hgood : ∀ n i : Nat, n ≤ i → i ≤ 8 → GoodPlane hookOptions hookFaces 16 i := fun _ i _ h => hook_good i (by omega)
  have hen : ∀ n i : Nat, n ≤ i → i ≤ 8 → FarEnough hookOptions hookFaces i (104000, 100000) :=
    fun _ i _ h => farFromSurface_mono (hook_far i (by omega)) (by decide +kernel) (by decide +kernel)
  have hdep : ∀ D : ℚ, 0 ≤ D → D ≤ 705 → 0 ≤ columnDepth hookOptions hookExt.tan 2 8 16 D ∧ columnDepth hookOptions hookExt.tan 2 8 16 D ≤ 14000 := by
    intro D h0 h1
    have e : columnDepth hookOptions hookExt.tan 2 8 16 D = D + columnDepth hookOptions 1 2 8 16 0 := by
      unfold columnDepth
      rw [show hookExt.tan = 1 from rfl]
      ring
    have e' : 0 ≤ columnDepth hookOptions 1 2 8 16 0 ∧ columnDepth hookOptions 1 2 8 16 0 ≤ 13000 := by decide +kernel
    rw [e]
    constructor <;> linarith
  have hsp : toMicrometer hookOptions.print.support.patternSpacing = 1000 := by decide +kernel
  have hwd : hookOptions.printer.extrusionWidth = 400 := rfl
  have e1 : layerHeight hookOptions 1 = 400 := by decide
  have e2 : layerHeight hookOptions 2 = 600 := by decide
  constructor
  · have := hs.column 1 16 (by norm_num) (.inl le_rfl) (hgood 1) _ (hen 1) ((hook_column 1).2 (by norm_num)) ⟨by decide, by decide, (hook_column _).2 (by decide)⟩
      (fun i _ hi => farFromSurface_mono (hook_far i (by omega)) (hdep _ (by rw [hsp, hwd]; norm_num) (by rw [hsp, hwd]; norm_num)).1
        (hdep _ (by rw [hsp, hwd]; norm_num) (by rw [hsp, hwd]; norm_num)).2)
    rw [hsp, e1] at this
    push_cast at this
    exact this
  · have := hs.interface 2 16 (by norm_num) (.inl (by norm_num)) (hgood 2) _ (hen 2) ((hook_column 2).2 le_rfl) (fun hc => by
        have := (hook_column _).1 hc.2.2
        revert this
        decide)
      (fun i _ hi => farFromSurface_mono (hook_far i (by omega)) (hdep _ (by rw [hwd]; norm_num) (by rw [hwd]; norm_num)).1
        (hdep _ (by rw [hwd]; norm_num) (by rw [hwd]; norm_num)).2)
    rw [hwd, e2] at this
    push_cast at this
    exact this

/-- Non-vacuity of `C138_default`: with the default options the middle of the block is filled in its first layer. -/
example : ∃ (w : World) (t : Str), (mainM squareExt { args := ["block.stl".toList] } w).2 = 0 ∧
    (mainM squareExt { args := ["block.stl".toList] } w).1.files "block.stl.gcode".toList = some t ∧
    ∃ body mc moves, t = startText (pathOptions "block.stl".toList) ++ body ++ endText (pathOptions "block.stl".toList) ∧ run body = some (mc, moves) ∧
      PrintedNear moves 200 (400 / 2 + 9) (100000, 100000) := by
  have key := fun n : Nat => C138_default squareExt "block.stl".toList (by decide) (tol := 2) (by norm_num) square_good turns_never
    (by rw [show squareExt.tan = 1 from rfl]; norm_num) { files := fun _ => some [], space := n } rfl blockMesh block_stl.symm ⟨by unfold VecIn; decide +kernel, by decide +kernel⟩ block_body block_box
    ⟨by decide, by decide, by decide, by decide, by decide⟩ (by decide)
  obtain ⟨t, -, -, -, ht, -⟩ := key 0
  obtain ⟨t', om, sliced, top, ht', -, hsl, h2, h3, hrun, body, mc, moves, h4, h5, -, h6⟩ := key t.length
  rw [ht] at ht'
  cases ht'
  obtain rfl : top = 4 := by
    simp only at h2 h3
    omega
  obtain ⟨r1, r2⟩ := hrun rfl le_rfl
  refine ⟨_, t, r1, r2, body, mc, moves, h4, h5, ?_⟩
  have hp := h6 2 (fun l hl => square_walls _ (square_sliced hsl l hl)) (by norm_num)
  have hgood : ∀ i < 5, GoodPlane (pathOptions "block.stl".toList) blockFaces 9 i := block_good
  have hfar : ∀ i ≤ 4, ∀ d : ℚ, 0 ≤ d → d ≤ 4900 → FarFromSurface d blockFaces (layerHeight (pathOptions "block.stl".toList) i) (100000, 100000) :=
    fun i hi d h0 h1 => farFromSurface_mono (block_far i (by omega)) h0 h1
  have hen : ∀ i ≤ 4, FarEnough (pathOptions "block.stl".toList) blockFaces i (100000, 100000) := fun i hi => hfar i hi _ (by decide +kernel) (by decide +kernel)
  have hin : ∀ i ≤ 4, HasInside (pathOptions "block.stl".toList) blockFaces 2 9 i :=
    fun i hi => ⟨hgood i (by omega), _, block_inside i (by omega), hfar i hi _ (by norm_num) (by norm_num), hen i hi⟩
  have hb : placedBody ⟨100000, 100000, 0⟩ ⟨0, 0, 0⟩ ⟨10000, 10000, 1100⟩ blockMesh = blockFaces := block_placed
  rw [hb] at hp
  exact hp.solid 0 (by norm_num) 9 (fun i hi => hin i (by omega)) (fun i hi => hgood i (by have := hi.2.2; omega)) _ (block_inside 0 (by norm_num)) (fun i hi => hen i hi.2.2)
      (.inl (by decide)) fun i hi => hfar i hi.2.2 _ (by decide +kernel) (by decide +kernel)

end Verif
