import Verif.Props.TogetherExample

/-! # C137: two bodies in one file -/
namespace Verif
open Verif.Go Verif.Model Verif.Spec Verif.Spec.GCode

/-- A block of 10 mm × 10 mm × 0.7 mm, beside the block of the other examples. -/
def lowMesh : Mesh := blockMesh.map (Tri.map fun v => ⟨v.x + 20000, v.y, if v.z = 0 then 0 else 700⟩)

/-- A file with both blocks. -/
def plateMesh : Mesh := blockMesh ++ lowMesh

theorem low_connected : ConnectedMesh lowMesh := by
  have h : ∀ v ∈ vertices lowMesh, ∀ w ∈ vertices lowMesh, ∃ u ∈ vertices lowMesh, (∃ t ∈ lowMesh, v ∈ t.corners ∧ u ∈ t.corners) ∧ ∃ t ∈ lowMesh, u ∈ t.corners ∧ w ∈ t.corners := by
    decide +kernel
  intro v hv w hw
  obtain ⟨u, -, h1, h2⟩ := h v hv w hw
  exact .tail (.single h1) h2

/-- The two blocks do not touch, but there is no height without a block. -/
theorem plate_body : IsBody blockOptions.slicing.meldDistance plateMesh where
  nonempty := by decide
  proper := by decide +kernel
  different := by decide +kernel
  separated := by unfold Separated; decide +kernel
  noGap := C91_several _ _ (C91_no_gap _ block_connected) (C91_no_gap _ low_connected) 0 (by decide +kernel) (by decide +kernel) (by decide +kernel) (by decide +kernel)
  closed := by decide +kernel

theorem plate_apart : ¬ ConnectedMesh plateMesh := by
  intro h
  have key : ∀ w, Linked plateMesh ⟨0, 0, 0⟩ w → w ∈ vertices blockMesh := by
    intro w hw
    induction hw with
    | refl => decide +kernel
    | tail _ hbc ih =>
      obtain ⟨t, ht, hb, hc⟩ := hbc
      rcases List.mem_append.1 ht with ht | ht
      · exact List.mem_flatMap.2 ⟨t, ht, hc⟩
      · have hd : ∀ v ∈ vertices blockMesh, v ∉ vertices lowMesh := by decide +kernel
        exact absurd (List.mem_flatMap.2 ⟨t, ht, hb⟩) (hd _ ih)
  exact absurd (key ⟨20000, 0, 0⟩ (h ⟨0, 0, 0⟩ (by decide +kernel) ⟨20000, 0, 0⟩ (by decide +kernel))) (by decide +kernel)

theorem plate_box : IsBox (vertices plateMesh) ⟨0, 0, 0⟩ ⟨30000, 10000, 1100⟩ := by
  constructor <;> decide +kernel

/-- The plate on the bed. -/
def plateFaces : List (Tri Vec3) := plateMesh.map (Tri.map fun v => ⟨v.x + 85000, v.y + 95000, v.z⟩)

theorem plate_placed : placedBody blockOptions.printer.center ⟨0, 0, 0⟩ ⟨30000, 10000, 1100⟩ plateMesh = plateFaces := by decide +kernel

theorem plate_good : ∀ i < 5, GoodPlane blockOptions plateFaces 17 i := by
  intro i hi
  refine ⟨⟨?_, ?_⟩, ?_⟩
  · revert i
    decide +kernel
  · revert i
    unfold SpreadOut Up Down NearPt
    decide +kernel
  · revert i
    decide +kernel

set_option synthInstance.maxHeartbeats 400000 in
set_option synthInstance.maxSize 4000 in
theorem plate_far : ∀ i < 5, ∀ x ∈ [(90000 : ℚ), 110000], FarFromSurface 4900 plateFaces (layerHeight blockOptions i) (x, 100000) := by
  have h : ∀ i < 5, ∀ x ∈ [(90000 : ℚ), 110000], ∀ f ∈ plateFaces, ∀ s ∈ faceSides f, ∀ s' ∈ faceSides f, Down (layerHeight blockOptions i) s → Up (layerHeight blockOptions i) s' →
      ((x + 4900 < (meetPoint (layerHeight blockOptions i) s).1 ∧ x + 4900 < (meetPoint (layerHeight blockOptions i) s').1) ∨
       ((meetPoint (layerHeight blockOptions i) s).1 < x - 4900 ∧ (meetPoint (layerHeight blockOptions i) s').1 < x - 4900) ∨
       ((100000 : ℚ) + 4900 < (meetPoint (layerHeight blockOptions i) s).2 ∧ (100000 : ℚ) + 4900 < (meetPoint (layerHeight blockOptions i) s').2) ∨
       ((meetPoint (layerHeight blockOptions i) s).2 < (100000 : ℚ) - 4900 ∧ (meetPoint (layerHeight blockOptions i) s').2 < (100000 : ℚ) - 4900)) := by
    unfold Down Up
    decide +kernel
  exact fun i hi x hx f hf s hs s' hs' h1 h2 => farFrom_side (by norm_num) (h i hi x hx f hf s hs s' hs' h1 h2)

theorem plate_inside : (∀ i < 5, InsideSolid plateFaces (layerHeight blockOptions i) (90000, 100000)) ∧ (∀ i < 3, InsideSolid plateFaces (layerHeight blockOptions i) (110000, 100000)) ∧
    ¬ InsideSolid plateFaces (layerHeight blockOptions 3) (110000, 100000) := by
  refine ⟨?_, ?_, ?_⟩ <;> decide +kernel

/-- The file with both blocks and the library of squares. -/
noncomputable def plateExt : Externals where
  lib := squareLib
  stl := fun _ => plateMesh.map (Tri.map fun v => ((v.x : ℚ) / 1000, (v.y : ℚ) / 1000, (v.z : ℚ) / 1000))
  trig := blockExt.trig
  tan := 1

theorem plate_stl : (plateExt.stl []).map stlTriangleToFace = plateMesh := by decide +kernel

/-- Non-vacuity of `C137_program` for a file with several bodies: the bottom of both blocks is printed without gaps, and so is the top of the lower block, where the other block goes on. -/
example : ∃ t body mc moves, gcodeOf plateExt blockOptions [] = .ok t ∧ t = startText blockOptions ++ body ++ endText blockOptions ∧ run body = some (mc, moves) ∧
    PrintedNear moves 200 (400 / 2 + 9) (90000, 100000) ∧ PrintedNear moves 200 (400 / 2 + 9) (110000, 100000) ∧ PrintedNear moves 600 (400 / 2 + 9) (110000, 100000) := by
  obtain ⟨t, top, body, mc, moves, h1, h2, h3, h4, h5, -, h6⟩ := C137_square plateExt blockOptions [] rfl turns_never block_usual (by decide) plateMesh plate_stl.symm plate_body plate_box
    ⟨by decide, by decide, by decide, by decide, by decide⟩ (by unfold Rect.Small; decide +kernel) (by decide)
  obtain rfl : top = 4 := by
    simp only [layerHeight] at h2 h3
    norm_num [blockOptions] at h2 h3
    omega
  rw [plate_placed] at h6
  have hfar : ∀ x ∈ [(90000 : ℚ), 110000], ∀ i ≤ 4, ∀ d : ℚ, 0 ≤ d → d ≤ 4900 → FarFromSurface d plateFaces (layerHeight blockOptions i) (x, 100000) :=
    fun x hx i hi d h0 h1 => farFromSurface_mono (plate_far i (by omega) x hx) h0 h1
  have hen : ∀ x ∈ [(90000 : ℚ), 110000], ∀ i ≤ 4, FarEnough blockOptions plateFaces i (x, 100000) := fun x hx i hi => hfar x hx i hi _ (by decide +kernel) (by decide +kernel)
  have hin : ∀ i ≤ 4, HasInside blockOptions plateFaces 2 17 i :=
    fun i hi => ⟨plate_good i (by omega), _, plate_inside.1 i (by omega), hfar _ (by decide +kernel) i hi _ (by norm_num) (by norm_num), hen _ (by decide +kernel) i hi⟩
  have hd : 0 ≤ fillDepth blockOptions 2 17 2 (blockOptions.printer.extrusionWidth / 2 + 5) ∧ fillDepth blockOptions 2 17 2 (blockOptions.printer.extrusionWidth / 2 + 5) ≤ 4900 := by
    decide +kernel
  have hsolid : ∀ n ≤ 4, ∀ x ∈ [(90000 : ℚ), 110000], InsideSolid plateFaces (layerHeight blockOptions n) (x, 100000) →
      Skin blockOptions.print.numberBottomLayers.toNat blockOptions.print.numberTopLayers.toNat (4 + 1) (fun i => InsideSolid plateFaces (layerHeight blockOptions i) (x, 100000)) n →
      PrintedNear moves (layerHeight blockOptions n) (blockOptions.printer.extrusionWidth / 2 + 9) (x, 100000) := fun n hn x hx hi hs =>
    h6.solid n hn 17 (fun i hi => hin i (by omega)) (fun i hi => plate_good i (by have := hi.2.2; omega)) _ hi (fun i hi => hen x hx i hi.2.2) hs fun i hi => hfar x hx i hi.2.2 _ hd.1 hd.2
  refine ⟨t, body, mc, moves, h1, h4, h5, ?_, ?_, ?_⟩
  · exact hsolid 0 (by norm_num) _ (by decide +kernel) (plate_inside.1 0 (by norm_num)) (.inl (by decide))
  · exact hsolid 0 (by norm_num) _ (by decide +kernel) (plate_inside.2.1 0 (by norm_num)) (.inl (by decide))
  · exact hsolid 2 (by norm_num) _ (by decide +kernel) (plate_inside.2.1 2 (by norm_num)) (.inr (.inr ⟨3, by decide, by decide, by decide, plate_inside.2.2⟩))

end Verif
