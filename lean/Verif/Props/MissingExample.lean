import Verif.Props.MissingWhole
import Verif.Props.Command
import Verif.Props.TogetherExample

/-! # Example for C140: the pyramid without two triangles -/
namespace Verif
open Verif.Go Verif.Model Verif.Spec Verif.Spec.GCode

/-- The missing triangles in the coordinates of the file. -/
def roofMissing : Mesh := [⟨⟨0, 500, 0⟩, ⟨0, 0, 0⟩, ⟨0, 0, 1000⟩⟩, ⟨⟨0, 20000, 0⟩, ⟨0, 19800, 0⟩, ⟨0, 0, 1000⟩⟩]

theorem roof_connected : ConnectedMesh (roof 500) := by
  have h : ∀ v ∈ vertices (roof 500), ∀ w ∈ vertices (roof 500), ∃ u ∈ vertices (roof 500), (∃ t ∈ roof 500, v ∈ t.corners ∧ u ∈ t.corners) ∧ ∃ t ∈ roof 500, u ∈ t.corners ∧ w ∈ t.corners := by
    decide +kernel
  intro v hv w hw
  obtain ⟨u, -, h1, h2⟩ := h v hv w hw
  exact .tail (.single h1) h2

theorem roof_sheet : IsSheet ({} : Options).slicing.meldDistance (roof 500) where
  nonempty := by decide
  proper := by decide +kernel
  different := by decide +kernel
  separated := by unfold Separated; decide +kernel
  noGap := C91_no_gap _ roof_connected

theorem roof_box : IsBox (vertices (roof 500)) ⟨0, 0, 0⟩ ⟨20000, 20000, 1000⟩ := by
  constructor <;> decide +kernel

/-- The files of the example: any content stands for the pyramid, in millimetres. -/
noncomputable def roofExt : Externals where
  lib := squareLib
  stl := fun _ => (roof 500).map (Tri.map fun v => ((v.x : ℚ) / 1000, (v.y : ℚ) / 1000, (v.z : ℚ) / 1000))
  trig := blockExt.trig
  tan := 1

theorem roof_stl : (roofExt.stl []).map stlTriangleToFace = roof 500 := by decide +kernel

theorem roof_placed : placedBody ({} : Options).printer.center ⟨0, 0, 0⟩ ⟨20000, 20000, 1000⟩ (roof 500) = roofFaces 500 ∧
    placedBody ({} : Options).printer.center ⟨0, 0, 0⟩ ⟨20000, 20000, 1000⟩ roofMissing = roofGap 500 := by
  constructor <;> decide +kernel

theorem roof_good : GoodGap {} (roofGap 500) (roofFaces 500) 10 1 := by
  refine ⟨by rw [roof_height]; exact roof_missing.1, ?_, by rw [roof_height]; decide +kernel⟩
  rw [roof_height]
  unfold GapsWithin Up Down NearPt
  decide +kernel

/-- Non-vacuity of `C140_program`: although two triangles are missing, every way from the inside of the pyramid through the wall or a gap to the outside crosses both walls. -/
example : ∃ t body mc moves, gcodeOf roofExt {} [] = .ok t ∧ t = startText {} ++ body ++ endText {} ∧ run body = some (mc, moves) ∧
    ∀ way, WayFrom (93500, 93500) (86000, 93500) way → ∀ j : Nat, j < 2 → ∃ z, OnWay way z ∧ PrintedNear moves 400 8 z := by
  obtain ⟨t, om, sliced, top, h1, -, h3, -, h5, h6, body, mc, moves, h7, h8, -, h10⟩ := C140_program roofExt {} [] (tol := 2) (by norm_num) square_good turns_never usual_empty (by decide) (by decide)
    roofMissing (roof 500) roof_stl.symm roof_sheet roof_box ⟨by decide, by decide, by decide, by decide, by decide⟩ (by unfold Rect.Small; decide +kernel) (by decide)
  have h := h10 2 (fun l hl => square_walls {} (square_sliced h3 l hl)) (by norm_num)
  have htop : 1 ≤ top := by
    simp only [layerHeight] at h5 h6
    norm_num at h5 h6
    omega
  rw [show placedBody ({} : Options).printer.center ⟨0, 0, 0⟩ ⟨20000, 20000, 1000⟩ (roofMissing ++ roof 500) = roofGap 500 ++ roofFaces 500 by
    rw [← roof_placed.1, ← roof_placed.2]; exact List.map_append, roof_placed.1, roof_placed.2] at h
  refine ⟨t, body, mc, moves, h1, h7, h8, fun way hway j hj => ?_⟩
  have hf := roof_far (e := 500) (.inl rfl)
  have hall : ∀ q ∈ [((93500, 93500) : ℚ × ℚ), (86000, 93500)], FarEnough {} (roofGap 500 ++ roofFaces 500) 1 q := by
    intro q hq
    rcases List.mem_cons.1 hq with rfl | hq
    · exact hf.1
    · rw [List.mem_singleton.1 hq]; exact hf.2
  have hdj : ∀ j < 2, 0 ≤ wallReach {} 2 10 j ∧ wallReach {} 2 10 j ≤ 2 * ((max 0 ({} : Options).slicing.finishPolygonSnapDistance : Int) : ℚ) + 2 := by decide +kernel
  obtain ⟨z, z1, z2, -⟩ := h.walls 1 htop 10 roof_good _ _ way hway (by decide +kernel) (by decide +kernel) hall j (show (j : Int) < 2 by omega)
    fun q hq => farFromSurface_mono (hall q hq) (hdj j hj).1 (hdj j hj).2
  exact ⟨z, z1, z2⟩

end Verif
