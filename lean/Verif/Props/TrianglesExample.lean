import Verif.Props.Triangles
import Verif.Props.SidesExample

/-! # C131: the block, with its triangles in reverse order and turned -/
namespace Verif
open Verif.Go Verif.Model Verif.Spec

/-- The triangles of the block in reverse order, and with the other side outside. -/
def turnedMesh : Mesh := blockMesh.reverse.map fun t => ⟨t.a, t.c, t.b⟩

/-- The empty file is the block, all others are the turned block. -/
noncomputable def turnedExt : Externals :=
  { blockExt with stl := fun content => (if content = [] then blockMesh else turnedMesh).map (Tri.map fun v => ((v.x : ℚ) / 1000, (v.y : ℚ) / 1000, (v.z : ℚ) / 1000)) }

theorem turned_stl0 : (turnedExt.stl []).map stlTriangleToFace = blockMesh := by decide +kernel
theorem turned_stl : (turnedExt.stl ['x']).map stlTriangleToFace = turnedMesh := by decide +kernel

/-- The turned block after the optimizer. -/
def turnedOpt : OptModel :=
  ⟨[⟨⟨95000, 105000, 0⟩, [0, 1, 3, 11]⟩, ⟨⟨95000, 105000, 1100⟩, [0, 2, 3, 8]⟩, ⟨⟨95000, 95000, 1100⟩, [0, 1, 6, 8, 9]⟩, ⟨⟨95000, 95000, 0⟩, [1, 6, 7, 10, 11]⟩,
     ⟨⟨105000, 105000, 0⟩, [2, 3, 5, 10, 11]⟩, ⟨⟨105000, 105000, 1100⟩, [2, 4, 5, 8, 9]⟩, ⟨⟨105000, 95000, 0⟩, [4, 5, 7, 10]⟩, ⟨⟨105000, 95000, 1100⟩, [4, 6, 7, 9]⟩],
    [⟨⟨0, 1, 2⟩, ⟨3, 8, 1⟩⟩, ⟨⟨0, 2, 3⟩, ⟨0, 6, 11⟩⟩, ⟨⟨4, 5, 1⟩, ⟨5, 8, 3⟩⟩, ⟨⟨4, 1, 0⟩, ⟨2, 0, 11⟩⟩,
     ⟨⟨6, 7, 5⟩, ⟨7, 9, 5⟩⟩, ⟨⟨6, 5, 4⟩, ⟨4, 2, 10⟩⟩, ⟨⟨3, 2, 7⟩, ⟨1, 9, 7⟩⟩, ⟨⟨3, 7, 6⟩, ⟨6, 4, 10⟩⟩,
     ⟨⟨2, 1, 5⟩, ⟨0, 2, 9⟩⟩, ⟨⟨2, 5, 7⟩, ⟨8, 4, 6⟩⟩, ⟨⟨3, 6, 4⟩, ⟨7, 5, 11⟩⟩, ⟨⟨3, 4, 0⟩, ⟨10, 3, 1⟩⟩],
    ⟨10000, 10000, 1100⟩⟩

/-- The turned block on the bed. -/
def turnedFaces : List (Tri Vec3) := turnedMesh.map (Tri.map fun v => ⟨v.x + 95000, v.y + 95000, v.z⟩)

theorem turned_opt : optimize blockOptions turnedMesh = .ok turnedOpt := by decide +kernel
theorem turned_faces : turnedOpt.faces.mapM turnedOpt.facePoints = .ok turnedFaces := by decide +kernel
theorem turned_modified : ((slice twinLib blockOptions turnedOpt >>= fun ls => (standardModifiers twinLib 1 blockOptions).foldlM (fun ls m => m ls) ls).map fun ls =>
    ls.all wellTyped) = .ok true := by decide +kernel
theorem turned_segments : (sliceSegments blockOptions turnedOpt).map (fun ls => (ls.length, ls.all (goodSegments blockOptions turnedOpt 9 4))) = .ok (5, true) := by decide +kernel
theorem turned_tip : ∀ i < 5, NoTip (heightOf blockOptions.print.initialLayerThickness blockOptions.print.layerThickness i) turnedFaces := by decide +kernel

theorem gcode_of_typed {ext : Externals} {o : Options} {content : Str} {om : OptModel} (ho : Sensible o) (hopen : OpenClipping ext.lib)
    (hom : optimize o ((ext.stl content).map stlTriangleToFace) = .ok om) (hf : ∃ f fs, om.faces.mapM om.facePoints = .ok (f :: fs)) (hne : (ext.stl content).map stlTriangleToFace ≠ [])
    (hm : ((slice ext.lib o om >>= fun ls => (standardModifiers ext.lib ext.tan o).foldlM (fun ls m => m ls) ls).map fun ls => ls.all wellTyped) = .ok true) :
    ∃ t, gcodeOf ext o content = .ok t := by
  obtain ⟨f, fs, hf⟩ := hf
  cases h2 : slice ext.lib o om with
  | error e => rw [h2] at hm; cases hm
  | ok sliced =>
  rw [h2] at hm
  simp only [bind, Except.bind] at hm
  cases h3 : (standardModifiers ext.lib ext.tan o).foldlM (fun ls m => m ls) sliced with
  | error e => rw [h3] at hm; cases hm
  | ok layers =>
  rw [h3] at hm
  have hty := typed_modified h3 (sliced_plain h2) (Except.ok.inj hm)
  obtain ⟨lo, hlo⟩ : ∃ lo, om.min = .ok lo := by unfold OptModel.min; rw [hf]; exact ⟨_, rfl⟩
  obtain ⟨hi, hhi⟩ : ∃ hi, om.max = .ok hi := by unfold OptModel.max; rw [hf]; exact ⟨_, rfl⟩
  exact gcode_of_modified ho hopen hne hom h2 h3 hty hlo hhi

/-- Non-vacuity of `C131_program`. -/
example : ∃ t t' sliced sliced' l l', gcodeOf turnedExt blockOptions [] = .ok t ∧ gcodeOf turnedExt blockOptions ['x'] = .ok t' ∧ slice twinLib blockOptions blockOpt = .ok sliced ∧
    slice twinLib blockOptions turnedOpt = .ok sliced' ∧ sliced[1]? = some l ∧ sliced'[1]? = some l' ∧
    ((100000, 100000) ∈ region enclosedBy l.parts ↔ (100000, 100000) ∈ region enclosedBy l'.parts) := by
  obtain ⟨t, ht⟩ := gcode_of_typed (ext := turnedExt) (content := []) block_sensible twin_open (by rw [turned_stl0, ← block_stl]; exact block_opt) ⟨_, _, block_faces⟩
    (by rw [turned_stl0]; decide) block_modified
  obtain ⟨t', ht'⟩ := gcode_of_typed (ext := turnedExt) (content := ['x']) block_sensible twin_open (by rw [turned_stl]; exact turned_opt) ⟨_, _, turned_faces⟩
    (by rw [turned_stl]; decide) turned_modified
  obtain ⟨om, om', segs, segs', sliced, sliced', k1, k2, k3, k4, k5, k6, klen, key⟩ := C131_program turnedExt blockOptions [] ['x'] t t' ht ht'
    (by rw [turned_stl0, turned_stl]; decide +kernel) (by rw [turned_stl0]; unfold Separated; decide +kernel) le_rfl twin_sides (by decide) (by decide) (by decide)
  rw [turned_stl0, ← block_stl, block_opt] at k1
  rw [turned_stl, turned_opt] at k2
  cases k1
  cases k2
  have hg := block_segments
  have hg' := turned_segments
  rw [k3] at hg
  rw [k4] at hg'
  obtain ⟨g1, g2⟩ := Prod.mk.inj (Except.ok.inj hg)
  obtain ⟨g1', g2'⟩ := Prod.mk.inj (Except.ok.inj hg')
  obtain ⟨s, hs, hm⟩ := bind_ok.1 k5
  rw [k3] at hs
  cases hs
  have hlen : sliced.length = 5 := by rw [← (mapM_ok.1 hm).length_eq]; exact g1
  have e : layerHeight blockOptions 1 = 400 := by decide
  obtain ⟨l, hl⟩ : ∃ l, sliced[1]? = some l := ⟨_, List.getElem?_eq_getElem (by omega)⟩
  obtain ⟨l', hl'⟩ : ∃ l, sliced'[1]? = some l := ⟨_, List.getElem?_eq_getElem (by omega)⟩
  refine ⟨t, t', sliced, sliced', l, l', ht, ht', k5, k6, hl, hl', ?_⟩
  exact key blockFaces turnedFaces block_faces turned_faces (by decide +kernel) (by decide +kernel) (by unfold SmallSurface; decide +kernel) 1 (9 - 4) l l' hl hl'
    (well_sliced (by omega) g2 (block_tip 1 (by decide))) (well_sliced (by omega) g2' (turned_tip 1 (by decide))) (100000, 100000)
    (farFromSurface_mono (block_far 1 (by decide)) (by norm_num) (by norm_num)) (farFromSurface_mono (block_far 1 (by decide)) (by decide +kernel) (by decide +kernel))

end Verif
