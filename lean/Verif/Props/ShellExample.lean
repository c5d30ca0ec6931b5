import Verif.Props.RectLib
import Verif.Props.Shell

/-! # C122: an example -/
namespace Verif
open Verif.Go Verif.Model Verif.Spec Verif.Spec.GCode

/-- The block with a library which makes real insets. -/
noncomputable def shellExt : Externals := { blockExt with lib := rectLib }

theorem shell_sliced : (slice rectLib blockOptions blockOpt).map (fun ls => ls.map Layer.parts) = .ok [[blockPart], [blockPart], [blockPart], [blockPart], [blockPart]] := by decide +kernel

theorem shell_modified : ((slice rectLib blockOptions blockOpt >>= fun ls => (standardModifiers rectLib 1 blockOptions).foldlM (fun ls m => m ls) ls).map fun ls =>
    ls.all wellTyped) = .ok true := by decide +kernel

theorem shell_walls : ∀ p ∈ (perimetersOf rectLib blockOptions [blockPart]).flatten.flatten, ∀ c ∈ p.holes ++ [p.outline],
    (∀ p ∈ c, ∀ q ∈ c, (p.x - q.x) ^ 2 + (p.y - q.y) ^ 2 ≤ safe) ∧ ∀ p ∈ c, |p.x| ≤ 10 ^ 6 ∧ |p.y| ≤ 10 ^ 6 := by decide +kernel

theorem shell_far : FarFromSurface 4900 blockFaces (layerHeight blockOptions 1) (80000, 100000) := by
  have h : ∀ f ∈ blockFaces, ∀ s ∈ faceSides f, ∀ s' ∈ faceSides f, Down (layerHeight blockOptions 1) s → Up (layerHeight blockOptions 1) s' →
      (80000 : ℚ) + 4900 < (meetPoint (layerHeight blockOptions 1) s).1 ∧ (80000 : ℚ) + 4900 < (meetPoint (layerHeight blockOptions 1) s').1 := by
    unfold Down Up
    decide +kernel
  exact fun f hf s hs s' hs' h1 h2 => farFrom_side (by norm_num) (.inl (h f hf s hs s' hs' h1 h2))

/-- Non-vacuity of `C122_program`: the straight way from the middle of the block to the outside meets both walls of the second layer. -/
example : ∃ t body m moves, gcodeOf shellExt blockOptions [] = .ok t ∧ t = startText blockOptions ++ body ++ endText blockOptions ∧ run body = some (m, moves) ∧
    ∀ j : Nat, j < 2 → ∃ z, OnWay [(100000, 100000), (80000, 100000)] z ∧ PrintedNear moves 400 8 z := by
  have hs := shell_sliced
  have hm := shell_modified
  have hg := block_segments
  cases h2 : slice rectLib blockOptions blockOpt with
  | error e => rw [h2] at hs; cases hs
  | ok sliced =>
  rw [h2] at hs hm
  have hs : sliced.map Layer.parts = [[blockPart], [blockPart], [blockPart], [blockPart], [blockPart]] := Except.ok.inj hs
  simp only [bind, Except.bind] at hm
  cases h3 : (standardModifiers rectLib 1 blockOptions).foldlM (fun ls m => m ls) sliced with
  | error e => rw [h3] at hm; cases hm
  | ok layers =>
  rw [h3] at hm
  have hty := typed_modified h3 (sliced_plain h2) (Except.ok.inj hm)
  have hlen : sliced.length = 5 := by simpa using congrArg List.length hs
  obtain ⟨lo, hlo⟩ : ∃ lo, blockOpt.min = .ok lo := by unfold OptModel.min; rw [block_faces]; exact ⟨_, rfl⟩
  obtain ⟨hi, hhi⟩ : ∃ hi, blockOpt.max = .ok hi := by unfold OptModel.max; rw [block_faces]; exact ⟨_, rfl⟩
  have hstl : shellExt.stl = blockExt.stl := rfl
  obtain ⟨t, ht⟩ := gcode_of_modified (ext := shellExt) block_sensible ⟨piece_open.ok, piece_open.lines⟩ (by rw [hstl, block_stl]; decide) (by rw [hstl]; exact block_opt) h2 h3 hty hlo hhi
  obtain ⟨om, segs, sliced', k1, k2, k3, key⟩ := C122_program shellExt blockOptions [] t ht (tol := 2) (by norm_num) rect_keeps rect_insets
    ⟨by decide, by decide, by decide, by decide, by decide⟩ (by decide) (by decide) (by decide) (by decide) (by decide) (by decide)
  rw [hstl, block_opt] at k1
  cases k1
  have k3 : slice rectLib blockOptions blockOpt = .ok sliced' := k3
  rw [h2] at k3
  cases k3
  rw [k2] at hg
  obtain ⟨g1, g2⟩ := Prod.mk.inj (Except.ok.inj hg)
  obtain ⟨body, m, moves, b1, b2, b3⟩ := key blockFaces block_faces (by decide +kernel) (by unfold SmallSurface; decide +kernel) (by rintro rfl; cases hlen)
  have hn : 1 < sliced.length := by omega
  have hpart : sliced[1].parts = [blockPart] := by
    have : sliced[1].parts ∈ sliced.map Layer.parts := List.mem_map_of_mem (List.getElem_mem _)
    rw [hs] at this
    simpa using this
  have hfin : (2 * ((max 0 blockOptions.slicing.finishPolygonSnapDistance : Int) : ℚ) + 2) ≤ 4900 := by decide +kernel
  have hfin0 : (0 : ℚ) ≤ 2 * ((max 0 blockOptions.slicing.finishPolygonSnapDistance : Int) : ℚ) + 2 := by decide +kernel
  have e1 : layerHeight blockOptions 1 = 400 := by decide
  have far : ∀ q ∈ [((100000 : ℚ), (100000 : ℚ)), (80000, 100000)], FarFromSurface 4900 blockFaces (layerHeight blockOptions 1) q := by
    intro q hq
    rcases List.mem_cons.1 hq with rfl | hq
    · exact block_far 1 (by omega)
    · rw [List.mem_singleton] at hq
      subst hq
      exact shell_far
  refine ⟨t, body, m, moves, ht, b1, b2, fun j hj => ?_⟩
  have depth : 0 ≤ wallDepth blockOptions 2 (9 - 4) j ∧ wallDepth blockOptions 2 (9 - 4) j ≤ 4900 := by
    have hwd : (blockOptions.printer.extrusionWidth : ℚ) = 400 := rfl
    have hj1 : (j : ℚ) ≤ 1 := by exact_mod_cast (by omega : j ≤ 1)
    have hj0 : (0 : ℚ) ≤ j := by positivity
    unfold wallDepth
    rw [hwd]
    constructor
    · norm_num; linarith
    · norm_num; linarith
  obtain ⟨z, hz, hp, -⟩ := b3 1 sliced[1] (9 - 4) (List.getElem?_eq_getElem hn) (well_sliced (by rw [g1]; omega) g2 (block_tip 1 (by omega)))
    (fun p hp c hc => by
      rw [hpart] at hp
      obtain ⟨w1, w2⟩ := shell_walls p hp c hc
      exact ⟨w1, w2⟩) (100000, 100000) (80000, 100000) [(100000, 100000), (80000, 100000)] ⟨rfl, rfl⟩ (block_inside 1 (by omega)) (by decide +kernel)
    (fun q hq => farFromSurface_mono (far q hq) hfin0 hfin) j (by have : blockOptions.print.insetCount = 2 := rfl
                                                                  omega)
    (fun q hq => farFromSurface_mono (far q hq) depth.1 depth.2)
  rw [e1] at hp
  exact ⟨z, hz, hp⟩

end Verif
