import Verif.Props.TypedHoles
import Verif.Props.RestExample

/-! # Example for C150: `goslice rest.stl`, with a block and a box which has lost two walls in the file -/
namespace Verif
open Verif.Go Verif.Model Verif.Spec Verif.Spec.GCode

def restWords : List Word := [.path "rest.stl".toList]

/-- Non-vacuity of `C150_command`: the command succeeds, and the bottom of the block is printed without gaps. -/
example : ∃ (w : World) (t text : Str) (mc : Machine) (moves : List Move),
    (mainM restExt (splitArgs ["rest.stl".toList]) w).2 = 0 ∧ (mainM restExt (splitArgs ["rest.stl".toList]) w).1.files "rest.stl.gcode".toList = some t ∧
    t = startText {} ++ text ++ endText {} ∧ run text = some (mc, moves) ∧ PrintedNear moves 200 (400 / 2 + 9) (90000, 100000) := by
  have key := fun n : Nat => C150_command restExt (ws := restWords) (path := "rest.stl".toList) (by
      intro w hw
      obtain rfl := List.mem_singleton.1 hw
      exact .inr (by decide)) rfl (by decide) (by
      intro n t h
      have h : (n, t) ∈ [] := h
      cases h) rfl (tol := 2) (by norm_num) square_good turns_never { files := fun _ => some [], space := n } (content := []) rfl
  have hopt : ∀ o : Options, (∀ n, lastText (restWords.flatMap Word.settings) n.toList = none → optionOf o n = defaultOf n) → o.goSlice.inputFilePath = "rest.stl".toList →
      o = pathOptions "rest.stl".toList := by
    intro o h1 h3
    refine C93_complete _ _ (fun n => ?_) h3
    rw [h1 n rfl, C93_defaults { args := ["rest.stl".toList] } (pathOptions "rest.stl".toList) (parseFlags_path _) n rfl]
  have main : ∀ n : Nat, ∃ t text mc moves, gcodeOf restExt (pathOptions "rest.stl".toList) [] = .ok t ∧
      (t.length ≤ n → (mainM restExt (splitArgs (restWords.flatMap Word.texts)) { files := fun _ => some [], space := n }).2 = 0 ∧
        (mainM restExt (splitArgs (restWords.flatMap Word.texts)) { files := fun _ => some [], space := n }).1.files "rest.stl.gcode".toList = some t) ∧
      t = startText {} ++ text ++ endText {} ∧ run text = some (mc, moves) ∧ PrintedNear moves 200 (400 / 2 + 9) (90000, 100000) := by
    intro n
    obtain ⟨o, h1, h2, h3, h⟩ := key n
    obtain rfl := hopt o h1 h3
    obtain ⟨t, om, sliced, top, e1, -, e3, e4, e5, e6, text, mc, moves, e7, e8, -, e10⟩ := h restMesh ⟨0, 0, 0⟩ ⟨30000, 10000, 1100⟩ rest_stl.symm (usual_default _)
      (fits_default _ (by show |(1 : ℚ)| ≤ 2 ^ 20; norm_num)) (by decide) (by decide) ⟨by unfold VecIn; decide +kernel, by decide +kernel⟩ rest_sheet rest_box
      ⟨by decide, by decide, by decide, by decide, by decide⟩ (by decide)
    refine ⟨t, text, mc, moves, e1, fun hn => e6 rfl hn, e7, e8, ?_⟩
    have hp := (e10 _ _ (.bodies blockMesh block_body.closed fun f hf => List.mem_append_left _ hf)).1 2 (fun l hl => square_walls (pathOptions "rest.stl".toList) (square_sliced e3 l hl)) (by norm_num)
    obtain rfl : top = 4 := by
      simp only [layerHeight] at e4 e5
      norm_num [pathOptions] at e4 e5
      omega
    have e1 : placedBody (pathOptions "rest.stl".toList).printer.center ⟨0, 0, 0⟩ ⟨30000, 10000, 1100⟩ restMesh = restBed restMesh := rest_placed.1
    have e2 : placedBody (pathOptions "rest.stl".toList).printer.center ⟨0, 0, 0⟩ ⟨30000, 10000, 1100⟩ blockMesh = restBed blockMesh := rest_placed.2
    rw [e1, e2] at hp
    have hgood : ∀ i < 5, GoodRest (pathOptions "rest.stl".toList) (restBed blockMesh) (restBed restMesh) 24 i := by
      intro i hi
      obtain ⟨gaps, ⟨⟨a1, a2, a3, a4, a5, a6, a7⟩, b1, b2⟩, c1, c2, c3⟩ := rest_good i hi
      exact ⟨gaps, ⟨⟨a1, a2, a3, a4, a5, a6, a7⟩, b1, b2⟩, c1, c2, c3⟩
    have hfar : ∀ i ≤ 4, ∀ d : ℚ, 0 ≤ d → d ≤ 4900 → FarFromSurface d (restBed blockMesh) (layerHeight (pathOptions "rest.stl".toList) i) (90000, 100000) :=
      fun i hi d h0 h1 => farFromSurface_mono (rest_far i (by omega) 90000 (by decide +kernel)) h0 h1
    have hen : ∀ i ≤ 4, FarEnough (pathOptions "rest.stl".toList) (restBed blockMesh) i (90000, 100000) := fun i hi => hfar i hi _ (by decide +kernel) (by decide +kernel)
    have hd : 0 ≤ fillDepth (pathOptions "rest.stl".toList) 2 24 2 ((pathOptions "rest.stl".toList).printer.extrusionWidth / 2 + 5) ∧
        fillDepth (pathOptions "rest.stl".toList) 2 24 2 ((pathOptions "rest.stl".toList).printer.extrusionWidth / 2 + 5) ≤ 4900 := by
      decide +kernel
    exact hp.solid 0 (by norm_num) 24 (fun i hi => ⟨hgood i (by omega), _, rest_inside.1 i (by omega), hfar i (by omega) _ (by norm_num) (by norm_num), hen i (by omega)⟩)
      (fun i hi => hgood i (by have := hi.2.2; omega)) _ (rest_inside.1 0 (by norm_num)) (fun i hi => hen i hi.2.2) (.inl (by decide)) fun i hi => hfar i hi.2.2 _ hd.1 hd.2
  obtain ⟨t, -, -, -, ht, -⟩ := main 0
  obtain ⟨t', text, mc, moves, ht', h1, h2⟩ := main t.length
  rw [ht] at ht'
  cases ht'
  exact ⟨_, t, text, mc, moves, (h1 le_rfl).1, (h1 le_rfl).2, h2⟩

end Verif
