import Verif.Spec.Generation

/-! # C29, C30: the generator -/
namespace Verif
open Verif.Go Verif.Model Verif.Spec

section
variable {W : Type}

theorem playback_append (rs : List (Renderer W)) (a b : List Event) (w : W) :
    playback rs (a ++ b) w = match playback rs a w with
      | (w, some f) => (w, some f)
      | (w, none) => playback rs b w := by
  induction a generalizing w with
  | nil => rfl
  | cons e es ih =>
    simp only [List.cons_append, playback]
    split
    · exact ih w
    · split
      · rfl
      · exact ih _

theorem renderLayer_playback (o : Options) (maxLayer : Int) (n : Nat) (l : Layer) (all done rs : List (Renderer W)) (h : all = done ++ rs) (w : W) :
    renderLayer o maxLayer n l rs w =
      playback all ((List.range' done.length rs.length).map fun i => ⟨i, n, maxLayer, l, layerHeight o n⟩) w := by
  induction rs generalizing done w with
  | nil => rfl
  | cons r rs ih =>
    have hget : all[done.length]? = some r := by rw [h]; simp
    simp only [renderLayer, List.length_cons, List.range'_succ, List.map_cons, playback, hget, layerHeight]
    have := ih (done ++ [r]) (by simp [h])
    simp only [List.length_append, List.length_singleton, layerHeight] at this
    rcases hr : r w n maxLayer l (o.print.initialLayerThickness + n * o.print.layerThickness) with ⟨w', _ | f⟩
    · simp only [this]
    · rfl

theorem renderLayer_events (o : Options) (maxLayer : Int) (n : Nat) (l : Layer) (rs : List (Renderer W)) (w : W) :
    renderLayer o maxLayer n l rs w = playback rs (layerEvents o maxLayer rs.length n l) w := by
  rw [renderLayer_playback o maxLayer n l rs [] rs (by simp)]
  simp [layerEvents, List.range_eq_range']

theorem renderLayers_events (o : Options) (maxLayer : Int) (rs : List (Renderer W)) (n : Nat) (layers : List Layer) (w : W) :
    renderLayers o maxLayer rs n layers w =
      playback rs ((layers.zipIdx n).flatMap fun x => layerEvents o maxLayer rs.length x.2 x.1) w := by
  induction layers generalizing n w with
  | nil => rfl
  | cons l ls ih =>
    simp only [renderLayers, List.zipIdx_cons, List.flatMap_cons, playback_append, renderLayer_events]
    split <;> simp_all

/-- **C29**: the nested loops of `Generate` make the calls of `allEvents` in order, until the first failure. -/
theorem C29_events (o : Options) (rs : List (Renderer W)) (reset : W → W) (text : W → Str) (layers : List Layer) (w : W) :
    generate o rs reset text layers w = match playback rs (allEvents o rs.length layers) (reset w) with
      | (w, some f) => (w, [], some f)
      | (w, none) => (w, text w, none) := by
  simp only [generate, renderLayers_events, allEvents]
  split <;> simp_all

theorem loggedAll_get (rs : List (Renderer W)) (i : Nat) : (loggedAll rs)[i]? = (rs[i]?).map (logged i) := by
  simp [loggedAll, List.getElem?_map, List.getElem?_zipIdx]
  cases rs[i]? <;> simp

theorem playback_logged (rs : List (Renderer W)) (es : List Event) (hes : ∀ e ∈ es, e.renderer < rs.length) (w : W) (log : List Event) :
    (playback (loggedAll rs) es (w, log)).2 = (playback rs es w).2 ∧
    (playback (loggedAll rs) es (w, log)).1.1 = (playback rs es w).1 ∧
    ∃ done rest, es = done ++ rest ∧ (playback (loggedAll rs) es (w, log)).1.2 = log ++ done ∧
      ((playback rs es w).2 = none → rest = []) ∧
      (∀ f, (playback rs es w).2 = some f → ∃ before e r w', done = before ++ [e] ∧ playback rs before w = (w', none) ∧
        rs[e.renderer]? = some r ∧ (r w' e.layerNr e.maxLayer e.layer e.z).2 = some f) := by
  induction es generalizing w log with
  | nil => exact ⟨rfl, rfl, [], [], rfl, by simp [playback], by simp, by simp [playback]⟩
  | cons e es ih =>
    obtain ⟨r, hr⟩ : ∃ r, rs[e.renderer]? = some r := ⟨rs[e.renderer]'(hes e (by simp)), by simp [hes e (by simp)]⟩
    simp only [playback, loggedAll_get, hr, Option.map_some, logged]
    rcases hw : r w e.layerNr e.maxLayer e.layer e.z with ⟨w', _ | f⟩
    · obtain ⟨h1, h2, done, rest, h3, h4, h5, h6⟩ := ih (fun e he => hes e (List.mem_cons_of_mem _ he)) w' (log ++ [e])
      refine ⟨h1, h2, e :: done, rest, by simp [h3], by simpa using h4, h5, fun f hf => ?_⟩
      obtain ⟨before, e', r', w'', g1, g2, g3, g4⟩ := h6 f hf
      exact ⟨e :: before, e', r', w'', by simp [g1], by simp only [playback, hr, hw, g2], g3, g4⟩
    · refine ⟨rfl, rfl, [e], es, rfl, rfl, by simp, fun f' hf => ?_⟩
      simp only [Option.some.injEq] at hf
      exact ⟨[], e, r, w, rfl, rfl, hr, by rw [hw, hf]⟩

theorem mem_allEvents {o : Options} {m : Nat} {layers : List Layer} {e : Event} (h : e ∈ allEvents o m layers) :
    e.renderer < m ∧ layers[e.layerNr]? = some e.layer ∧ e.maxLayer = layers.length - 1 ∧ e.z = layerHeight o e.layerNr := by
  simp only [allEvents, List.mem_flatMap, layerEvents, List.mem_map, List.mem_range] at h
  obtain ⟨⟨l, n⟩, h1, i, hi, rfl⟩ := h
  exact ⟨hi, List.mem_zipIdx_iff_getElem?.1 h1, rfl, rfl⟩

/-- **C29**: the calls which are really made (recorded by renderers with a log) are all calls of `allEvents` if there is no failure, else those up
to and including the failing one. -/
theorem C29_order (o : Options) (rs : List (Renderer W)) (reset : W → W) (text : W → Str) (layers : List Layer) (w : W) :
    ∃ done rest, allEvents o rs.length layers = done ++ rest ∧
      (generate o (loggedAll rs) (fun w => (reset w.1, [])) (fun w => text w.1) layers (w, [])).1.2 = done ∧
      ((generate o rs reset text layers w).2.2 = none → rest = []) := by
  obtain ⟨h1, h2, done, rest, h3, h4, h5, h6⟩ := playback_logged rs (allEvents o rs.length layers) (fun e he => (mem_allEvents he).1) (reset w) []
  refine ⟨done, rest, h3, ?_, fun h => h5 ?_⟩
  · rw [C29_events]
    have : (loggedAll rs).length = rs.length := by simp [loggedAll]
    rw [this]
    rw [List.nil_append] at h4
    rw [← h4]
    split <;> simp_all
  · rw [C29_events] at h
    revert h
    split <;> simp_all

/-- **C29**: the log does not influence the result. -/
theorem C29_log_faithful (o : Options) (rs : List (Renderer W)) (reset : W → W) (text : W → Str) (layers : List Layer) (w : W) :
    (generate o (loggedAll rs) (fun w => (reset w.1, [])) (fun w => text w.1) layers (w, [])).2 = (generate o rs reset text layers w).2 := by
  obtain ⟨h1, h2, -⟩ := playback_logged rs (allEvents o rs.length layers) (fun e he => (mem_allEvents he).1) (reset w) []
  rw [C29_events, C29_events]
  have : (loggedAll rs).length = rs.length := by simp [loggedAll]
  rw [this]
  rcases hp : playback rs (allEvents o rs.length layers) (reset w) with ⟨w', _ | f⟩ <;>
    rcases hq : playback (loggedAll rs) (allEvents o rs.length layers) (reset w, []) with ⟨w'', _ | f'⟩ <;> simp_all

/-- **C29**: `allEvents` contains each renderer exactly once for each layer: it is the list of all pairs in lexicographic order. -/
theorem C29_each_once (o : Options) (m : Nat) (layers : List Layer) :
    (allEvents o m layers).map (fun e => (e.layerNr, e.renderer)) =
      (List.range layers.length).flatMap fun n => (List.range m).map fun i => (n, i) := by
  simp only [allEvents, layerEvents, List.map_flatMap, List.map_map, Function.comp_def]
  have : List.range layers.length = layers.zipIdx.map (fun x => x.2) := by
    rw [List.zipIdx_map_snd, List.range_eq_range']
  rw [this, List.flatMap_map]

/-- **C29**: the arguments of each call: the layer with its number, the number of the last layer and the height of the layer. -/
theorem C29_arguments {o : Options} {m : Nat} {layers : List Layer} {e : Event} (h : e ∈ allEvents o m layers) :
    layers[e.layerNr]? = some e.layer ∧ e.maxLayer = layers.length - 1 ∧
      e.z = o.print.initialLayerThickness + e.layerNr * o.print.layerThickness :=
  (mem_allEvents h).2

/-- **C29**: heights increase strictly from layer to layer. -/
theorem C29_heights {o : Options} (ht : 0 < o.print.layerThickness) {n k : Nat} (h : n < k) : layerHeight o n < layerHeight o k := by
  have : (n : Int) * o.print.layerThickness < k * o.print.layerThickness := Int.mul_lt_mul_of_pos_right (by omega) ht
  simp only [layerHeight]; omega

example : allEvents {} 2 [⟨[], none⟩, ⟨[], none⟩] =
    [⟨0, 0, 1, ⟨[], none⟩, 200⟩, ⟨1, 0, 1, ⟨[], none⟩, 200⟩, ⟨0, 1, 1, ⟨[], none⟩, 400⟩, ⟨1, 1, 1, ⟨[], none⟩, 400⟩] := rfl

/-- **C30**: after the first failing renderer no other one is called, the text is empty and its failure is returned. -/
theorem C30_first_error {o : Options} {rs : List (Renderer W)} {reset : W → W} {text : W → Str} {layers : List Layer} {w : W} {f : Fault}
    (h : (generate o rs reset text layers w).2.2 = some f) :
    (generate o rs reset text layers w).2.1 = [] ∧
    ∃ before e after r w', allEvents o rs.length layers = before ++ e :: after ∧ playback rs before (reset w) = (w', none) ∧
      rs[e.renderer]? = some r ∧ r w' e.layerNr e.maxLayer e.layer e.z = ((generate o rs reset text layers w).1, some f) ∧
      (generate o (loggedAll rs) (fun w => (reset w.1, [])) (fun w => text w.1) layers (w, [])).1.2 = before ++ [e] := by
  obtain ⟨h1, h2, done, rest, h3, h4, h5, h6⟩ := playback_logged rs (allEvents o rs.length layers) (fun e he => (mem_allEvents he).1) (reset w) []
  have hl : (loggedAll rs).length = rs.length := by simp [loggedAll]
  rw [C29_events] at h ⊢
  rw [C29_events, hl]
  rcases hp : playback rs (allEvents o rs.length layers) (reset w) with ⟨w', _ | f'⟩
  · simp [hp] at h
  · simp only [hp, Option.some.injEq] at h ⊢
    subst h
    obtain ⟨before, e, r, w2, g1, g2, g3, g4⟩ := h6 f' (by rw [hp])
    refine ⟨trivial, before, e, rest, r, w2, by rw [h3, g1]; simp, g2, g3, ?_, ?_⟩
    · have hw : playback rs (allEvents o rs.length layers) (reset w) = r w2 e.layerNr e.maxLayer e.layer e.z := by
        rw [h3, g1, List.append_assoc, playback_append, g2]
        simp only [List.singleton_append, playback, g3]
        rcases hh : r w2 e.layerNr e.maxLayer e.layer e.z with ⟨w3, _ | f3⟩
        · rw [hh] at g4; simp at g4
        · rfl
      rw [← hw, hp]
    · rw [List.nil_append] at h4
      rw [← g1, ← h4]
      split <;> simp_all

/-- **C30**: without a failing renderer the text is the one of the builder after all calls. -/
theorem C30_success {o : Options} {rs : List (Renderer W)} {reset : W → W} {text : W → Str} {layers : List Layer} {w : W}
    (h : (generate o rs reset text layers w).2.2 = none) :
    ∃ w', playback rs (allEvents o rs.length layers) (reset w) = (w', none) ∧ generate o rs reset text layers w = (w', text w', none) := by
  rw [C29_events] at h ⊢
  rcases hp : playback rs (allEvents o rs.length layers) (reset w) with ⟨w', _ | f'⟩
  · exact ⟨w', rfl, rfl⟩
  · simp [hp] at h

/-- **C30**: for renderers without a state of their own, the result does not depend on what the generator did before. -/
theorem C30_repeatable (crossing : List LayerPart → Path → Bool × Bool) (o : Options) (rs : List Scripts) (layers : List Layer)
    (g g' : Builder) : generateScripts crossing o rs layers g = generateScripts crossing o rs layers g' := rfl

end

section Scripts
variable {crossing : List LayerPart → Path → Bool × Bool}

theorem execCalls_ok {g g' : Builder} {cs : List Call} : execCalls crossing g cs = (g', none) ↔ g.exec crossing cs = .ok g' := by
  induction cs generalizing g with
  | nil => simp [execCalls, Builder.exec]
  | cons c cs ih =>
    simp only [execCalls, Builder.exec]
    rcases h : g.exec1 crossing c with f | g1
    · simp [bind, Except.bind]
    · simpa [bind, Except.bind] using ih

theorem exec_append (g : Builder) (a b : List Call) :
    g.exec crossing (a ++ b) = (g.exec crossing a).bind fun g => g.exec crossing b := by
  induction a generalizing g with
  | nil => rfl
  | cons c cs ih =>
    simp only [List.cons_append, Builder.exec]
    rcases h : g.exec1 crossing c with f | g1
    · rfl
    · simpa [bind, Except.bind] using ih g1

theorem run_ok {g g' : Builder} {s : Script} : s.run crossing g = (g', none) ↔ s.fault = none ∧ g.exec crossing s.calls = .ok g' := by
  unfold Script.run
  rcases h : execCalls crossing g s.calls with ⟨g1, _ | f⟩
  · have := execCalls_ok.1 h
    simp [this, and_comm]
  · simp only [Prod.mk.injEq, reduceCtorEq, and_false, false_iff, not_and]
    intro _ hx
    rw [execCalls_ok.2 hx] at h
    simp at h

theorem renderLayer_scripts {o : Options} {m : Int} {n : Nat} {l : Layer} {rs : List Scripts} {g g' : Builder} :
    renderLayer o m n l (rs.map (Scripts.renderer crossing)) g = (g', none) ↔
      (∀ r ∈ rs, (r n m l (layerHeight o n)).fault = none) ∧
        g.exec crossing (rs.flatMap fun r => (r n m l (layerHeight o n)).calls) = .ok g' := by
  induction rs generalizing g with
  | nil => simp [renderLayer, Builder.exec]
  | cons r rs ih =>
    simp only [List.map_cons, renderLayer, Scripts.renderer, List.forall_mem_cons, List.flatMap_cons, exec_append]
    rw [show o.print.initialLayerThickness + (n : Int) * o.print.layerThickness = layerHeight o n from rfl]
    rcases h : (r n m l (layerHeight o n)).run crossing g with ⟨g1, _ | f⟩
    · obtain ⟨h1, h2⟩ := run_ok.1 h
      simp only [h1, h2, true_and, Except.bind]
      exact ih
    · simp only [Prod.mk.injEq, reduceCtorEq, and_false, false_iff, not_and]
      intro h1 h2
      rcases hx : g.exec crossing (r n m l (layerHeight o n)).calls with f' | g2
      · simp [hx, Except.bind] at h2
      · rw [run_ok.2 ⟨h1.1, hx⟩] at h; simp at h

/-- **C30**: `Generate` succeeds with the text `t` if and only if no script fails and the text is what a new builder has written after the
calls of all scripts in order. -/
theorem C30_scripts {o : Options} {rs : List Scripts} {layers : List Layer} {g0 : Builder} {t : Str} :
    (generateScripts crossing o rs layers g0).2 = (t, none) ↔
      (∀ s ∈ allScripts o rs layers, s.fault = none) ∧
      ∃ g, (newBuilder o.filament.filamentDiameter o.filament.extrusionMultiplier).exec crossing
        ((allScripts o rs layers).flatMap Script.calls) = .ok g ∧ g.buf = t := by
  have key : ∀ (m : Int) (ls : List Layer) (n : Nat) (g g' : Builder),
      renderLayers o m (rs.map (Scripts.renderer crossing)) n ls g = (g', none) ↔
        (∀ s ∈ (ls.zipIdx n).flatMap (fun x => rs.map fun r => r x.2 m x.1 (layerHeight o x.2)), s.fault = none) ∧
        g.exec crossing (((ls.zipIdx n).flatMap (fun x => rs.map fun r => r x.2 m x.1 (layerHeight o x.2))).flatMap Script.calls) = .ok g' := by
    intro m ls
    induction ls with
    | nil => intro n g g'; simp [renderLayers, Builder.exec]
    | cons l ls ih =>
      intro n g g'
      simp only [renderLayers, List.zipIdx_cons, List.flatMap_cons, List.flatMap_append, exec_append, List.forall_mem_append, List.flatMap_map]
      rcases h : renderLayer o m n l (rs.map (Scripts.renderer crossing)) g with ⟨g1, _ | f⟩
      · obtain ⟨h1, h2⟩ := renderLayer_scripts.1 h
        simp only [h2, Except.bind, ih, List.forall_mem_map]
        simp only [and_assoc]
        exact ⟨fun h => ⟨h1, h⟩, fun h => h.2⟩
      · simp only [Prod.mk.injEq, reduceCtorEq, and_false, false_iff, not_and, List.forall_mem_map]
        intro h1 h2
        rcases hx : g.exec crossing (rs.flatMap fun r => (r n m l (layerHeight o n)).calls) with f' | g2
        · simp [hx, Except.bind] at h2
        · rw [renderLayer_scripts.2 ⟨h1.1, hx⟩] at h; simp at h
  simp only [generateScripts, generate]
  rcases h : renderLayers o (layers.length - 1) (rs.map (Scripts.renderer crossing)) 0 layers
    (newBuilder o.filament.filamentDiameter o.filament.extrusionMultiplier) with ⟨g1, _ | f⟩
  · obtain ⟨h1, h2⟩ := (key _ _ _ _ _).1 h
    constructor
    · intro h3
      simp only [Prod.mk.injEq, and_true] at h3
      exact ⟨h1, g1, h2, h3⟩
    · rintro ⟨-, g, hg, rfl⟩
      rw [allScripts] at hg
      rw [h2] at hg
      cases hg; rfl
  · simp only [Prod.mk.injEq, reduceCtorEq, and_false, false_iff, not_and, not_exists]
    intro h1 g hg
    rw [(key _ _ _ _ _).2 ⟨h1, hg⟩] at h
    simp at h

end Scripts
end Verif
