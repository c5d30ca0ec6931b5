import Verif.Spec.Process

/-! # C70, C71, C72: the whole process -/
namespace Verif
open Verif.Go Verif.Model Verif.Spec

section Order
variable {W M OM L : Type}

/-- All steps of the log were due. -/
def StepsDue (path out : Str) (n : Nat) (log : StepLog M OM L) : Prop :=
  ∀ k < log.length, nextStep path out n (log.take k) = (log[k]?).map Prod.fst

theorem StepsDue.snoc {path out : Str} {n : Nat} {log : StepLog M OM L} (h : StepsDue path out n log) {s : Step M OM L}
    (hs : nextStep path out n log = some s) (r : Outcome M OM L) : StepsDue path out n (log ++ [(s, r)]) := by
  intro k hk
  rw [List.length_append, List.length_singleton] at hk
  by_cases hl : k < log.length
  · rw [List.take_append_of_le_length (by omega), List.getElem?_append_left hl]
    exact h k hl
  · have e : k = log.length := by omega
    subst e
    rw [List.take_left', List.getElem?_append_right (le_refl _), Nat.sub_self, hs]
    · rfl
    · rfl

theorem StepsDue.correct {path out : Str} {n : Nat} {log : StepLog M OM L} (h : StepsDue path out n log) (hn : nextStep path out n log = none) :
    Correct path out n log := by
  intro k hk
  by_cases hl : k < log.length
  · exact h k hl
  · have e : k = log.length := by omega
    subst e
    rw [List.take_length, hn, List.getElem?_eq_none (le_refl _)]
    rfl

theorem nextStep_failed {path out : Str} {n : Nat} (log : StepLog M OM L) (s : Step M OM L) (e : Fault) :
    nextStep path out n (log ++ [(s, .failed e)]) = none := by
  unfold nextStep
  rw [List.getLast?_append]
  cases s <;> rfl

/-- The log `w.2`, the result of a (partial) run: the steps were due, and if it failed, then in the last step. -/
def FailedWith {α : Type} (path out : Str) (n : Nat) (e : Fault) (r : (W × StepLog M OM L) × Res α) : Prop :=
  r.2 = .error e ∧ Correct path out n r.1.2 ∧ ∃ log s, r.1.2 = log ++ [(s, .failed e)]

/-- A noted step which is due: it either fails, and everything ends, or it continues. -/
theorem noted_then {α β : Type} {path out : Str} {n : Nat} {s : Step M OM L} {f : α → Outcome M OM L} {a : Act W α} {g : α → Act (W × StepLog M OM L) β}
    {w : W × StepLog M OM L} (hd : StepsDue path out n w.2) (hs : nextStep path out n w.2 = some s) :
    (∃ e, FailedWith path out n e ((noted s f a).andThen g w)) ∨
    ∃ x w', StepsDue path out n (w.2 ++ [(s, f x)]) ∧ (noted s f a).andThen g w = g x (w', w.2 ++ [(s, f x)]) := by
  rcases ha : a w.1 with ⟨w', _ | x⟩
  · rename_i e
    left
    refine ⟨e, ?_⟩
    have : (noted s f a).andThen g w = ((w', w.2 ++ [(s, .failed e)]), .error e) := by
      simp only [Act.andThen, noted, ha, outcome]
    rw [this]
    exact ⟨rfl, (hd.snoc hs _).correct (nextStep_failed _ _ _), _, _, rfl⟩
  · right
    refine ⟨x, w', hd.snoc hs _, ?_⟩
    simp only [Act.andThen, noted, ha, outcome]

theorem andThen_assoc {V α β γ : Type} (a : Act V α) (f : α → Act V β) (g : β → Act V γ) :
    (a.andThen f).andThen g = a.andThen fun x => (f x).andThen g := by
  funext w
  simp only [Act.andThen]
  rcases a w with ⟨w', _ | x⟩ <;> rfl

theorem latestLayers_snoc (log : StepLog M OM L) (s : Step M OM L) (r : Outcome M OM L) :
    latestLayers (log ++ [(s, r)]) = match r with | .layers ls => some ls | _ => latestLayers log := by
  unfold latestLayers
  rw [List.filterMap_append, List.getLast?_append]
  cases r <;> simp

theorem latestModel_snoc (log : StepLog M OM L) (s : Step M OM L) (r : Outcome M OM L) :
    latestModel (log ++ [(s, r)]) = match r with | .optimized om => some om | _ => latestModel log := by
  unfold latestModel
  rw [List.filterMap_append, List.getLast?_append]
  cases r <;> simp

theorem nextStep_snoc (path out : Str) (n : Nat) (log : StepLog M OM L) (s : Step M OM L) (r : Outcome M OM L) :
    nextStep path out n (log ++ [(s, r)]) =
      match s, r with
      | .read _, .model m => some (.describe m)
      | .describe m, .done => some (.optimize m)
      | .optimize _, .optimized om => some (.slice om)
      | .slice om, .layers _ => some (if n = 0 then .generatorInit om else .modifierInit 0 om)
      | .modifierInit k _, .done => (latestLayers log).map (.modify k)
      | .modify k _, .layers _ => (latestModel log).map fun om => if k + 1 = n then .generatorInit om else .modifierInit (k + 1) om
      | .generatorInit _, .done => (latestLayers log).map .generate
      | .generate _, .text t => some (.write t out)
      | _, _ => none := by
  unfold nextStep
  rw [List.getLast?_append, latestLayers_snoc, latestModel_snoc]
  cases s <;> cases r <;> rfl

/-- The loop over the modifiers. -/
theorem runModifiers_noted {α : Type} {path out : Str} (n : Nat) (om : OM) (g : L → Act (W × StepLog M OM L) α) (ms : List (LayerModifier W OM L)) :
    ∀ (k : Nat) (ls : L) (w : W × StepLog M OM L), k + ms.length = n → StepsDue path out n w.2 → latestLayers w.2 = some ls → latestModel w.2 = some om →
      nextStep path out n w.2 = some (if k = n then .generatorInit om else .modifierInit k om) →
      let r := (runModifiers om ((ms.zipIdx k).map fun x => { init := fun om => noted (.modifierInit x.2 om) (fun _ => .done) (x.1.init om), modify := fun ls => noted (.modify x.2 ls) .layers (x.1.modify ls) }) ls).andThen g w
      (∃ e, FailedWith path out n e r) ∨
      ∃ ls' w', StepsDue path out n w'.2 ∧ latestLayers w'.2 = some ls' ∧ nextStep path out n w'.2 = some (.generatorInit om) ∧ r = g ls' w' := by
  induction ms with
  | nil =>
    intro k ls w hk hd hl hm hs
    right
    rw [if_pos (by simpa using hk)] at hs
    exact ⟨ls, w, hd, hl, hs, rfl⟩
  | cons m ms ih =>
    intro k ls w hk hd hl hm hs
    rw [List.length_cons] at hk
    rw [if_neg (by omega)] at hs
    rw [List.zipIdx_cons, List.map_cons]
    intro r
    have hr : r = (noted (.modifierInit k om) (fun _ => .done) (m.init om)).andThen (fun _ => (noted (.modify k ls) .layers (m.modify ls)).andThen fun ls =>
        (runModifiers om ((ms.zipIdx (k + 1)).map fun x => { init := fun om => noted (.modifierInit x.2 om) (fun _ => .done) (x.1.init om), modify := fun ls => noted (.modify x.2 ls) .layers (x.1.modify ls) }) ls).andThen g) w := by
      show Act.andThen (Act.andThen _ fun _ => Act.andThen _ _) g w = _
      rw [andThen_assoc]
      simp only [andThen_assoc]
    rw [hr]
    rcases noted_then hd hs with h | ⟨_, w1, hd1, e1⟩
    · exact .inl h
    rw [e1]
    have hs1 : nextStep path out n (w.2 ++ [(Step.modifierInit k om, Outcome.done)]) = some (.modify k ls) := by
      rw [nextStep_snoc]; simp [hl]
    rcases noted_then (w := (w1, w.2 ++ [(Step.modifierInit k om, Outcome.done)])) hd1 hs1 with h | ⟨ls2, w2, hd2, e2⟩
    · exact .inl h
    rw [e2]
    refine ih (k + 1) ls2 _ (by omega) hd2 ?_ ?_ ?_
    · rw [latestLayers_snoc]
    · simp only [latestModel_snoc, hm]
    · rw [nextStep_snoc]
      simp only [latestModel_snoc, hm, Option.map_some]

/-- **C70** The steps are done in the order reader, (log), optimizer, slicer, `Init` and `Modify` of each modifier, `Init` and `Generate` of the generator,
writer, each with the results of the previous ones. Nothing is done after the first failure, and the process returns this failure. If there
is none, the process succeeds and has written the output. -/
theorem C70_order (o : GoSliceOptions) (h : Handlers W M OM L) (w : W) :
    let r := process o (noting h) (w, [])
    Correct o.inputFilePath (outFile o) h.modifiers.length r.1.2 ∧
    (r.2 = .ok () → ∃ log t, r.1.2 = log ++ [(.write t (outFile o), .done)]) ∧
    ∀ e, r.2 = .error e → ∃ log s, r.1.2 = log ++ [(s, .failed e)] := by
  intro r
  have hout : outputPath o = outFile o := by
    unfold outputPath outFile
    cases o.outputFilePath <;> rfl
  have key : (∃ e, FailedWith o.inputFilePath (outFile o) h.modifiers.length e r) ∨
      ∃ t w' log, StepsDue o.inputFilePath (outFile o) h.modifiers.length (log ++ [(Step.write t (outFile o), Outcome.done)]) ∧
        r = ((w', log ++ [(Step.write t (outFile o), Outcome.done)]), .ok ()) := by
    show (∃ e, FailedWith _ _ _ e (process o (noting h) (w, []))) ∨ ∃ t w' log, _ ∧ process o (noting h) (w, []) = _
    rw [← hout]
    unfold process
    have hd0 : StepsDue o.inputFilePath (outputPath o) h.modifiers.length ([] : StepLog M OM L) := fun k hk => absurd hk (Nat.not_lt_zero k)
    rcases noted_then (w := (w, ([] : StepLog M OM L))) (s := .read o.inputFilePath) (f := .model) (a := h.read o.inputFilePath) hd0 rfl with h1 | ⟨m, w1, hd1, e1⟩
    · exact .inl h1
    dsimp only [noting] at *
    rw [e1]
    rcases noted_then (w := (w1, _)) (s := .describe m) (f := fun _ => .done) (a := h.describe m) hd1 (by rw [nextStep_snoc]) with h2 | ⟨_, w2, hd2, e2⟩
    · exact .inl h2
    rw [e2]
    rcases noted_then (w := (w2, _)) (s := .optimize m) (f := .optimized) (a := h.optimize m) hd2 (by rw [nextStep_snoc]) with h3 | ⟨om, w3, hd3, e3⟩
    · exact .inl h3
    rw [e3]
    rcases noted_then (w := (w3, _)) (s := .slice om) (f := .layers) (a := h.slice om) hd3 (by rw [nextStep_snoc]) with h4 | ⟨ls, w4, hd4, e4⟩
    · exact .inl h4
    rw [e4]
    rcases runModifiers_noted (w := (w4, _)) h.modifiers.length om _ h.modifiers 0 ls (by omega) hd4 (by simp only [latestLayers_snoc])
      (by simp only [latestModel_snoc]) (by rw [nextStep_snoc]; simp only [eq_comm]) with h5 | ⟨ls', ⟨w5, log⟩, hd5, hl5, hs5, e5⟩
    · exact .inl h5
    rw [e5]
    rcases noted_then (w := (w5, log)) (s := .generatorInit om) (f := fun _ => .done) (a := h.generatorInit om) hd5 hs5 with h6 | ⟨_, w6, hd6, e6⟩
    · exact .inl h6
    rw [e6]
    rcases noted_then (w := (w6, _)) (s := .generate ls') (f := .text) (a := h.generate ls') hd6 (by rw [nextStep_snoc, hl5]; rfl) with h7 | ⟨t, w7, hd7, e7⟩
    · exact .inl h7
    rw [e7]
    have hs8 : nextStep o.inputFilePath (outputPath o) h.modifiers.length
        ((log ++ [(Step.generatorInit om, Outcome.done)]) ++ [(Step.generate ls', Outcome.text t)]) = some (.write t (outputPath o)) := by rw [nextStep_snoc]
    rcases hw : h.write t (outputPath o) w7 with ⟨w8, _ | u⟩
    · rename_i e
      left
      refine ⟨e, by simp [noted, hw, outcome], ?_, _, _, by simp only [noted, hw, outcome]; rfl⟩
      have : (noted (.write t (outputPath o)) (fun _ => Outcome.done) (h.write t (outputPath o)) (w7, (log ++ [(Step.generatorInit om, Outcome.done)]) ++ [(Step.generate ls', Outcome.text t)])).1.2 =
        ((log ++ [(Step.generatorInit om, Outcome.done)]) ++ [(Step.generate ls', Outcome.text t)]) ++ [(Step.write t (outputPath o), .failed e)] := by
        simp only [noted, hw, outcome]
      rw [this]
      exact (hd7.snoc hs8 _).correct (nextStep_failed _ _ _)
    · right
      refine ⟨t, w8, (log ++ [(Step.generatorInit om, Outcome.done)]) ++ [(Step.generate ls', Outcome.text t)], hd7.snoc hs8 _, ?_⟩
      simp only [noted, hw, outcome]
  rcases key with ⟨e, hr, hc, log, s, hl⟩ | ⟨t, w', log, hd, hr⟩
  · refine ⟨hc, fun hok => by rw [hr] at hok; exact (nomatch hok), fun e' he => ?_⟩
    rw [hr] at he
    cases he
    exact ⟨log, s, hl⟩
  · rw [hr]
    refine ⟨hd.correct (by rw [nextStep_snoc]), fun _ => ⟨log, t, rfl⟩, fun e he => by cases he⟩

/-- The last step in a correct log is the only one which may have failed or written the output. -/
theorem correct_last {path out : Str} {n : Nat} {log : StepLog M OM L} (hc : Correct path out n log) (k : Nat) (hk : k + 1 < log.length) :
    log[k].2.Fine ∧ ¬ log[k].1.IsWrite := by
  have h := hc (k + 1) (by omega)
  rw [List.getElem?_eq_getElem hk, Option.map_some, List.take_succ_eq_append_getElem (by omega)] at h
  generalize log[k] = x at h ⊢
  obtain ⟨s, r⟩ := x
  rw [nextStep_snoc] at h
  cases s <;> cases r <;> simp_all [Outcome.Fine, Step.IsWrite]

/-- **C70** The output is written at most once, and only after all other steps succeeded. -/
theorem C70_write (o : GoSliceOptions) (h : Handlers W M OM L) (w : W) :
    let log := (process o (noting h) (w, [])).1.2
    ∀ k (hk : k < log.length), log[k].1.IsWrite → k + 1 = log.length ∧ ∀ j (hj : j < k), log[j].2.Fine ∧ ¬ log[j].1.IsWrite := by
  intro log k hk hw
  have hc := (C70_order o h w).1
  refine ⟨?_, fun j hj => correct_last hc j (by show j + 1 < log.length; omega)⟩
  by_contra hne
  exact (correct_last hc k (by show k + 1 < log.length; omega)).2 hw

/-! ### The log changes nothing -/

/-- Two methods which do the same, apart from the log. -/
def SameAct {α : Type} (a : Act (W × StepLog M OM L) α) (b : Act W α) : Prop := ∀ w, ((a w).1.1, (a w).2) = b w.1

theorem noted_same {α : Type} (s : Step M OM L) (f : α → Outcome M OM L) (a : Act W α) : SameAct (noted s f a) a := fun _ => rfl

theorem andThen_same {α β : Type} {a : Act (W × StepLog M OM L) α} {a' : Act W α} {f : α → Act (W × StepLog M OM L) β} {f' : α → Act W β} (h : SameAct a a')
    (hf : ∀ x, SameAct (f x) (f' x)) : SameAct (a.andThen f) (a'.andThen f') := by
  intro w
  have e := h w
  rcases ha : a w with ⟨w1, r⟩
  rw [ha] at e
  simp only [Act.andThen, ha, ← e]
  cases r with
  | error e => rfl
  | ok x => exact hf x w1

theorem runModifiers_same (om : OM) (ms : List (LayerModifier W OM L)) : ∀ (k : Nat) (ls : L), SameAct (M := M)
    (runModifiers om ((ms.zipIdx k).map fun x => { init := fun om => noted (.modifierInit x.2 om) (fun _ => .done) (x.1.init om), modify := fun ls => noted (.modify x.2 ls) .layers (x.1.modify ls) }) ls)
    (runModifiers om ms ls) := by
  induction ms with
  | nil => intro k ls w; rfl
  | cons m ms ih =>
    intro k ls
    exact andThen_same (noted_same _ _ _) fun _ => andThen_same (noted_same _ _ _) fun ls => ih (k + 1) ls

/-- **C70** The process with a log has the same result and the same effect as the one without. -/
theorem C70_log_faithful (o : GoSliceOptions) (h : Handlers W M OM L) (w : W) :
    ((process o (noting h) (w, [])).1.1, (process o (noting h) (w, [])).2) = process o h w :=
  andThen_same (noted_same _ _ _) (fun _ => andThen_same (noted_same _ _ _) fun _ => andThen_same (noted_same _ _ _) fun _ =>
    andThen_same (noted_same _ _ _) fun _ => andThen_same (runModifiers_same _ _ _ _) fun _ => andThen_same (noted_same _ _ _) fun _ =>
    andThen_same (noted_same _ _ _) fun _ => noted_same _ _ _) (w, [])

end Order

/-! ### Examples -/

/-- Handlers which work with numbers; one of two modifiers fails if the number of layers is 3. The world is the written text. -/
def toyHandlers : Handlers (Option Str) Nat Nat Nat where
  read p := pureAct (.ok p.length)
  describe _ := pureAct (.ok ())
  optimize m := pureAct (.ok (m + 1))
  slice om := pureAct (.ok (om + 1))
  modifiers := [⟨fun _ => pureAct (.ok ()), fun l => pureAct (.ok l)⟩, ⟨fun _ => pureAct (.ok ()), fun l => pureAct (if l = 3 then .error (.err "three") else .ok (l + 1))⟩]
  generatorInit _ := pureAct (.ok ())
  generate l := pureAct (.ok (List.replicate l 'g'))
  write t _ := fun _ => (some t, .ok ())

example : (process { inputFilePath := ['a', 'b'] } (noting toyHandlers) (none, [])).1.2 =
    [(.read ['a', 'b'], .model 2), (.describe 2, .done), (.optimize 2, .optimized 3), (.slice 3, .layers 4), (.modifierInit 0 3, .done), (.modify 0 4, .layers 4),
     (.modifierInit 1 3, .done), (.modify 1 4, .layers 5), (.generatorInit 3, .done), (.generate 5, .text ['g', 'g', 'g', 'g', 'g']),
     (.write ['g', 'g', 'g', 'g', 'g'] ['a', 'b', '.', 'g', 'c', 'o', 'd', 'e'], .done)] := rfl

/-- The failing modifier ends the processing. -/
example : process { inputFilePath := ['a'] } (noting toyHandlers) (none, []) =
    ((none, [(.read ['a'], .model 1), (.describe 1, .done), (.optimize 1, .optimized 2), (.slice 2, .layers 3), (.modifierInit 0 2, .done), (.modify 0 3, .layers 3),
     (.modifierInit 1 2, .done), (.modify 1 3, .failed (.err "three"))]), .error (.err "three")) := rfl

end Verif
