import Verif.Props.Print
import Verif.Spec.Heat

/-! # C117: temperatures and fan speed while a layer is printed -/
namespace Verif
open Verif.Go Verif.Model Verif.Spec Verif.Spec.GCode

/-! ## Commands of joined texts -/

theorem lines_append_text (ls : List Str) (b : Str) (h : ∀ l ∈ ls, '\n' ∉ l) : split '\n' (unlines ls ++ b) = ls ++ split '\n' b := by
  induction ls with
  | nil => rfl
  | cons l ls ih =>
    have e : unlines (l :: ls) ++ b = l ++ '\n' :: (unlines ls ++ b) := by simp [unlines]
    rw [e, split_append (h l List.mem_cons_self), ih fun x hx => h x (List.mem_cons_of_mem _ hx)]
    rfl

theorem command_empty : command [] = none := by decide

theorem commands_unlines {ls : List Str} (h : ∀ l ∈ ls, '\n' ∉ l) : commands (unlines ls) = ls.filterMap command := by
  unfold commands
  rw [split_unlines h, List.filterMap_append]
  simp [command_empty]

theorem text_lines (a : Str) : ∃ ls, a ++ ['\n'] = unlines ls ∧ ∀ l ∈ ls, '\n' ∉ l :=
  ⟨split '\n' a, (unlines_split a).symm, fun _ hl => sep_not_mem_split hl⟩

/-- A text which ends with a newline consists of lines. -/
theorem commands_append_text (a b : Str) : commands (a ++ ['\n'] ++ b) = commands (a ++ ['\n']) ++ commands b := by
  obtain ⟨ls, e, h⟩ := text_lines a
  rw [e, commands_unlines h]
  unfold commands
  rw [lines_append_text ls b h, List.filterMap_append]

theorem startText_ends (o : Options) : ∃ a, startText o = a ++ ['\n'] :=
  ⟨_, by
    unfold startText
    rw [show "G92 E0 ; reset extrusion distance\n".toList = "G92 E0 ; reset extrusion distance".toList ++ ['\n'] by decide, ← List.append_assoc]⟩

theorem hotendTarget_append (a b : List Command) : hotendTarget (a ++ b) = (hotendTarget b).or (hotendTarget a) := by
  simp [hotendTarget, List.getLast?_append]

theorem bedTarget_append (a b : List Command) : bedTarget (a ++ b) = (bedTarget b).or (bedTarget a) := by
  simp [bedTarget, List.getLast?_append]

theorem fanTarget_append (a b : List Command) : fanTarget (a ++ b) = (fanTarget b).or (fanTarget a) := by
  simp [fanTarget, List.getLast?_append]

/-! ## The commands up to a layer -/

section
variable {o : Options}

theorem layer_fan (n : Nat) : fanTarget (layerCommands o n) = match o.filament.fanSpeed n with
    | some v => some (v : ℚ)
    | none => none := by
  unfold layerCommands
  have : fanTarget (if (n : Int) = o.filament.initialTemperatureLayerCount then
      [Command.bed false o.filament.bedTemperature, .hotend false o.filament.hotEndTemperature] else []) = none := by split <;> rfl
  rw [fanTarget_append, this]
  cases o.filament.fanSpeed n <;> rfl

theorem layer_hotend (n : Nat) : hotendTarget (layerCommands o n) =
    if (n : Int) = o.filament.initialTemperatureLayerCount then some (o.filament.hotEndTemperature : ℚ) else none := by
  unfold layerCommands
  rw [hotendTarget_append]
  have : hotendTarget (fanCommand (o.filament.fanSpeed n)) = none := by cases o.filament.fanSpeed n <;> rfl
  rw [this]
  split <;> rfl

theorem layer_bed (n : Nat) : bedTarget (layerCommands o n) =
    if (n : Int) = o.filament.initialTemperatureLayerCount then some (o.filament.bedTemperature : ℚ) else none := by
  unfold layerCommands
  rw [bedTarget_append]
  have : bedTarget (fanCommand (o.filament.fanSpeed n)) = none := by cases o.filament.fanSpeed n <;> rfl
  rw [this]
  split <;> rfl

theorem upto_hotend (start : List Command) (n : Nat) : hotendTarget (start ++ (List.range (n + 1)).flatMap (layerCommands o)) =
    temperatureAt o n (hotendTarget start) o.filament.hotEndTemperature := by
  induction n with
  | zero =>
    rw [hotendTarget_append]
    simp only [Nat.zero_add, List.range_one, List.flatMap_cons, List.flatMap_nil, List.append_nil, layer_hotend, temperatureAt]
    by_cases h : ((0 : Nat) : Int) = o.filament.initialTemperatureLayerCount
    · rw [if_pos h, if_pos (by omega)]; rfl
    · rw [if_neg h, if_neg (by omega)]; rfl
  | succ n ih =>
    rw [List.range_succ, List.flatMap_append, ← List.append_assoc, hotendTarget_append, ih]
    simp only [List.flatMap_cons, List.flatMap_nil, List.append_nil, layer_hotend, temperatureAt]
    by_cases h : ((n + 1 : Nat) : Int) = o.filament.initialTemperatureLayerCount
    · rw [if_pos h, Option.some_or, if_pos (by omega)]
    · rw [if_neg h, Option.none_or]
      exact if_congr (by omega) rfl rfl

theorem upto_bed (start : List Command) (n : Nat) : bedTarget (start ++ (List.range (n + 1)).flatMap (layerCommands o)) =
    temperatureAt o n (bedTarget start) o.filament.bedTemperature := by
  induction n with
  | zero =>
    rw [bedTarget_append]
    simp only [Nat.zero_add, List.range_one, List.flatMap_cons, List.flatMap_nil, List.append_nil, layer_bed, temperatureAt]
    by_cases h : ((0 : Nat) : Int) = o.filament.initialTemperatureLayerCount
    · rw [if_pos h, if_pos (by omega)]; rfl
    · rw [if_neg h, if_neg (by omega)]; rfl
  | succ n ih =>
    rw [List.range_succ, List.flatMap_append, ← List.append_assoc, bedTarget_append, ih]
    simp only [List.flatMap_cons, List.flatMap_nil, List.append_nil, layer_bed, temperatureAt]
    by_cases h : ((n + 1 : Nat) : Int) = o.filament.initialTemperatureLayerCount
    · rw [if_pos h, Option.some_or, if_pos (by omega)]
    · rw [if_neg h, Option.none_or]
      exact if_congr (by omega) rfl rfl

theorem upto_fan (start : List Command) (n : Nat) : fanTarget (start ++ (List.range (n + 1)).flatMap (layerCommands o)) =
    fanAt o (fanTarget start) n := by
  induction n with
  | zero =>
    rw [fanTarget_append]
    simp only [Nat.zero_add, List.range_one, List.flatMap_cons, List.flatMap_nil, List.append_nil, layer_fan, fanAt]
    cases o.filament.fanSpeed 0 <;> rfl
  | succ n ih =>
    rw [List.range_succ, List.flatMap_append, ← List.append_assoc, fanTarget_append, ih]
    simp only [List.flatMap_cons, List.flatMap_nil, List.append_nil, layer_fan, fanAt]
    push_cast
    cases o.filament.fanSpeed ((n : Int) + 1) <;> rfl

end

/-! ## The sections of the body -/

/-- The lines of a text of a harmless call do not move the head. -/
theorem linesOf_harmless {c : Call} {ls : List Str} (h : LinesOf c ls) (hh : Call.Harmless c)
    (ht : (∃ t, c = .text t) ∨ (∃ t, c = .comment t) ∨ (∃ t, c = .command t) ∨ (ls = [])) : ∀ l ∈ ls, ¬ MovesHead l := by
  rintro l hl (hm | hm)
  · rcases ht with ⟨t, rfl⟩ | ⟨t, rfl⟩ | ⟨t, rfl⟩ | rfl
    · simp only [LinesOf] at h; subst h; exact (hh.2 l hl).1 hm
    · simp only [LinesOf] at h; subst h; exact (hh.2 l hl).1 hm
    · simp only [LinesOf] at h; subst h; exact (hh.2 l hl).1 hm
    · simp at hl
  · rcases ht with ⟨t, rfl⟩ | ⟨t, rfl⟩ | ⟨t, rfl⟩ | rfl
    · simp only [LinesOf] at h; subst h; exact (hh.2 l hl).2 hm
    · simp only [LinesOf] at h; subst h; exact (hh.2 l hl).2 hm
    · simp only [LinesOf] at h; subst h; exact (hh.2 l hl).2 hm
    · simp at hl

/-- A call without moves. -/
def NoMove : Call → Prop
  | .moveSpeed .. => False
  | .move .. => False
  | .polygon .. => False
  | _ => True

theorem written_noMove {cs : List Call} {ls : List Str} (h : Written cs ls) (hh : ∀ c ∈ cs, Call.Harmless c ∧ NoMove c) : ∀ l ∈ ls, ¬ MovesHead l := by
  obtain ⟨lss, rfl, h⟩ := h
  induction h with
  | nil => simp
  | cons hc _ ih =>
    rename_i c ls' cs lss _
    intro l hl
    rw [List.flatten_cons, List.mem_append] at hl
    rcases hl with hl | hl
    · obtain ⟨h1, h2⟩ := hh c List.mem_cons_self
      refine linesOf_harmless hc h1 ?_ l hl
      cases c with
      | moveSpeed => exact h2.elim
      | move => exact h2.elim
      | polygon => exact h2.elim
      | text t => exact .inl ⟨t, rfl⟩
      | comment t => exact .inr (.inl ⟨t, rfl⟩)
      | command t => exact .inr (.inr (.inl ⟨t, rfl⟩))
      | _ => exact .inr (.inr (.inr hc))
    · exact ih (fun c hc => hh c (List.mem_cons_of_mem _ hc)) l hl

theorem harmless_plain {c : Call} (h : Call.Harmless c) : Plain c := by
  cases c with
  | command t => exact h.1
  | comment t => exact fun hm => h.1 (List.mem_cons_of_mem _ hm)
  | _ => trivial

theorem preLayerCommon_noMove (o : Options) (n : Nat) : ∀ c ∈ preLayerCommon o n, NoMove c := by
  intro c hc
  simp only [preLayerCommon, List.mem_append] at hc
  rcases hc with ((hc | hc) | hc) | hc
  · rw [List.mem_singleton.1 hc]; trivial
  · split at hc
    · simp only [List.mem_cons, List.not_mem_nil, or_false] at hc
      rcases hc with rfl | rfl <;> trivial
    · simp at hc
  · split at hc
    · split at hc <;> rw [List.mem_singleton.1 hc] <;> trivial
    · simp at hc
  · split at hc
    · simp only [List.mem_cons, List.not_mem_nil, or_false] at hc
      rcases hc with rfl | rfl | rfl <;> trivial
    · simp at hc

/-- The lines of a layer: first those with the commands, which do not move the head, then lines without commands. -/
theorem inner_section {lib : ClipperLib} {o : Options} {pt : Patterns} {m : Int} {n : Nat} {l : Layer} {ls : List Str}
    (h : Written (innerCalls lib o pt m n l) ls) : ∃ opening drawing, ls = opening ++ drawing ∧ (∀ x ∈ opening, ¬ MovesHead x) ∧
      opening.filterMap command = layerCommands o n ∧ ∀ x ∈ drawing, command x = none := by
  unfold innerCalls at h
  obtain ⟨opening, drawing, rfl, h1, h2⟩ := Written.append h
  refine ⟨opening, drawing, rfl, written_noMove h1 fun c hc => ⟨harmless_inner (lib := lib) (o := o) (pt := pt) (m := m) (n := n) (l := l) c ?_, ?_⟩, ?_, ?_⟩
  · exact List.mem_append_left _ hc
  · rcases List.mem_append.1 hc with hc | hc
    · split at hc
      · rw [List.mem_singleton.1 hc]; trivial
      · simp at hc
    · exact preLayerCommon_noMove o n c hc
  · rw [h1.commands, List.flatMap_append, preLayerCommon_commands]
    have h0 : (if n = 1 then [Call.setExtrusion o.print.layerThickness o.printer.extrusionWidth] else []).flatMap callCommands = [] := by
      split <;> rfl
    rw [h0, List.nil_append]
  · rw [← List.filterMap_eq_nil_iff, h2.commands, List.flatMap_eq_nil_iff]
    exact fun c hc => drawCall_commands (layerDraws_drawCall lib o pt m n l c hc)

section
variable {lib : ClipperLib} {o : Options} {pt : Patterns} {layers : List Layer} {g0 : Builder} {t : Str}
variable {crossing : List LayerPart → Path → Bool × Bool}

/-- **C117** The text of a print is the start text, the lines of each layer, and the end text. When a line of layer `n` moves the head, the
temperatures which were commanded last in the text before it are the normal ones if `n` is at least `InitialTemperatureLayerCount`, and those of the start
text otherwise; the fan speed is the last entry of the fan table for a layer up to `n`. -/
theorem C117_state (hne : layers ≠ []) (h : (generateScripts crossing o (standardRenderers lib o pt) layers g0).2 = (t, none)) :
    ∃ sections : List (List Str), t = startText o ++ unlines sections.flatten ++ endText o ∧ sections.length = layers.length ∧
      ∀ n (hn : n < sections.length) before line after, sections[n] = before ++ line :: after → MovesHead line →
        let past := commands (startText o ++ unlines ((sections.take n).flatten ++ before))
        hotendTarget past = temperatureAt o n (hotendTarget (commands (startText o))) o.filament.hotEndTemperature ∧
        bedTarget past = temperatureAt o n (bedTarget (commands (startText o))) o.filament.bedTemperature ∧
        fanTarget past = fanAt o (fanTarget (commands (startText o))) n := by
  obtain ⟨g, ht, hb⟩ := print_body hne h
  obtain ⟨lss, h1, h2⟩ := exec_lines (fun c hc => harmless_plain (harmless_print c hc)) hb
  have h1' : g.buf = unlines lss.flatten := by rw [h1]; rfl
  have hw : Written (printCalls lib o pt layers) lss.flatten := ⟨lss, rfl, h2⟩
  have hnl := hw.newline
  unfold printCalls at hw
  obtain ⟨a, b, hab, ha, hbody⟩ := Written.append hw
  have ha' : a = [] := by
    obtain ⟨xs, rfl, ha⟩ := ha
    simp only [preLayerSettings] at ha
    rcases ha with _ | ⟨e1, ha⟩
    rcases ha with _ | ⟨e2, ha⟩
    rcases ha with _ | ⟨e3, ha⟩
    rcases ha with _ | ⟨e4, ha⟩
    rcases ha with _ | ⟨e5, ha⟩
    rcases ha with _ | ⟨e6, ha⟩
    rcases ha with _ | ⟨e7, ha⟩
    rcases ha with _ | _
    simp only [LinesOf] at e1 e2 e3 e4 e5 e6 e7
    simp [e1, e2, e3, e4, e5, e6, e7]
  subst ha'
  rw [List.nil_append] at hab
  rw [List.flatMap_def] at hbody
  obtain ⟨Ls, rfl, hL⟩ := Written.flatten hbody
  have hlen : Ls.length = layers.length := by have := hL.length_eq; simpa using this.symm
  have hsec : ∀ n (hn : n < Ls.length), ∃ opening drawing, Ls[n] = opening ++ drawing ∧ (∀ x ∈ opening, ¬ MovesHead x) ∧
      opening.filterMap command = layerCommands o n ∧ ∀ x ∈ drawing, command x = none := by
    intro n hn
    have hn' : n < layers.length := hlen ▸ hn
    have := List.Forall₂.get hL (by simpa using hn') hn
    simp only [List.get_eq_getElem, List.getElem_map, List.getElem_zipIdx, Nat.zero_add] at this
    exact inner_section this
  have hpast : ∀ n (hn : n ≤ Ls.length), ((Ls.take n).flatten).filterMap command = (List.range n).flatMap (layerCommands o) := by
    intro n
    induction n with
    | zero => intro _; simp
    | succ n ih =>
      intro hn
      rw [List.take_succ_eq_append_getElem (by omega), List.flatten_append, List.filterMap_append, ih (by omega), List.range_succ, List.flatMap_append]
      congr 1
      obtain ⟨op, dr, e1, -, e2, e3⟩ := hsec n (by omega)
      simp only [List.flatten_cons, List.flatten_nil, List.append_nil, List.flatMap_cons, List.flatMap_nil]
      rw [e1, List.filterMap_append, e2, List.filterMap_eq_nil_iff.2 e3, List.append_nil]
  refine ⟨Ls, by rw [ht, h1', hab], hlen, fun n hn before line after hs hm => ?_⟩
  have hcmd : commands (startText o ++ unlines ((Ls.take n).flatten ++ before)) =
      commands (startText o) ++ (List.range (n + 1)).flatMap (layerCommands o) := by
    obtain ⟨s, es⟩ := startText_ends o
    rw [es, commands_append_text]
    congr 1
    obtain ⟨op, dr, e1, e0, e2, e3⟩ := hsec n hn
    have hmem : ∀ x ∈ Ls[n], x ∈ Ls.flatten := fun x hx => List.mem_flatten.2 ⟨_, List.getElem_mem hn, hx⟩
    rw [commands_unlines, List.filterMap_append, hpast n (by omega), List.range_succ, List.flatMap_append]
    · congr 1
      simp only [List.flatMap_cons, List.flatMap_nil, List.append_nil]
      rw [hs] at e1
      rcases List.append_eq_append_iff.1 e1 with ⟨y, rfl, hy⟩ | ⟨y, rfl, hy⟩
      · cases y with
        | nil =>
          rw [← e2]
          simp
        | cons y ys =>
          rw [List.cons_append] at hy
          obtain ⟨rfl, -⟩ := List.cons.inj hy
          exact absurd hm (e0 _ (List.mem_append_right _ List.mem_cons_self))
      · rw [List.filterMap_append, e2, List.filterMap_eq_nil_iff.2, List.append_nil]
        intro x hx
        exact e3 x (hy ▸ List.mem_append_left _ hx)
    · intro x hx
      apply hnl
      rw [hab]
      rcases List.mem_append.1 hx with hx | hx
      · obtain ⟨ys, hys, hx⟩ := List.mem_flatten.1 hx
        exact List.mem_flatten.2 ⟨ys, List.mem_of_mem_take hys, hx⟩
      · exact hmem x (by rw [hs]; exact List.mem_append_left _ hx)
  simp only [hcmd]
  exact ⟨upto_hotend _ n, upto_bed _ n, upto_fan _ n⟩

/-- The commands of the start text. -/
theorem commands_startText (hp : ∀ l ∈ o.printer.startGCode, '%' ∉ fillTemplates o l) : commands (startText o) = startCommands o ++ customStart o := by
  have hpl : ∀ c ∈ preLayerStart o, Plain c := by
    intro c hc
    simp only [preLayerStart, List.mem_append, List.mem_cons, List.not_mem_nil, or_false, List.mem_map] at hc
    rcases hc with ((((rfl | rfl) | hc) | rfl) | ⟨i, hi, rfl⟩) | rfl
    · show '%' ∉ _; decide
    · show '%' ∉ _; decide
    · split at hc
      · rcases List.mem_append.1 hc with hc | hc
        · split at hc
          · simp only [List.mem_cons, List.not_mem_nil, or_false] at hc
            rcases hc with rfl | rfl
            · show '%' ∉ _; decide
            · trivial
          · simp at hc
        · split at hc
          · simp only [List.mem_cons, List.not_mem_nil, or_false] at hc
            rcases hc with rfl | rfl
            · show '%' ∉ _; decide
            · trivial
          · simp at hc
      · simp at hc
    · show '%' ∉ _; decide
    · exact hp i hi
    · show '%' ∉ _; decide
  have he := exec_texts (crossing := fun _ _ => (false, true)) (preLayerStart o) (preLayerStart_texts o) (newBuilder 0 0)
  obtain ⟨lss, h1, h2⟩ := exec_lines hpl he
  have h1' : startText o = unlines lss.flatten := by
    rw [preLayerStart_text] at h1
    simpa [newBuilder] using h1
  have hw : Written (preLayerStart o) lss.flatten := ⟨lss, rfl, h2⟩
  rw [h1', commands_unlines hw.newline, hw.commands, preLayerStart_commands]

/-- **C117** If safe start G-code is on and the custom start G-code leaves the hot end alone, then whenever the head is moved in a layer the hot end
was told to have its initial temperature (and it was waited for) or, from layer `InitialTemperatureLayerCount` on, the normal one. -/
theorem C117_heated (hne : layers ≠ []) (h : (generateScripts crossing o (standardRenderers lib o pt) layers g0).2 = (t, none))
    (hf : o.printer.forceSafeStartStopGCode = true) (hp : ∀ l ∈ o.printer.startGCode, '%' ∉ fillTemplates o l)
    (hraw : ∀ l ∈ o.printer.startGCode, ¬ "M104".toList <:+: wordOf l ∧ ¬ "M109".toList <:+: wordOf l)
    (hcom : ∀ l ∈ o.printer.startGCode, hotendTarget (commands (fillTemplates o l)) = none) :
    ∃ sections : List (List Str), t = startText o ++ unlines sections.flatten ++ endText o ∧ sections.length = layers.length ∧
      Command.hotend true o.filament.initialHotEndTemperature ∈ commands (startText o) ∧
      ∀ n (hn : n < sections.length) before line after, sections[n] = before ++ line :: after → MovesHead line →
        hotendTarget (commands (startText o ++ unlines ((sections.take n).flatten ++ before))) =
          temperatureAt o n (some (o.filament.initialHotEndTemperature : ℚ)) o.filament.hotEndTemperature := by
  obtain ⟨sections, h1, h2, h3⟩ := C117_state hne h
  have hh : hasCodes hotendTempCodes o.printer.startGCode = false := by
    rw [← Bool.not_eq_true, hasCodes_iff hotendCodes_space]
    rintro ⟨l, hl, c, hc, hi⟩
    simp only [hotendTempCodes, List.mem_cons, List.not_mem_nil, or_false] at hc
    rcases hc with rfl | rfl
    · exact (hraw l hl).1 hi
    · exact (hraw l hl).2 hi
  have hs : hotendTarget (startCommands o) = some (o.filament.initialHotEndTemperature : ℚ) := by
    unfold startCommands
    rw [if_pos hf, hh, hotendTarget_append]
    rfl
  have hc : hotendTarget (customStart o) = none := by
    unfold customStart
    have key : ∀ ls : List Str, (∀ l ∈ ls, hotendTarget (commands (fillTemplates o l)) = none) →
        hotendTarget (ls.flatMap fun l => commands (fillTemplates o l)) = none := by
      intro ls
      induction ls with
      | nil => intro _; rfl
      | cons l ls ih =>
        intro hl
        rw [List.flatMap_cons, hotendTarget_append, ih fun x hx => hl x (List.mem_cons_of_mem _ hx), hl l List.mem_cons_self]
        rfl
    exact key _ hcom
  refine ⟨sections, h1, h2, ?_, fun n hn before line after e hm => ?_⟩
  · rw [commands_startText hp]
    refine List.mem_append_left _ ?_
    unfold startCommands
    rw [if_pos hf, hh]
    exact List.mem_append_right _ (by simp)
  · rw [(h3 n hn before line after e hm).1, commands_startText hp, hotendTarget_append, hc, hs]
    rfl

end

/-- Non-vacuity: with the default options the start text heats bed and hot end to the initial temperatures and switches the fan off. -/
example : commands (startText {}) = [.bed true 60, .hotend true 205, .fan 0] := by decide +kernel
-- layers 0 to 2 with the initial temperature, then the normal one; the fan is switched on at layer 2
example : [0, 1, 2, 3, 4].map (fun n => temperatureAt {} n (some 205) ({} : Options).filament.hotEndTemperature) =
    [some 205, some 205, some 205, some 200, some 200] := by decide +kernel
example : [0, 1, 2, 3, 4].map (fanAt {} (some 0)) = [some 0, some 0, some 255, some 255, some 255] := by decide +kernel
example : MovesHead "G1 X10.00".toList ∧ ¬ MovesHead "M104 S200".toList := ⟨.inr (by decide +kernel), by rintro (h | h) <;> revert h <;> decide +kernel⟩

/-- A print without start G-code: in its layers there are lines which move the head, and the theorem applies to them. -/
example : ∃ sections : List (List Str), (smallPrint commentEnd).1 = startText commentEnd ++ unlines sections.flatten ++ endText commentEnd ∧ sections.length = 5 ∧
    ∀ n (hn : n < sections.length) before line after, sections[n] = before ++ line :: after → MovesHead line →
      hotendTarget (commands (startText commentEnd ++ unlines ((sections.take n).flatten ++ before))) = if 3 ≤ n then some 200 else some 205 := by
  obtain ⟨sections, h1, h2, -, h3⟩ := C117_heated (o := commentEnd) (by simp) (smallPrint_eq commentEnd) rfl (by simp [commentEnd])
    (by simp [commentEnd]) (by simp [commentEnd])
  refine ⟨sections, h1, h2, fun n hn before line after e hm => ?_⟩
  rw [h3 n hn before line after e hm]
  have hc : commentEnd.filament.initialTemperatureLayerCount = 3 ∧ commentEnd.filament.hotEndTemperature = 200 ∧
    commentEnd.filament.initialHotEndTemperature = 205 := by decide
  unfold temperatureAt
  rw [hc.2.1, hc.2.2]
  by_cases h : 3 ≤ n
  · rw [if_pos h, if_pos (by omega)]; norm_num
  · rw [if_neg h, if_neg (by omega)]; norm_num

example : ((split '\n' (smallPrint commentEnd).1).filter fun l => (split ' ' l).head? = some ['G', '1']).length = 12 := by decide +kernel

end Verif
