import Verif.Props.Commands
import Verif.Props.Options
import Verif.Props.Polyline

/-! # C31 - C34: the layer sections of the text and the commands in them -/
namespace Verif
open Verif.Go Verif.Model Verif.Spec Verif.Spec.GCode

/-! ## The text as header and layer sections -/

/-- The calls of layer 0 before its `;LAYER:0` line. -/
def headerCalls (o : Options) : List Call := preLayerStart o ++ preLayerSettings o

/-- The calls of layer `n` without the header. -/
def bodyCalls (lib : ClipperLib) (o : Options) (pt : Patterns) (m : Int) (n : Nat) (l : Layer) : List Call :=
  (if n = 1 then [.setExtrusion o.print.layerThickness o.printer.extrusionWidth] else []) ++ preLayerCommon o n ++
    layerDraws lib o pt m n l ++ (postLayer o n m l (layerHeight o n)).calls

theorem layerCalls_body (lib : ClipperLib) (o : Options) (pt : Patterns) (m : Int) (n : Nat) (l : Layer) :
    layerCalls lib o pt m n l = (if n = 0 then headerCalls o else []) ++ bodyCalls lib o pt m n l := by
  rw [layerCalls_eq, bodyCalls]
  simp only [preLayer]
  by_cases h : n = 0
  · subst h; simp [headerCalls]
  · simp [h]

theorem flatMap_zipIdx_ge {lib : ClipperLib} {o : Options} {pt : Patterns} {m : Int} (ls : List Layer) : ∀ (k : Nat), 0 < k →
    ((ls.zipIdx k).flatMap fun x => layerCalls lib o pt m x.2 x.1) = (ls.zipIdx k).flatMap fun x => bodyCalls lib o pt m x.2 x.1 := by
  induction ls with
  | nil => intro k _; rfl
  | cons l ls ih =>
    intro k hk
    rw [List.zipIdx_cons, List.flatMap_cons, List.flatMap_cons, ih (k + 1) (by omega), layerCalls_body, if_neg (by omega), List.nil_append]

/-- All calls of a print: the header, then the layers. -/
theorem allCalls_eq (lib : ClipperLib) (o : Options) (pt : Patterns) {layers : List Layer} (hne : layers ≠ []) :
    (allScripts o (standardRenderers lib o pt) layers).flatMap Script.calls =
      headerCalls o ++ (layers.zipIdx.map fun x => bodyCalls lib o pt (layers.length - 1) x.2 x.1).flatten := by
  rw [allScripts_calls]
  cases layers with
  | nil => exact absurd rfl hne
  | cons l ls =>
    generalize (((l :: ls).length : Nat) : Int) - 1 = m
    rw [List.zipIdx_cons, List.flatMap_cons, flatMap_zipIdx_ge ls _ (by omega), layerCalls_body, if_pos rfl]
    rw [List.map_cons, List.flatten_cons, List.append_assoc, List.flatMap_def]

/-- The lines written for calls. -/
def Written (cs : List Call) (ls : List Str) : Prop := ∃ lss, ls = lss.flatten ∧ List.Forall₂ LinesOf cs lss

theorem Written.commands {cs : List Call} {ls : List Str} (h : Written cs ls) : ls.filterMap command = cs.flatMap callCommands := by
  obtain ⟨lss, rfl, h⟩ := h
  induction h with
  | nil => rfl
  | cons hc _ ih => rw [List.flatten_cons, List.filterMap_append, List.flatMap_cons, commands_linesOf hc, ih]

theorem Written.newline {cs : List Call} {ls : List Str} (h : Written cs ls) : ∀ l ∈ ls, '\n' ∉ l := by
  obtain ⟨lss, rfl, h⟩ := h
  induction h with
  | nil => simp
  | cons hc _ ih =>
    intro l hl
    rw [List.flatten_cons, List.mem_append] at hl
    exact hl.elim (linesOf_newline hc l) (ih l)

theorem Written.cons {c : Call} {cs : List Call} {ls : List Str} (h : Written (c :: cs) ls) :
    ∃ a b, ls = a ++ b ∧ LinesOf c a ∧ Written cs b := by
  obtain ⟨lss, rfl, h⟩ := h
  cases h with
  | cons h1 h2 => exact ⟨_, _, List.flatten_cons, h1, _, rfl, h2⟩

theorem Written.append {as bs : List Call} : ∀ {ls : List Str}, Written (as ++ bs) ls → ∃ a b, ls = a ++ b ∧ Written as a ∧ Written bs b := by
  induction as with
  | nil => intro ls h; exact ⟨[], ls, rfl, ⟨[], rfl, .nil⟩, h⟩
  | cons c as ih =>
    intro ls h
    obtain ⟨x, y, rfl, hx, hy⟩ := Written.cons h
    obtain ⟨a, b, rfl, ha, hb⟩ := ih hy
    obtain ⟨lss, rfl, ha⟩ := ha
    exact ⟨x ++ lss.flatten, b, by simp, ⟨x :: lss, by simp, .cons hx ha⟩, hb⟩

theorem Written.flatten {css : List (List Call)} : ∀ {ls : List Str}, Written css.flatten ls →
    ∃ Ls : List (List Str), ls = Ls.flatten ∧ List.Forall₂ Written css Ls := by
  induction css with
  | nil =>
    intro ls h
    obtain ⟨lss, rfl, h⟩ := h
    cases h
    exact ⟨[], rfl, .nil⟩
  | cons cs css ih =>
    intro ls h
    obtain ⟨a, b, rfl, ha, hb⟩ := Written.append h
    obtain ⟨Ls, rfl, hL⟩ := ih hb
    exact ⟨a :: Ls, rfl, .cons ha hL⟩

theorem bodyCalls_section {lib : ClipperLib} {o : Options} {pt : Patterns} {m : Int} {n : Nat} {l : Layer} {ls : List Str}
    (h : Written (bodyCalls lib o pt m n l) ls) :
    ∃ rest, ls = (";LAYER:".toList ++ formatInt n) :: rest ∧
      rest.filterMap command = layerCommands o n ++ (if (n : Int) = m then endCommands o ++ customEnd o else []) := by
  have hcmd : (bodyCalls lib o pt m n l).flatMap callCommands =
      layerCommands o n ++ (if (n : Int) = m then endCommands o ++ customEnd o else []) := by
    have h0 : (if n = 1 then [Call.setExtrusion o.print.layerThickness o.printer.extrusionWidth] else []).flatMap callCommands = [] := by
      split <;> rfl
    have h1 : (layerDraws lib o pt m n l).flatMap callCommands = [] := by
      rw [List.flatMap_eq_nil_iff]
      exact fun c hc => drawCall_commands (layerDraws_drawCall lib o pt m n l c hc)
    rw [bodyCalls, List.flatMap_append, List.flatMap_append, List.flatMap_append, preLayerCommon_commands, postLayer_commands, h0, h1,
      List.nil_append, List.append_nil]
  rw [← hcmd]
  have hc := h.commands
  have key : ∀ cs ls, Written (.text (";LAYER:".toList ++ formatInt n) :: cs) ls → ∃ rest, ls = (";LAYER:".toList ++ formatInt n) :: rest := by
    intro cs ls h
    obtain ⟨a, b, rfl, ha, -⟩ := Written.cons h
    simp only [LinesOf] at ha
    rw [split_eq_singleton (by
      have := not_mem_formatInt n (d := '\n') (by decide) (by decide)
      simp [this])] at ha
    exact ⟨b, by rw [ha]; rfl⟩
  have : ∃ rest, ls = (";LAYER:".toList ++ formatInt n) :: rest := by
    unfold bodyCalls preLayerCommon at h
    by_cases h1 : n = 1
    · rw [if_pos h1] at h
      obtain ⟨a, b, rfl, ha, hb⟩ := Written.cons h
      cases ha
      exact key _ _ hb
    · rw [if_neg h1] at h
      exact key _ _ h
  obtain ⟨rest, rfl⟩ := this
  refine ⟨rest, rfl, ?_⟩
  rw [← hc]
  have hl := command_LAYER n
  have hline : command (";LAYER:".toList ++ formatInt n) = none := command_comment _
  rw [List.filterMap_cons, hline]

section Text
variable {lib : ClipperLib} {o : Options} {pt : Patterns} {layers : List Layer} {g0 : Builder} {t : Str}
variable {crossing : List LayerPart → Path → Bool × Bool}

/-- **C31/C33** The lines of a generated text are a header followed by one section for each layer. Each section begins with the line
`;LAYER:n` and its heater and fan commands are the ones of that layer, in the last layer followed by those of the end of the print. -/
theorem C31_sections (hp : PlainCode o) (hne : layers ≠ [])
    (h : (generateScripts crossing o (standardRenderers lib o pt) layers g0).2 = (t, none)) :
    ∃ (header : List Str) (sections : List (List Str)), split '\n' t = header ++ sections.flatten ++ [[]] ∧
      header.filterMap command = startCommands o ++ customStart o ∧ sections.length = layers.length ∧
      ∀ n (hn : n < sections.length), ∃ rest, sections[n] = (";LAYER:".toList ++ formatInt n) :: rest ∧
        rest.filterMap command = layerCommands o n ++ (if n + 1 = layers.length then endCommands o ++ customEnd o else []) := by
  obtain ⟨-, g, hg, rfl⟩ := C30_scripts.1 h
  have hpl : ∀ c ∈ (allScripts o (standardRenderers lib o pt) layers).flatMap Script.calls, Plain c := by
    rw [allScripts_calls]
    intro c hc
    obtain ⟨x, -, hc⟩ := List.mem_flatMap.1 hc
    exact plain_layerCalls hp _ _ _ c hc
  obtain ⟨lss, h1, h2⟩ := exec_lines hpl hg
  have h1' : g.buf = unlines lss.flatten := by rw [h1]; rfl
  have hw : Written _ lss.flatten := ⟨lss, rfl, h2⟩
  rw [allCalls_eq lib o pt hne] at hw
  have hnl := hw.newline
  obtain ⟨header, b, hb, hh, hbody⟩ := Written.append hw
  obtain ⟨Ls, rfl, hL⟩ := Written.flatten hbody
  have hlen : Ls.length = layers.length := by have := hL.length_eq; simpa using this.symm
  refine ⟨header, Ls, ?_, ?_, hlen, ?_⟩
  · rw [h1', split_unlines hnl, hb]
  · rw [hh.commands, headerCalls, List.flatMap_append, preLayerStart_commands]
    exact List.append_nil _
  · intro n hn
    have hn' : n < layers.length := hlen ▸ hn
    have := List.Forall₂.get hL (by simpa using hn') hn
    simp only [List.get_eq_getElem, List.getElem_map, List.getElem_zipIdx, Nat.zero_add] at this
    obtain ⟨rest, hr1, hr2⟩ := bodyCalls_section this
    refine ⟨rest, hr1, hr2.trans ?_⟩
    congr 1
    apply if_congr _ rfl rfl
    constructor <;> intro h <;> omega

/-! ## C31, C33, C34 -/

/-- **C31** Exactly one layer commands the normal temperatures: the one with number `InitialTemperatureLayerCount`. The commands of a layer
section are its fan command, if the table has an entry, and these two. -/
theorem C31_temperatures (hp : PlainCode o) (hne : layers ≠ [])
    (h : (generateScripts crossing o (standardRenderers lib o pt) layers g0).2 = (t, none)) :
    ∃ (header : List Str) (sections : List (List Str)), split '\n' t = header ++ sections.flatten ++ [[]] ∧ sections.length = layers.length ∧
      ∀ n (hn : n < sections.length), (sections[n]).head? = some (";LAYER:".toList ++ formatInt n) ∧ (n + 1 < layers.length →
        ((sections[n]).filterMap command).filter (fun c => c.fan?.isNone) =
          if (n : Int) = o.filament.initialTemperatureLayerCount then
            [.bed false o.filament.bedTemperature, .hotend false o.filament.hotEndTemperature] else []) := by
  obtain ⟨header, Ls, h1, -, h3, h4⟩ := C31_sections hp hne h
  refine ⟨header, Ls, h1, h3, fun n hn => ?_⟩
  obtain ⟨rest, hr, hc⟩ := h4 n hn
  refine ⟨by rw [hr]; rfl, fun hlast => ?_⟩
  have hline : command (";LAYER:".toList ++ formatInt n) = none := command_comment _
  rw [hr, List.filterMap_cons, hline]
  simp only
  rw [hc, if_neg (by omega), List.append_nil, layerCommands, List.filter_append]
  have : (fanCommand (o.filament.fanSpeed n)).filter (fun c => c.fan?.isNone) = [] := by
    cases o.filament.fanSpeed n <;> rfl
  rw [this, List.nil_append]
  split <;> rfl

/-- **C33** In each layer section but the last the fan commands are exactly the entry of the fan table, in the last one they are followed
only by those of the end G-code. -/
theorem C33_fan (hp : PlainCode o) (hne : layers ≠ [])
    (h : (generateScripts crossing o (standardRenderers lib o pt) layers g0).2 = (t, none)) :
    ∃ (header : List Str) (sections : List (List Str)), split '\n' t = header ++ sections.flatten ++ [[]] ∧ sections.length = layers.length ∧
      ∀ n (hn : n < sections.length), (sections[n]).head? = some (";LAYER:".toList ++ formatInt n) ∧
        ((sections[n]).filterMap command).filterMap Command.fan? =
          ((o.filament.fanSpeed n).map fun v => (v : ℚ)).toList ++
          if n + 1 = layers.length then (o.printer.endGCode.flatMap commands).filterMap Command.fan?
          else [] := by
  obtain ⟨header, Ls, h1, -, h3, h4⟩ := C31_sections hp hne h
  refine ⟨header, Ls, h1, h3, fun n hn => ?_⟩
  obtain ⟨rest, hr, hc⟩ := h4 n hn
  refine ⟨by rw [hr]; rfl, ?_⟩
  have hline : command (";LAYER:".toList ++ formatInt n) = none := command_comment _
  rw [hr, List.filterMap_cons, hline]
  simp only
  have hend : (endCommands o).filterMap Command.fan? = [] := by
    unfold endCommands
    split
    · split <;> split <;> rfl
    · rfl
  have hfan : (fanCommand (o.filament.fanSpeed n)).filterMap Command.fan? = ((o.filament.fanSpeed n).map fun v => (v : ℚ)).toList := by
    cases o.filament.fanSpeed n <;> rfl
  have htemp : (if (n : Int) = o.filament.initialTemperatureLayerCount then
      [Command.bed false o.filament.bedTemperature, .hotend false o.filament.hotEndTemperature] else []).filterMap
      Command.fan? = [] := by
    split <;> rfl
  rw [hc, List.filterMap_append, layerCommands, List.filterMap_append, hfan, htemp, List.append_nil]
  congr 1
  split
  · rw [List.filterMap_append, hend]; rfl
  · rfl

/-- Is it a command for the bed? -/
def isBed : Command → Bool
  | .bed .. => true
  | _ => false

/-- **C34** Without heated bed the bed commands of the text are those of the custom G-code and one that sets the normal temperature, if the
print has the layer `InitialTemperatureLayerCount` - which contradicts the requirement of having none. -/
theorem C34_no_heated_bed (hp : PlainCode o) (hne : layers ≠ []) (hb : o.printer.hasHeatedBed = false)
    (h : (generateScripts crossing o (standardRenderers lib o pt) layers g0).2 = (t, none)) :
    (commands t).filter isBed = (o.printer.startGCode.flatMap fun l => commands (fillTemplates o l)).filter isBed ++
      (if 0 ≤ o.filament.initialTemperatureLayerCount ∧ o.filament.initialTemperatureLayerCount < layers.length then
        [.bed false o.filament.bedTemperature] else []) ++ (o.printer.endGCode.flatMap commands).filter isBed := by
  rw [commands_generated hp hne h]
  have h1 : (startCommands o).filter isBed = [] := by
    unfold startCommands
    rw [hb]
    split
    · split <;> split <;> simp_all [isBed]
    · rfl
  have h2 : (endCommands o).filter isBed = [] := by
    unfold endCommands
    rw [hb]
    split
    · split <;> split <;> simp_all [isBed]
    · rfl
  have h3 : ∀ k : Nat, ((List.range k).flatMap (layerCommands o)).filter isBed =
      if 0 ≤ o.filament.initialTemperatureLayerCount ∧ o.filament.initialTemperatureLayerCount < k then
        [.bed false o.filament.bedTemperature] else [] := by
    intro k
    induction k with
    | zero => rw [if_neg (by omega)]; rfl
    | succ k ih =>
      rw [List.range_succ, List.flatMap_append, List.filter_append, ih, List.flatMap_cons, List.flatMap_nil, List.append_nil]
      have hl : (layerCommands o k).filter isBed =
          if (k : Int) = o.filament.initialTemperatureLayerCount then [.bed false o.filament.bedTemperature] else [] := by
        unfold layerCommands
        rw [List.filter_append]
        have : (fanCommand (o.filament.fanSpeed k)).filter isBed = [] := by cases o.filament.fanSpeed k <;> rfl
        rw [this, List.nil_append]
        split <;> rfl
      rw [hl]
      by_cases hk : (k : Int) = o.filament.initialTemperatureLayerCount
      · rw [if_neg (by omega), if_pos hk, if_pos (by omega)]; rfl
      · rw [if_neg hk, List.append_nil]
        apply if_congr _ rfl rfl
        omega
  rw [List.filter_append, List.filter_append, List.filter_append, List.filter_append, h1, h2, h3]
  rfl

/-! ## C32 -/

theorem hasCodes_iff {codes lines : List Str} (hcodes : ∀ c ∈ codes, ∀ x ∈ c, isSpace x = false) :
    hasCodes codes lines = true ↔ ∃ l ∈ lines, ∃ c ∈ codes, c <:+: wordOf l := by
  obtain ⟨b, hb, hb'⟩ := C75_contains_iff codes lines hcodes
  unfold hasCodes
  rw [hb]
  exact hb'

/-- `DoesInstructionContainCodes` never fails. -/
theorem hasCodes_ok (codes lines : List Str) (hcodes : ∀ c ∈ codes, ∀ x ∈ c, isSpace x = false) :
    doesInstructionContainCodes codes lines = .ok (hasCodes codes lines) := by
  obtain ⟨b, hb, -⟩ := C75_contains_iff codes lines hcodes
  simp [hasCodes, hb]

theorem mem_takeWhile {α : Type} {p : α → Bool} {l : List α} {x : α} (h : x ∈ l.takeWhile p) : p x = true := by
  induction l with
  | nil => simp at h
  | cons a l ih =>
    rw [List.takeWhile_cons] at h
    split at h
    · rcases List.mem_cons.1 h with rfl | h
      · assumption
      · exact ih h
    · simp at h

theorem split_space_head {s code : Str} {args : List Str} (h : (split ' ' s).filter (fun w => w ≠ []) = code :: args) :
    ∃ k rest, s = List.replicate k ' ' ++ code ++ rest ∧ ' ' ∉ code := by
  induction s with
  | nil => simp [split] at h
  | cons c s ih =>
    by_cases hc : c = ' '
    · subst hc
      have e : split ' ' (' ' :: s) = [] :: split ' ' s := by
        have := split_append (sep := ' ') (a := []) (b := s) (by simp)
        simpa using this
      rw [e] at h
      simp only [ne_eq, List.filter_cons, not_true_eq_false, decide_false, Bool.false_eq_true, if_false] at h
      obtain ⟨k, rest, hs, hn⟩ := ih h
      exact ⟨k + 1, rest, by rw [hs, List.replicate_succ]; rfl, hn⟩
    · obtain ⟨ws, hw⟩ := split_head ' ' (c :: s)
      rw [hw] at h
      have e : (c :: s).takeWhile (fun x => decide (x ≠ ' ')) = c :: s.takeWhile (fun x => decide (x ≠ ' ')) := by
        rw [List.takeWhile_cons, if_pos (by simp [hc])]
      rw [List.filter_cons, if_pos (by rw [e]; simp)] at h
      obtain ⟨hcode, -⟩ := List.cons.inj h
      refine ⟨0, (c :: s).dropWhile (fun x => decide (x ≠ ' ')), ?_, ?_⟩
      · rw [← hcode]; simp [List.takeWhile_append_dropWhile]
      · rw [← hcode]
        intro hm
        have := mem_takeWhile hm
        simp at this

theorem word_infix {l code : Str} {args : List Str} (h : words l = code :: args) (hs : ∀ x ∈ code, isSpace x = false) :
    code <:+: wordOf l := by
  obtain ⟨k, rest, he, hn⟩ := split_space_head h
  have hne : code ≠ [] := by
    have : code ∈ words l := by rw [h]; simp
    simpa using (List.mem_filter.1 this).2
  obtain ⟨rest', hl⟩ : ∃ rest', l = List.replicate k ' ' ++ code ++ rest' := by
    refine ⟨rest ++ l.dropWhile (fun c => decide (c ≠ ';')), ?_⟩
    rw [← List.append_assoc, ← he, List.takeWhile_append_dropWhile]
  have hd : ∀ k : Nat, (List.replicate k ' ' ++ (code ++ rest')).dropWhile isSpace = code ++ rest' := by
    intro k
    induction k with
    | zero =>
      cases code with
      | nil => exact absurd rfl hne
      | cons c cs => simp [hs c (by simp)]
    | succ k ih =>
      rw [List.replicate_succ, List.cons_append, List.dropWhile_cons]
      have : isSpace ' ' = true := by decide
      rw [this, if_pos rfl, ih]
  unfold wordOf
  rw [hl, List.append_assoc, hd k]
  have : ∀ a : Str, (∀ x ∈ a, x ≠ ' ') → (a ++ rest').takeWhile (fun x => decide (x ≠ ' ')) = a ++ rest'.takeWhile (fun x => decide (x ≠ ' ')) := by
    intro a
    induction a with
    | nil => intro _; rfl
    | cons x a ih =>
      intro hx
      rw [List.cons_append, List.takeWhile_cons, if_pos (by simpa using hx x (by simp)), ih fun y hy => hx y (List.mem_cons_of_mem _ hy)]
      rfl
  rw [this code (by rintro x hx rfl; exact hn hx)]
  exact ⟨[], _, rfl⟩

theorem command_hotend {l : Str} {w : Bool} {v : ℚ} (h : command l = some (.hotend w v)) :
    "M104".toList <:+: wordOf l ∨ "M109".toList <:+: wordOf l := by
  unfold command at h
  rcases hw : words l with _ | ⟨code, args⟩
  · rw [hw] at h; cases h
  · rw [hw] at h
    simp only at h
    by_cases h1 : code = ['M', '1', '0', '4']
    · left; subst h1; exact word_infix hw (by decide)
    · by_cases h2 : code = ['M', '1', '0', '9']
      · right; subst h2; exact word_infix hw (by decide)
      · rw [if_neg h1, if_neg h2] at h
        split_ifs at h <;> cases h

theorem command_bed {l : Str} {w : Bool} {v : ℚ} (h : command l = some (.bed w v)) :
    "M140".toList <:+: wordOf l ∨ "M190".toList <:+: wordOf l := by
  unfold command at h
  rcases hw : words l with _ | ⟨code, args⟩
  · rw [hw] at h; cases h
  · rw [hw] at h
    simp only at h
    by_cases h1 : code = ['M', '1', '4', '0']
    · left; subst h1; exact word_infix hw (by decide)
    · by_cases h2 : code = ['M', '1', '9', '0']
      · right; subst h2; exact word_infix hw (by decide)
      · rw [if_neg h1, if_neg h2] at h
        split_ifs at h <;> cases h

theorem hotendTarget_last {a b c : List Command} {x : ℚ} {w : Bool} (hb : ∀ y ∈ b, ∀ w v, y ≠ .hotend w v) (hc : c = a ++ .hotend w x :: b) :
    hotendTarget c = some x := by
  subst hc
  unfold hotendTarget
  have : b.filterMap Command.hotend? = [] := by
    rw [List.filterMap_eq_nil_iff]
    intro y hy
    cases y with
    | hotend w v => exact absurd rfl (hb _ hy w v)
    | _ => rfl
  simp [List.filterMap_append, this, Command.hotend?]

theorem bedTarget_last {a b c : List Command} {x : ℚ} {w : Bool} (hb : ∀ y ∈ b, ∀ w v, y ≠ .bed w v) (hc : c = a ++ .bed w x :: b) :
    bedTarget c = some x := by
  subst hc
  unfold bedTarget
  have : b.filterMap Command.bed? = [] := by
    rw [List.filterMap_eq_nil_iff]
    intro y hy
    cases y with
    | bed w v => exact absurd rfl (hb _ hy w v)
    | _ => rfl
  simp [List.filterMap_append, this, Command.bed?]

theorem hotendCodes_space : ∀ c ∈ hotendTempCodes, ∀ x ∈ c, isSpace x = false := by decide
theorem bedCodes_space : ∀ c ∈ bedTempCodes, ∀ x ∈ c, isSpace x = false := by decide

/-- **C32** With safe start and stop G-code, the hot end is switched off at the end of the text, unless the first word of an end G-code line
contains one of the codes of the hot end. -/
theorem C32_hotend_off (hp : PlainCode o) (hne : layers ≠ []) (hf : o.printer.forceSafeStartStopGCode = true)
    (hnl : ∀ l ∈ o.printer.endGCode, '\n' ∉ l)
    (hcodes : ∀ l ∈ o.printer.endGCode, ¬ "M104".toList <:+: wordOf l ∧ ¬ "M109".toList <:+: wordOf l)
    (h : (generateScripts crossing o (standardRenderers lib o pt) layers g0).2 = (t, none)) : hotendTarget (commands t) = some 0 := by
  rw [commands_generated hp hne h]
  have hh : hasCodes hotendTempCodes o.printer.endGCode = false := by
    rw [← Bool.not_eq_true, hasCodes_iff hotendCodes_space]
    rintro ⟨l, hl, c, hc, hi⟩
    simp only [hotendTempCodes, List.mem_cons, List.not_mem_nil, or_false] at hc
    rcases hc with rfl | rfl
    · exact (hcodes l hl).1 hi
    · exact (hcodes l hl).2 hi
  unfold endCommands
  rw [if_pos hf, hh]
  refine hotendTarget_last (w := false) (a := startCommands o ++ customStart o ++ (List.range layers.length).flatMap (layerCommands o))
    (b := (if o.printer.hasHeatedBed && !hasCodes bedTempCodes o.printer.endGCode then [.bed false 0] else []) ++ customEnd o) ?_ (by simp)
  intro y hy w v
  rintro rfl
  rw [List.mem_append] at hy
  rcases hy with hy | hy
  · split at hy <;> simp at hy
  · obtain ⟨l, hl, hy⟩ := List.mem_flatMap.1 hy
    rw [commands_line (hnl l hl)] at hy
    have := command_hotend (Option.mem_toList.1 hy)
    exact this.elim (hcodes l hl).1 (hcodes l hl).2

/-- **C32** The same for a heated bed. -/
theorem C32_bed_off (hp : PlainCode o) (hne : layers ≠ []) (hf : o.printer.forceSafeStartStopGCode = true)
    (hbed : o.printer.hasHeatedBed = true) (hnl : ∀ l ∈ o.printer.endGCode, '\n' ∉ l)
    (hcodes : ∀ l ∈ o.printer.endGCode, ¬ "M140".toList <:+: wordOf l ∧ ¬ "M190".toList <:+: wordOf l)
    (h : (generateScripts crossing o (standardRenderers lib o pt) layers g0).2 = (t, none)) : bedTarget (commands t) = some 0 := by
  rw [commands_generated hp hne h]
  have hh : hasCodes bedTempCodes o.printer.endGCode = false := by
    rw [← Bool.not_eq_true, hasCodes_iff bedCodes_space]
    rintro ⟨l, hl, c, hc, hi⟩
    simp only [bedTempCodes, List.mem_cons, List.not_mem_nil, or_false] at hc
    rcases hc with rfl | rfl
    · exact (hcodes l hl).1 hi
    · exact (hcodes l hl).2 hi
  unfold endCommands
  rw [if_pos hf, hh, hbed]
  refine bedTarget_last (w := false) (a := startCommands o ++ customStart o ++ (List.range layers.length).flatMap (layerCommands o) ++
      (if !hasCodes hotendTempCodes o.printer.endGCode then [.hotend false 0] else []))
    (b := customEnd o) ?_ (by simp)
  intro y hy w v
  rintro rfl
  obtain ⟨l, hl, hy⟩ := List.mem_flatMap.1 hy
  rw [commands_line (hnl l hl)] at hy
  have := command_bed (Option.mem_toList.1 hy)
  exact this.elim (hcodes l hl).1 (hcodes l hl).2

/-- **C32** (violation) A comment `;M104 S0` as end G-code: although safe G-code is on, the hot end is left at its printing temperature. -/
theorem C32_comment_leaves_hot (hs : o.printer.startGCode = []) (he : o.printer.endGCode = [";M104 S0".toList])
    (hc : 0 ≤ o.filament.initialTemperatureLayerCount ∧ o.filament.initialTemperatureLayerCount < layers.length)
    (h : (generateScripts crossing o (standardRenderers lib o pt) layers g0).2 = (t, none)) :
    hotendTarget (commands t) = some (o.filament.hotEndTemperature : ℚ) := by
  have hp : PlainCode o := ⟨by rw [hs]; simp, by rw [he]; decide⟩
  have hne : layers ≠ [] := by rintro rfl; simp at hc; omega
  rw [commands_generated hp hne h]
  obtain ⟨k, hk⟩ : ∃ k : Nat, (k : Int) = o.filament.initialTemperatureLayerCount := ⟨_, Int.toNat_of_nonneg hc.1⟩
  obtain ⟨r, hr⟩ : ∃ r, layers.length = k + 1 + r := ⟨layers.length - (k + 1), by omega⟩
  have hend : ∀ y ∈ endCommands o ++ customEnd o, ∀ w v, y ≠ .hotend w v := by
    have h1 : customEnd o = [] := by unfold customEnd; rw [he]; decide
    have h2 : hasCodes hotendTempCodes o.printer.endGCode = true := by rw [he]; decide
    intro y hy w v
    rintro rfl
    rw [h1, List.append_nil, endCommands, h2] at hy
    split_ifs at hy <;> simp_all
  have hlate : ∀ r : Nat, ∀ y ∈ (List.range' (k + 1) r).flatMap (layerCommands o), ∀ w v, y ≠ .hotend w v := by
    intro r y hy w v
    rintro rfl
    obtain ⟨n, hn, hy⟩ := List.mem_flatMap.1 hy
    rw [List.mem_range'_1] at hn
    rw [layerCommands, if_neg (by omega), List.append_nil] at hy
    cases hfan : o.filament.fanSpeed n <;> rw [hfan] at hy <;> simp [fanCommand] at hy
  have hsplit : List.range layers.length = List.range k ++ [k] ++ List.range' (k + 1) r := by
    rw [hr, List.range_eq_range', List.range_eq_range', show [k] = List.range' k 1 from rfl]
    rw [← List.range'_append_1, ← List.range'_append_1]
    simp
  refine hotendTarget_last (w := false)
    (a := startCommands o ++ customStart o ++ (List.range k).flatMap (layerCommands o) ++
      fanCommand (o.filament.fanSpeed k) ++ [.bed false o.filament.bedTemperature])
    (b := (List.range' (k + 1) r).flatMap (layerCommands o) ++ (endCommands o ++ customEnd o)) ?_ ?_
  · intro y hy
    rw [List.mem_append] at hy
    exact hy.elim (hlate r y) (hend y)
  · rw [hsplit, List.flatMap_append, List.flatMap_append]
    have : layerCommands o k = fanCommand (o.filament.fanSpeed k) ++
        [.bed false o.filament.bedTemperature, .hotend false o.filament.hotEndTemperature] := by
      rw [layerCommands, if_pos hk]
    rw [List.flatMap_cons, List.flatMap_nil, this]
    simp

end Text

/-! ## C79: success of the generation -/

section Success
variable {crossing : List LayerPart → Path → Bool × Bool}

theorem addPolygon_result (g : Builder) (layer : Option (List LayerPart)) (path : Path) (z : Micrometer) (isOpen : Bool) :
    (∃ g', g.addPolygon crossing layer path z isOpen = .ok g') ∨
    (∃ m, g.addPolygon crossing layer path z isOpen = .error (.err m)) ∧ ∃ parts p, (crossing parts p).2 = false := by
  unfold Builder.addPolygon
  split
  · exact .inl ⟨_, rfl⟩
  · rename_i hne
    split
    · rename_i hdp
      have := (C05_int64_ends path (-1)).1
      rw [hdp] at this
      cases path with
      | nil => exact absurd rfl hne
      | cons a path => simp at this
    · rename_i p0 rest _
      have hct : (∃ c, g.crossingTest crossing layer p0 = .ok c) ∨
          (∃ m, g.crossingTest crossing layer p0 = .error (.err m)) ∧ ∃ parts p, (crossing parts p).2 = false := by
        unfold Builder.crossingTest
        split
        · exact .inl ⟨_, rfl⟩
        · split
          · simp only
            split
            · rename_i h
              exact .inr ⟨⟨_, rfl⟩, _, _, by simpa using h⟩
            · exact .inl ⟨_, rfl⟩
          · exact .inl ⟨_, rfl⟩
      rcases hct with ⟨c, hc⟩ | ⟨⟨m, hm⟩, h⟩
      · left
        rw [hc]
        simp only [bind, Except.bind]
        split <;> exact ⟨_, rfl⟩
      · right
        rw [hm]
        exact ⟨⟨m, rfl⟩, h⟩

theorem exec_result (cs : List Call) : ∀ g : Builder, (∃ g', g.exec crossing cs = .ok g') ∨
    (∃ m, g.exec crossing cs = .error (.err m)) ∧ ∃ parts p, (crossing parts p).2 = false := by
  induction cs with
  | nil => intro g; exact .inl ⟨_, rfl⟩
  | cons c cs ih =>
    intro g
    have h1 : (∃ g', g.exec1 crossing c = .ok g') ∨ (∃ m, g.exec1 crossing c = .error (.err m)) ∧ ∃ parts p, (crossing parts p).2 = false := by
      cases c with
      | polygon l p z o => exact addPolygon_result g l p z o
      | _ => exact .inl ⟨_, rfl⟩
    rcases h1 with ⟨g1, h1⟩ | ⟨⟨m, hm⟩, h⟩
    · simp only [Builder.exec, h1, bind, Except.bind]
      exact ih g1
    · right
      refine ⟨⟨m, ?_⟩, h⟩
      simp only [Builder.exec, hm, bind, Except.bind]

/-! ## C95 -/

theorem default_layers {o : Options} (hf : o.filament = {}) (k : Nat) : (List.range k).flatMap (layerCommands o) =
    (if 2 < k then [.fan 255] else []) ++ (if 3 < k then [.bed false 55, .hotend false 200] else []) := by
  have h : ∀ n : Nat, layerCommands o n = if n = 2 then [.fan 255] else if n = 3 then [.bed false 55, .hotend false 200] else [] := by
    intro n
    unfold layerCommands
    rw [hf]
    by_cases h2 : n = 2
    · subst h2; rfl
    · by_cases h3 : n = 3
      · subst h3; rfl
      · have e2 : ¬ (n : Int) = 2 := by omega
        have e3 : ¬ (n : Int) = 3 := by omega
        simp [h2, h3, e2, e3, fanCommand]
  induction k with
  | zero => rfl
  | succ k ih =>
    rw [List.range_succ, List.flatMap_append, ih, List.flatMap_cons, List.flatMap_nil, List.append_nil, h k]
    rcases Nat.lt_or_ge k 4 with hk | hk
    · interval_cases k <;> rfl
    · rw [if_pos (by omega), if_pos (by omega), if_neg (by omega), if_neg (by omega), if_pos (by omega), if_pos (by omega)]
      rfl

/-- **C95** Without flags for filament and printer, these are all commands for heaters and fan in the G-code: the printer waits for the bed at 60 °C and
the hot end at 205 °C, the fan runs from the third layer on, the temperatures are 55 °C and 200 °C from the fourth layer on, and at the end everything
is off. -/
theorem C95_temperatures (hf : o.filament = {}) (hpr : o.printer = {}) (hne : layers ≠ [])
    (h : (generateScripts crossing o (standardRenderers lib o pt) layers g0).2 = (t, none)) :
    commands t = [.bed true 60, .hotend true 205, .fan 0] ++ (if 2 < layers.length then [.fan 255] else []) ++
      (if 3 < layers.length then [.bed false 55, .hotend false 200] else []) ++ [.hotend false 0, .bed false 0, .fan 0] := by
  have hp : PlainCode o := by
    rw [PlainCode, hpr]
    simp only [fillTemplates, hf]
    decide +kernel
  have h1 : startCommands o ++ customStart o = [.bed true 60, .hotend true 205, .fan 0] := by
    have e1 : startCommands o = [] := by unfold startCommands; rw [hpr, hf]; decide +kernel
    have e2 : customStart o = [.bed true 60, .hotend true 205, .fan 0] := by
      unfold customStart
      rw [hpr]
      simp only [fillTemplates, hf]
      decide +kernel
    rw [e1, e2]; rfl
  have h2 : endCommands o ++ customEnd o = [.hotend false 0, .bed false 0, .fan 0] := by
    unfold endCommands customEnd; rw [hpr]; decide +kernel
  rw [commands_generated hp hne h, default_layers hf, h1, h2, List.append_assoc _ _ (if 3 < _ then _ else _)]

/-- **C79** The builder never panics, whatever it is asked to draw. -/
theorem C79_builder_no_panic (g : Builder) (cs : List Call) (m : String) : g.exec crossing cs ≠ .error (.panic m) := by
  rcases exec_result (crossing := crossing) cs g with ⟨g', h⟩ | ⟨⟨m', h⟩, -⟩ <;> rw [h] <;> simp

/-- **C79** If the crossing test does not fail, the generation succeeds exactly if no renderer fails by itself: for a wrong attribute type
or a failing infill pattern. -/
theorem C79_succeeds (hcr : ∀ parts p, (crossing parts p).2 = true) (o : Options) (rs : List Scripts) (layers : List Layer) (g0 : Builder) :
    (∃ t, (generateScripts crossing o rs layers g0).2 = (t, none)) ↔ ∀ s ∈ allScripts o rs layers, s.fault = none := by
  constructor
  · rintro ⟨t, h⟩
    exact (C30_scripts.1 h).1
  · intro h
    rcases exec_result (crossing := crossing) ((allScripts o rs layers).flatMap Script.calls)
      (newBuilder o.filament.filamentDiameter o.filament.extrusionMultiplier) with ⟨g', hg⟩ | ⟨-, parts, p, hx⟩
    · exact ⟨g'.buf, C30_scripts.2 ⟨h, g', hg, rfl⟩⟩
    · rw [hcr] at hx; cases hx

end Success

/-! ## Non-vacuity: an actual print -/

/-- A library which returns nothing. -/
def noClipper : ClipperLib := { execute := fun _ _ _ => none, executeOpen := fun _ _ _ => none, offset := fun _ _ => [], hull := id }

/-- No infill at all. -/
def noPatterns : Patterns := ⟨none, none, none, none, none⟩

/-- A layer with one triangle as perimeter. -/
def triangleLayer : Layer :=
  ⟨[⟨[⟨0, 0⟩, ⟨3000, 0⟩, ⟨0, 4000⟩], []⟩], some (AttrMap.insert (fun _ => none) "perimeters" (.offsetResult [[[⟨[⟨0, 0⟩, ⟨3000, 0⟩, ⟨0, 4000⟩], []⟩]]]))⟩

/-- A print of five layers with the default options. -/
def smallPrint (o : Options) : Str × Option Fault :=
  (generateScripts (fun _ _ => (false, true)) o (standardRenderers noClipper o noPatterns)
    [triangleLayer, triangleLayer, ⟨[], none⟩, triangleLayer, triangleLayer] (newBuilder 0 0)).2

/-- Options without heated bed. -/
def bedless : Options := { printer := { hasHeatedBed := false } }
/-- Options with an end G-code which only is a comment. -/
def commentEnd : Options := { printer := { startGCode := [], endGCode := [";M104 S0".toList] } }

theorem smallPrint_eq (o : Options) : smallPrint o = ((smallPrint o).1, none) := by
  obtain ⟨t, ht⟩ := (C79_succeeds (crossing := fun _ _ => (false, true)) (by simp) o (standardRenderers noClipper o noPatterns)
    [triangleLayer, triangleLayer, ⟨[], none⟩, triangleLayer, triangleLayer] (newBuilder 0 0)).2 (by
      have hp1 : triangleLayer.perimeters = .ok [[[⟨[⟨0, 0⟩, ⟨3000, 0⟩, ⟨0, 4000⟩], []⟩]]] := by rfl
      have hp2 : Layer.perimeters ⟨[], none⟩ = .ok [] := rfl
      have hb1 : triangleLayer.brim = .ok [] := by rfl
      have hb2 : Layer.brim ⟨[], none⟩ = .ok [] := rfl
      have hs1 : triangleLayer.fullSupport = .ok [] := by rfl
      have hs2 : Layer.fullSupport ⟨[], none⟩ = .ok [] := rfl
      intro s hs
      simp only [allScripts, standardRenderers, drawingRenderers, List.mem_flatMap, List.mem_map] at hs
      obtain ⟨x, hx, r, hr, rfl⟩ := hs
      have hx1 : x.1 = triangleLayer ∨ x.1 = ⟨[], none⟩ := by
        simp [List.zipIdx] at hx
        rcases hx with rfl | rfl | rfl | rfl | rfl <;> simp
      simp only [List.cons_append, List.nil_append, List.mem_cons, List.not_mem_nil, or_false, noPatterns] at hr
      rcases hr with rfl | rfl | rfl | rfl | rfl | rfl | rfl | rfl | rfl | rfl <;> rcases hx1 with h | h <;>
        simp only [preLayer, postLayer, skirtRenderer, brimRenderer, perimeterRenderer, infillRenderer, h, hp1, hp2, hb1, hb2, hs1, hs2] <;>
        (repeat' split) <;> rfl)
  have e : smallPrint o = (t, none) := ht
  rw [e]

-- the default options satisfy the assumptions of C31, C32 and C33
example : PlainCode {} ∧ (∀ l ∈ ({} : Options).printer.endGCode, '\n' ∉ l ∧
    ¬ "M104".toList <:+: wordOf l ∧ ¬ "M109".toList <:+: wordOf l ∧ ¬ "M140".toList <:+: wordOf l ∧ ¬ "M190".toList <:+: wordOf l) := by
  refine ⟨⟨?_, ?_⟩, ?_⟩ <;> decide +kernel

example : hotendTarget (commands (smallPrint {}).1) = some 0 ∧ bedTarget (commands (smallPrint {}).1) = some 0 := by
  have hp : PlainCode {} := by refine ⟨?_, ?_⟩ <;> decide +kernel
  have h := smallPrint_eq {}
  exact ⟨C32_hotend_off hp (by simp) rfl (by decide +kernel) (by decide +kernel) h,
    C32_bed_off hp (by simp) rfl rfl (by decide +kernel) (by decide +kernel) h⟩

example : commands (smallPrint {}).1 = [.bed true 60, .hotend true 205, .fan 0, .fan 255, .bed false 55, .hotend false 200, .hotend false 0, .bed false 0,
    .fan 0] := C95_temperatures rfl rfl (by simp) (smallPrint_eq {})

-- the hot end stays at 200 degrees
example : hotendTarget (commands (smallPrint commentEnd).1) = some 200 :=
  C32_comment_leaves_hot rfl rfl (by decide) (smallPrint_eq commentEnd)

-- a print without heated bed sends a bed temperature; the default start G-code waits for the bed, too
example : Command.bed false 55 ∈ commands (smallPrint bedless).1 := by
  have hp : PlainCode bedless := by refine ⟨?_, ?_⟩ <;> decide +kernel
  have := C34_no_heated_bed hp (by simp) rfl (smallPrint_eq bedless)
  have hm : Command.bed false 55 ∈ (commands (smallPrint bedless).1).filter isBed := by
    rw [this]
    simp [bedless]
  exact (List.mem_filter.1 hm).1

end Verif
