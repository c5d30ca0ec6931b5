import Verif.Lemmas.Lines
import Verif.Model.Renderers
import Verif.Props.Generator

/-! # C31 - C34: heater and fan commands of the generated text -/
namespace Verif
open Verif.Go Verif.Model Verif.Spec Verif.Spec.GCode

/-! ## Commands of single texts -/

theorem commands_line {t : Str} (h : '\n' ∉ t) : commands t = (command t).toList := by
  unfold commands
  rw [split_eq_singleton h]
  cases hc : command t <;> simp [hc]

theorem command_comment (t : Str) : command (';' :: t) = none := by
  simp [command, words, split]

theorem takeWhile_append_stop {α : Type} {p : α → Bool} {a b : List α} (ha : ∀ x ∈ a, p x = true) (hb : ∀ x, b.head? = some x → p x = false) :
    (a ++ b).takeWhile p = a := by
  induction a with
  | nil =>
    cases b with
    | nil => rfl
    | cons x b => simp [hb x rfl]
  | cons x a ih =>
    rw [List.cons_append, List.takeWhile_cons, ha x (by simp), if_pos rfl, ih fun y hy => ha y (List.mem_cons_of_mem _ hy)]

theorem words_S {code : Str} (h1 : ';' ∉ code) (h2 : ' ' ∉ code) (h3 : code ≠ []) (v : Int) (rest : Str)
    (hr : rest = [] ∨ rest.head? = some ';' ∨ ∃ r, rest = ' ' :: ';' :: r) :
    words (code ++ ' ' :: 'S' :: formatInt v ++ rest) = [code, 'S' :: formatInt v] := by
  have n1 : ';' ∉ formatInt v := not_mem_formatInt v (by decide) (by decide)
  have n2 : ' ' ∉ formatInt v := not_mem_formatInt v (by decide) (by decide)
  have hok : ∀ x ∈ code ++ ' ' :: 'S' :: formatInt v, (fun c => decide (c ≠ ';')) x = true := by
    intro x hx
    simp only [ne_eq, decide_eq_true_eq]
    rintro rfl
    simp only [List.mem_append, List.mem_cons] at hx
    rcases hx with h | h | h | h
    · exact h1 h
    · exact absurd h (by decide)
    · exact absurd h (by decide)
    · exact n1 h
  unfold words
  have hn : ' ' ∉ 'S' :: formatInt v := by simp [n2]
  rcases hr with rfl | hr | ⟨r, rfl⟩
  · rw [List.append_nil, takeWhile_eq_self hok, split_append h2, split_eq_singleton hn]
    simp [h3]
  · rw [takeWhile_append_stop hok (by intro x hx; rw [hr] at hx; cases hx; rfl), split_append h2, split_eq_singleton hn]
    simp [h3]
  · have : code ++ ' ' :: 'S' :: formatInt v ++ ' ' :: ';' :: r = (code ++ ' ' :: 'S' :: formatInt v ++ [' ']) ++ ';' :: r := by simp
    rw [this, takeWhile_append_stop (by
      intro x hx
      rcases List.mem_append.1 hx with hx | hx
      · exact hok x hx
      · rw [List.mem_singleton.1 hx]; rfl) (by intro x hx; cases hx; rfl)]
    have : code ++ ' ' :: 'S' :: formatInt v ++ [' '] = code ++ ' ' :: ('S' :: formatInt v ++ ' ' :: []) := by simp
    rw [this, split_append h2, split_append hn]
    simp [h3, split]

theorem sValue_S (v : Int) : sValue ('S' :: formatInt v) = some (v : ℚ) := by simp [sValue, number_formatInt]

theorem command_M190 (v : Int) : commands ("M190 S".toList ++ formatInt v ++ " ; heat and wait for bed".toList) = [.bed true v] := by
  have h := words_S (code := "M190".toList) (by decide) (by decide) (by decide) v " ; heat and wait for bed".toList (.inr (.inr ⟨_, rfl⟩))
  have e : "M190 S".toList ++ formatInt v ++ " ; heat and wait for bed".toList =
    "M190".toList ++ ' ' :: 'S' :: formatInt v ++ " ; heat and wait for bed".toList := rfl
  rw [e, commands_line, command, h]
  · simp [sValue_S]
  · have := not_mem_formatInt v (d := '\n') (by decide) (by decide)
    simp [this]

theorem command_M109 (v : Int) : commands ("M109 S".toList ++ formatInt v ++ " ; wait for hot end temperature".toList) = [.hotend true v] := by
  have h := words_S (code := "M109".toList) (by decide) (by decide) (by decide) v " ; wait for hot end temperature".toList (.inr (.inr ⟨_, rfl⟩))
  have e : "M109 S".toList ++ formatInt v ++ " ; wait for hot end temperature".toList =
    "M109".toList ++ ' ' :: 'S' :: formatInt v ++ " ; wait for hot end temperature".toList := rfl
  rw [e, commands_line, command, h]
  · simp [sValue_S]
  · have := not_mem_formatInt v (d := '\n') (by decide) (by decide)
    simp [this]

theorem command_M106 (v : Int) : commands ("M106 S".toList ++ formatInt v ++ "; change fan speed".toList) = [.fan v] := by
  have h := words_S (code := "M106".toList) (by decide) (by decide) (by decide) v "; change fan speed".toList (.inr (.inl rfl))
  have e : "M106 S".toList ++ formatInt v ++ "; change fan speed".toList =
    "M106".toList ++ ' ' :: 'S' :: formatInt v ++ "; change fan speed".toList := rfl
  rw [e, commands_line, command, h]
  · simp [sValue_S]
  · have := not_mem_formatInt v (d := '\n') (by decide) (by decide)
    simp [this]

theorem command_M140 (v : Int) : commands ("M140 S".toList ++ formatInt v) = [.bed false v] := by
  have h := words_S (code := "M140".toList) (by decide) (by decide) (by decide) v [] (.inl rfl)
  have e : "M140 S".toList ++ formatInt v = "M140".toList ++ ' ' :: 'S' :: formatInt v ++ [] := by simp
  rw [e, commands_line, command, h]
  · simp [sValue_S]
  · have := not_mem_formatInt v (d := '\n') (by decide) (by decide)
    simp [this]

theorem command_M104 (v : Int) : commands ("M104 S".toList ++ formatInt v) = [.hotend false v] := by
  have h := words_S (code := "M104".toList) (by decide) (by decide) (by decide) v [] (.inl rfl)
  have e : "M104 S".toList ++ formatInt v = "M104".toList ++ ' ' :: 'S' :: formatInt v ++ [] := by simp
  rw [e, commands_line, command, h]
  · simp [sValue_S]
  · have := not_mem_formatInt v (d := '\n') (by decide) (by decide)
    simp [this]

theorem command_LAYER (n : Int) : commands (";LAYER:".toList ++ formatInt n) = [] := by
  rw [commands_line]
  · have : ";LAYER:".toList ++ formatInt n = ';' :: ("LAYER:".toList ++ formatInt n) := rfl
    rw [this, command_comment]; rfl
  · have := not_mem_formatInt n (d := '\n') (by decide) (by decide)
    simp [this]

/-! ## Calls of the drawing renderers -/

/-- A call which draws at height `z`: a comment, a polygon at this height, or the choice of one of the two speeds. -/
def DrawCall (o : Options) (z : Int) : Call → Prop
  | .comment t => '\n' ∉ t ∧ '%' ∉ t
  | .setExtrudeSpeed v => v = o.print.layerSpeed ∨ v = o.print.outerPerimeterSpeed
  | .polygon _ _ z' _ => z' = z
  | _ => False

theorem drawCall_commands {o : Options} {z : Int} {c : Call} (h : DrawCall o z c) : callCommands c = [] := by
  cases c with
  | comment t =>
    simp only [callCommands]
    rw [commands_line (by simp [h.1]), command_comment]; rfl
  | _ => first | rfl | exact absurd h (by simp [DrawCall])

theorem drawCall_plain {o : Options} {z : Int} {c : Call} (h : DrawCall o z c) : Plain c := by
  cases c <;> first | exact h.2 | trivial

theorem drawCall_perimeter (o : Options) (n : Nat) (m : Int) (l : Layer) (z : Int) : ∀ c ∈ (perimeterRenderer o n m l z).calls, DrawCall o z c := by
  unfold perimeterRenderer
  split
  · simp
  · intro c hc
    simp only [List.mem_flatMap, perimeterPartCalls, insetPartCalls, List.mem_append, List.mem_map, List.mem_singleton] at hc
    obtain ⟨ps, -, k, -, p, -, (hc | ⟨hole, -, rfl⟩) | rfl⟩ := hc
    · split at hc <;> simp only [List.mem_cons, List.not_mem_nil, or_false] at hc <;> rcases hc with rfl | rfl
      · exact ⟨by decide, by decide⟩
      · exact Or.inr rfl
      · exact ⟨by decide, by decide⟩
      · exact Or.inl rfl
    · rfl
    · rfl

section ForEach
variable {σ : Type}

/-- Without break `ForEach` visits all parts of the flattened list. -/
theorem forEachPart_all (f : σ → LayerPart → Nat → Nat → Nat → σ) (i j : Nat) (ps : List LayerPart) : ∀ (s : σ) (k : Nat),
    forEachPart (fun s p a b c => (f s p a b c, false)) i j s k ps = ((ps.zipIdx k).foldl (fun s x => f s x.1 i j x.2) s, false) := by
  induction ps with
  | nil => intro s k; rfl
  | cons p ps ih => intro s k; simp [forEachPart, ih]

theorem forEachInset_all (f : σ → LayerPart → σ) (i : Nat) (is : List (List LayerPart)) : ∀ (s : σ) (k : Nat),
    forEachInset (fun s p _ _ _ => (f s p, false)) i s k is = (is.flatten.foldl f s, false) := by
  induction is with
  | nil => intro s k; rfl
  | cons ps is ih =>
    intro s k
    simp only [forEachInset, forEachPart_all (fun s p _ _ _ => f s p), ih, List.flatten_cons, List.foldl_append]
    have : ∀ (ps : List LayerPart) (k : Nat) (s : σ), (ps.zipIdx k).foldl (fun s x => f s x.1) s = ps.foldl f s := by
      intro ps
      induction ps with
      | nil => intro k s; rfl
      | cons p ps ih => intro k s; simp [ih]
    simp [this]

theorem forEach_all (f : σ → LayerPart → σ) (r : OffsetResult) (s : σ) :
    forEach (fun s p _ _ _ => (f s p, false)) r s = r.flatten.flatten.foldl f s := by
  unfold forEach
  have : ∀ (r : OffsetResult) (s : σ) (k : Nat), forEachOuter (fun s p _ _ _ => (f s p, false)) s k r = (r.flatten.flatten.foldl f s, false) := by
    intro r
    induction r with
    | nil => intro s k; rfl
    | cons is r ih => intro s k; simp only [forEachOuter, forEachInset_all, ih]; simp
  rw [this]

end ForEach

/-- The calls of the brim renderer. -/
theorem brim_calls (brim : OffsetResult) (z : Int) :
    forEach (fun (calls : List Call) part _ _ _ => (calls ++ [Call.polygon none part.outline z false], false)) brim [] =
      brim.flatten.flatten.map fun part => Call.polygon none part.outline z false := by
  rw [forEach_all (fun (calls : List Call) part => calls ++ [Call.polygon none part.outline z false])]
  have : ∀ (ps : List LayerPart) (acc : List Call), ps.foldl (fun calls part => calls ++ [Call.polygon none part.outline z false]) acc =
      acc ++ ps.map fun part => Call.polygon none part.outline z false := by
    intro ps
    induction ps with
    | nil => intro acc; simp
    | cons p ps ih => intro acc; simp [ih]
  simpa using this brim.flatten.flatten []

theorem drawCall_brim (o : Options) (n : Nat) (m : Int) (l : Layer) (z : Int) : ∀ c ∈ (brimRenderer n m l z).calls, DrawCall o z c := by
  unfold brimRenderer
  split
  · simp
  · simp
  · rw [brim_calls]
    intro c hc
    simp only [List.mem_cons, List.mem_map] at hc
    rcases hc with rfl | ⟨p, -, rfl⟩
    · exact ⟨by decide, by decide⟩
    · rfl

theorem drawCall_skirt (lib : ClipperLib) (o : Options) (n : Nat) (m : Int) (l : Layer) (z : Int) :
    ∀ c ∈ (skirtRenderer lib o n m l z).calls, DrawCall o z c := by
  unfold skirtRenderer
  split
  · simp
  · split
    · split
      · simp
      · split
        · simp
        · split
          · simp
          · intro c hc
            simp only [List.mem_cons, List.mem_flatMap, List.mem_map] at hc
            rcases hc with rfl | ⟨w, -, p, -, rfl⟩
            · exact ⟨by decide, by decide⟩
            · rfl
    · simp

theorem drawCall_infill (o : Options) (pattern : Option Pattern) (name : String) (comments : List Str) (n : Nat) (m : Int) (l : Layer) (z : Int)
    (hc : ∀ t ∈ comments, '\n' ∉ t ∧ '%' ∉ t) : ∀ c ∈ (infillRenderer pattern name comments n m l z).calls, DrawCall o z c := by
  have hcom : ∀ c ∈ comments.map Call.comment, DrawCall o z c := by
    intro c h
    obtain ⟨t, ht, rfl⟩ := List.mem_map.1 h
    exact hc t ht
  have key : ∀ (fill : Pattern) (ps : List LayerPart), ∀ c ∈ (infillCalls comments fill n l z ps).calls, DrawCall o z c := by
    intro fill ps
    induction ps with
    | nil => simp [infillCalls]
    | cons p ps ih =>
      intro c h
      simp only [infillCalls] at h
      split at h
      · exact hcom c h
      · rw [List.mem_append, List.mem_append] at h
        rcases h with (h | h) | h
        · exact hcom c h
        · obtain ⟨path, -, rfl⟩ := List.mem_map.1 h
          rfl
        · exact ih c h
  unfold infillRenderer
  split
  · simp
  · split
    · simp
    · exact key _ _

/-- All calls of the drawing renderers draw at the height they are given. -/
theorem drawCall_all (lib : ClipperLib) (o : Options) (pt : Patterns) (n : Nat) (m : Int) (l : Layer) (z : Int) :
    ∀ r ∈ drawingRenderers lib o pt, ∀ c ∈ (r n m l z).calls, DrawCall o z c := by
  have hc : ∀ t ∈ ["TYPE:SUPPORT".toList, "TYPE:FILL".toList, "BOTTOM-FILL".toList, "TOP-FILL".toList, "INTERNAL-FILL".toList],
      '\n' ∉ t ∧ '%' ∉ t := by decide
  intro r hr
  simp only [drawingRenderers, List.mem_cons, List.not_mem_nil, or_false] at hr
  rcases hr with rfl | rfl | rfl | rfl | rfl | rfl | rfl | rfl
  · exact drawCall_skirt lib o n m l z
  · exact drawCall_brim o n m l z
  · exact drawCall_perimeter o n m l z
  all_goals
    refine drawCall_infill o _ _ _ n m l z fun t ht => hc t ?_
    revert ht
    simp only [List.mem_cons, List.not_mem_nil, or_false]
    tauto

/-- The calls of all renderers for a layer. -/
def layerCalls (lib : ClipperLib) (o : Options) (pt : Patterns) (m : Int) (n : Nat) (l : Layer) : List Call :=
  (standardRenderers lib o pt).flatMap fun r => (r n m l (layerHeight o n)).calls

/-- The calls of the drawing renderers for a layer. -/
def layerDraws (lib : ClipperLib) (o : Options) (pt : Patterns) (m : Int) (n : Nat) (l : Layer) : List Call :=
  (drawingRenderers lib o pt).flatMap fun r => (r n m l (layerHeight o n)).calls

theorem layerCalls_eq (lib : ClipperLib) (o : Options) (pt : Patterns) (m : Int) (n : Nat) (l : Layer) :
    layerCalls lib o pt m n l =
      (preLayer o n m l (layerHeight o n)).calls ++ layerDraws lib o pt m n l ++ (postLayer o n m l (layerHeight o n)).calls := by
  simp [layerCalls, layerDraws, standardRenderers]

theorem layerDraws_drawCall (lib : ClipperLib) (o : Options) (pt : Patterns) (m : Int) (n : Nat) (l : Layer) :
    ∀ c ∈ layerDraws lib o pt m n l, DrawCall o (layerHeight o n) c := by
  intro c hc
  obtain ⟨r, hr, hc⟩ := List.mem_flatMap.1 hc
  exact drawCall_all lib o pt n m l _ r hr c hc

theorem allScripts_calls (lib : ClipperLib) (o : Options) (pt : Patterns) (layers : List Layer) :
    (allScripts o (standardRenderers lib o pt) layers).flatMap Script.calls =
      layers.zipIdx.flatMap fun x => layerCalls lib o pt (layers.length - 1) x.2 x.1 := by
  simp only [allScripts, List.flatMap_assoc, List.flatMap_map, layerCalls]

/-! ## Commands of the layer renderers -/

/-- The heater commands before the start G-code. -/
def startCommands (o : Options) : List Command :=
  if o.printer.forceSafeStartStopGCode then
    (if o.printer.hasHeatedBed && !hasCodes bedTempCodes o.printer.startGCode then [.bed true o.filament.initialBedTemperature] else []) ++
    (if !hasCodes hotendTempCodes o.printer.startGCode then [.hotend true o.filament.initialHotEndTemperature] else [])
  else []

/-- The command for an entry of the fan table. -/
def fanCommand : Option Int → List Command
  | some v => [.fan v]
  | none => []

/-- The commands for layer `n`: the entry of the fan table and, at one layer, the normal temperatures. -/
def layerCommands (o : Options) (n : Nat) : List Command :=
  fanCommand (o.filament.fanSpeed n) ++
  (if (n : Int) = o.filament.initialTemperatureLayerCount then [.bed false o.filament.bedTemperature, .hotend false o.filament.hotEndTemperature]
   else [])

/-- The commands before the end G-code. -/
def endCommands (o : Options) : List Command :=
  if o.printer.forceSafeStartStopGCode then
    (if !hasCodes hotendTempCodes o.printer.endGCode then [.hotend false 0] else []) ++
    (if o.printer.hasHeatedBed && !hasCodes bedTempCodes o.printer.endGCode then [.bed false 0] else [])
  else []

/-- The commands of the start G-code of the user. -/
def customStart (o : Options) : List Command := o.printer.startGCode.flatMap fun l => commands (fillTemplates o l)
/-- The commands of the end G-code of the user. -/
def customEnd (o : Options) : List Command := o.printer.endGCode.flatMap commands

theorem preLayerStart_commands (o : Options) : (preLayerStart o).flatMap callCommands = startCommands o ++ customStart o := by
  unfold preLayerStart startCommands customStart
  have c1 : callCommands (.comment "Generated with GoSlice".toList) = [] := by decide
  have c2 : callCommands (.comment "______________________".toList) = [] := by decide
  have c3 : callCommands (.comment "SET BED TEMP".toList) = [] := by decide
  have c4 : callCommands (.comment "SET HOTEND TEMP".toList) = [] := by decide
  have c5 : callCommands (.comment "START GCODE".toList) = [] := by decide
  have c6 : callCommands (.command "G92 E0 ; reset extrusion distance".toList) = [] := by decide
  have c7 : ∀ v, callCommands (.text ("M190 S".toList ++ formatInt v ++ " ; heat and wait for bed".toList)) = [.bed true v] := command_M190
  have c8 : ∀ v, callCommands (.text ("M109 S".toList ++ formatInt v ++ " ; wait for hot end temperature".toList)) = [.hotend true v] := command_M109
  simp only [List.flatMap_append, List.flatMap_cons, List.flatMap_nil, c1, c2, c5, c6, List.flatMap_map, List.append_nil, List.nil_append]
  have c9 : (o.printer.startGCode.flatMap fun a => callCommands (.command (fillTemplates o a))) =
    o.printer.startGCode.flatMap fun l => commands (fillTemplates o l) := rfl
  rw [c9]
  congr 1
  split
  · rw [List.flatMap_append]
    congr 1
    · split
      · simp only [List.flatMap_cons, List.flatMap_nil, c3, c7, List.append_nil, List.nil_append]
      · rfl
    · split
      · simp only [List.flatMap_cons, List.flatMap_nil, c4, c8, List.append_nil, List.nil_append]
      · rfl
  · rfl

theorem preLayerCommon_commands (o : Options) (n : Nat) : (preLayerCommon o n).flatMap callCommands = layerCommands o n := by
  unfold preLayerCommon layerCommands
  have c1 : callCommands (.text (";LAYER:".toList ++ formatInt n)) = [] := command_LAYER n
  have c2 : callCommands (.command "M107 ; disable fan".toList) = [.fan 0] := by decide
  have c3 : ∀ v, callCommands (.text ("M106 S".toList ++ formatInt v ++ "; change fan speed".toList)) = [.fan v] := command_M106
  have c4 : callCommands (.comment "SET_TEMP".toList) = [] := by decide
  have c5 : ∀ v, callCommands (.text ("M140 S".toList ++ formatInt v)) = [.bed false v] := command_M140
  have c6 : ∀ v, callCommands (.text ("M104 S".toList ++ formatInt v)) = [.hotend false v] := command_M104
  simp only [List.flatMap_append, List.flatMap_cons, List.flatMap_nil, c1, List.append_nil, List.nil_append]
  have h1 : (if n > 0 then [Call.disableExtrudeSpeedOverride, Call.setExtrudeSpeed o.print.layerSpeed] else []).flatMap callCommands = [] := by
    split <;> rfl
  rw [h1, List.nil_append]
  congr 1
  · cases o.filament.fanSpeed n with
    | none => rfl
    | some v =>
      simp only
      split
      · rename_i h; subst h; simp only [List.flatMap_cons, List.flatMap_nil, c2, List.append_nil, fanCommand, Int.cast_zero]
      · simp only [List.flatMap_cons, List.flatMap_nil, c3, List.append_nil, fanCommand]
  · split
    · simp only [List.flatMap_cons, List.flatMap_nil, c4, c5, c6, List.append_nil, List.nil_append, List.cons_append]
    · rfl

theorem preLayer_commands (o : Options) (n : Nat) (m : Int) (l : Layer) (z : Int) :
    (preLayer o n m l z).calls.flatMap callCommands = (if n = 0 then startCommands o ++ customStart o else []) ++ layerCommands o n := by
  simp only [preLayer, List.flatMap_append, preLayerCommon_commands]
  congr 1
  split
  · rw [List.flatMap_append, preLayerStart_commands]
    have : (preLayerSettings o).flatMap callCommands = [] := rfl
    rw [this, List.append_nil]
  · split <;> rfl

theorem postLayer_commands (o : Options) (n : Nat) (m : Int) (l : Layer) (z : Int) :
    (postLayer o n m l z).calls.flatMap callCommands = if (n : Int) = m then endCommands o ++ customEnd o else [] := by
  simp only [postLayer]
  split
  · unfold postLayerEnd endCommands customEnd
    have c1 : callCommands (.comment "END_GCODE".toList) = [] := by decide
    have c2 : callCommands (.command "M104 S0 ; Set Hot-end to 0C (off)".toList) = [.hotend false 0] := by decide
    have c3 : callCommands (.command "M140 S0 ; Set bed to 0C (off)".toList) = [.bed false 0] := by decide
    have c4 : (o.printer.endGCode.map Call.command).flatMap callCommands = o.printer.endGCode.flatMap commands := by
      rw [List.flatMap_map]; rfl
    have c5 : callCommands (.setExtrusion o.print.layerThickness o.printer.extrusionWidth) = [] := rfl
    simp only [List.flatMap_append, List.flatMap_cons, List.flatMap_nil, c1, c4, c5, List.append_nil, List.nil_append]
    congr 1
    split
    · rw [List.flatMap_append]
      congr 1
      · split
        · simp only [List.flatMap_cons, List.flatMap_nil, c2, List.append_nil]
        · rfl
      · split
        · simp only [List.flatMap_cons, List.flatMap_nil, c3, List.append_nil]
        · rfl
    · rfl
  · rfl

theorem layerCalls_commands (lib : ClipperLib) (o : Options) (pt : Patterns) (m : Int) (n : Nat) (l : Layer) :
    (layerCalls lib o pt m n l).flatMap callCommands =
      (if n = 0 then startCommands o ++ customStart o else []) ++ layerCommands o n ++
        (if (n : Int) = m then endCommands o ++ customEnd o else []) := by
  rw [layerCalls_eq, List.flatMap_append, List.flatMap_append, preLayer_commands, postLayer_commands]
  have : (layerDraws lib o pt m n l).flatMap callCommands = [] := by
    rw [List.flatMap_eq_nil_iff]
    exact fun c hc => drawCall_commands (layerDraws_drawCall lib o pt m n l c hc)
  rw [this, List.append_nil]

theorem range_first_last {α : Type} (S E : List α) (L : Nat → List α) (k : Nat) :
    ((List.range (k + 1)).flatMap fun n => (if n = 0 then S else []) ++ L n ++ (if (n : Int) = ((k + 1 : Nat) : Int) - 1 then E else [])) =
      S ++ (List.range (k + 1)).flatMap L ++ E := by
  have h1 : ∀ j, j ≤ k → ((List.range (j + 1)).flatMap fun n => (if n = 0 then S else []) ++ L n) = S ++ (List.range (j + 1)).flatMap L := by
    intro j
    induction j with
    | zero => intro _; simp
    | succ j ih =>
      intro hj
      rw [List.range_succ, List.flatMap_append, ih (by omega), List.flatMap_append]
      simp
  rw [← h1 k le_rfl]
  rw [List.range_succ, List.flatMap_append, List.flatMap_append, List.append_assoc]
  congr 1
  · apply List.flatMap_congr
    intro n hn
    rw [List.mem_range] at hn
    rw [if_neg (by omega : ¬ ((n : Int) = ((k + 1 : Nat) : Int) - 1)), List.append_nil]
  · simp

/-- The custom G-code of the user contains no percent sign. -/
def PlainCode (o : Options) : Prop := (∀ l ∈ o.printer.startGCode, '%' ∉ fillTemplates o l) ∧ ∀ l ∈ o.printer.endGCode, '%' ∉ l

theorem plain_layerCalls {lib : ClipperLib} {o : Options} {pt : Patterns} (hp : PlainCode o) (m : Int) (n : Nat) (l : Layer) :
    ∀ c ∈ layerCalls lib o pt m n l, Plain c := by
  rw [layerCalls_eq]
  intro c hc
  rw [List.mem_append, List.mem_append] at hc
  rcases hc with (hc | hc) | hc
  · simp only [preLayer, List.mem_append] at hc
    rcases hc with hc | hc
    · split at hc
      · rw [List.mem_append] at hc
        rcases hc with hc | hc
        · simp only [preLayerStart, List.mem_append, List.mem_cons, List.not_mem_nil, or_false, List.mem_map] at hc
          rcases hc with ((((rfl | rfl) | hc) | rfl) | ⟨i, hi, rfl⟩) | rfl
          · exact (by decide : '%' ∉ "Generated with GoSlice".toList)
          · exact (by decide : '%' ∉ "______________________".toList)
          · split at hc
            · rw [List.mem_append] at hc
              rcases hc with hc | hc <;> split at hc <;> simp only [List.mem_cons, List.not_mem_nil, or_false] at hc
              · rcases hc with rfl | rfl
                · exact (by decide : '%' ∉ "SET BED TEMP".toList)
                · trivial
              · rcases hc with rfl | rfl
                · exact (by decide : '%' ∉ "SET HOTEND TEMP".toList)
                · trivial
            · simp at hc
          · exact (by decide : '%' ∉ "START GCODE".toList)
          · exact hp.1 i hi
          · exact (by decide : '%' ∉ "G92 E0 ; reset extrusion distance".toList)
        · simp only [preLayerSettings, List.mem_cons, List.not_mem_nil, or_false] at hc
          rcases hc with rfl | rfl | rfl | rfl | rfl | rfl | rfl <;> trivial
      · split at hc
        · rw [List.mem_singleton] at hc; subst hc; trivial
        · simp at hc
    · simp only [preLayerCommon, List.mem_append] at hc
      rcases hc with ((hc | hc) | hc) | hc
      · rw [List.mem_singleton] at hc; subst hc; trivial
      · split at hc
        · simp only [List.mem_cons, List.not_mem_nil, or_false] at hc
          rcases hc with rfl | rfl <;> trivial
        · simp at hc
      · split at hc
        · split at hc <;> rw [List.mem_singleton] at hc <;> subst hc
          · exact (by decide : '%' ∉ "M107 ; disable fan".toList)
          · trivial
        · simp at hc
      · split at hc
        · simp only [List.mem_cons, List.not_mem_nil, or_false] at hc
          rcases hc with rfl | rfl | rfl
          · exact (by decide : '%' ∉ "SET_TEMP".toList)
          · trivial
          · trivial
        · simp at hc
  · exact drawCall_plain (layerDraws_drawCall lib o pt m n l c hc)
  · simp only [postLayer] at hc
    split at hc
    · simp only [postLayerEnd, List.mem_append, List.mem_cons, List.not_mem_nil, or_false, List.mem_map] at hc
      rcases hc with ((rfl | rfl) | hc) | ⟨i, hi, rfl⟩
      · exact (by decide : '%' ∉ "END_GCODE".toList)
      · trivial
      · split at hc
        · rw [List.mem_append] at hc
          rcases hc with hc | hc <;> split at hc <;> simp only [List.mem_cons, List.not_mem_nil, or_false] at hc <;> subst hc
          · exact (by decide : '%' ∉ "M104 S0 ; Set Hot-end to 0C (off)".toList)
          · exact (by decide : '%' ∉ "M140 S0 ; Set bed to 0C (off)".toList)
        · simp at hc
      · exact hp.2 i hi
    · simp at hc

section Text
variable {lib : ClipperLib} {o : Options} {pt : Patterns} {layers : List Layer} {g0 : Builder} {t : Str}
variable {crossing : List LayerPart → Path → Bool × Bool}

/-- All heater and fan commands of a generated text, in order. -/
theorem commands_generated (hp : PlainCode o) (hne : layers ≠ [])
    (h : (generateScripts crossing o (standardRenderers lib o pt) layers g0).2 = (t, none)) :
    commands t = startCommands o ++ customStart o ++ (List.range layers.length).flatMap (layerCommands o) ++ (endCommands o ++ customEnd o) := by
  obtain ⟨-, g, hg, rfl⟩ := C30_scripts.1 h
  rw [allScripts_calls] at hg
  rw [commands_exec _ hg]
  · rw [List.flatMap_assoc]
    simp only [layerCalls_commands]
    have hr : List.range layers.length = layers.zipIdx.map (fun x => x.2) := by rw [List.zipIdx_map_snd, List.range_eq_range']
    obtain ⟨k, hk⟩ : ∃ k, layers.length = k + 1 := ⟨layers.length - 1, by have := List.length_pos_iff.2 hne; omega⟩
    have := range_first_last (startCommands o ++ customStart o) (endCommands o ++ customEnd o) (layerCommands o) k
    rw [← hk] at this
    rw [← this, hr, List.flatMap_map]
  · intro c hc
    obtain ⟨x, -, hc⟩ := List.mem_flatMap.1 hc
    exact plain_layerCalls hp _ _ _ c hc

end Text
end Verif
