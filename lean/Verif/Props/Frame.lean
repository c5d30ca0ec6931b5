import Verif.Props.Print
import Verif.Props.Heaters
import Verif.Props.Verbatim
import Verif.Spec.FirstWord

/-! # C154: the text around the layers -/
namespace Verif
open Verif.Go Verif.Model Verif.Spec

theorem inFirstWord_iff {code : Str} (hcode : code ≠ []) (l : Str) : InFirstWord code l ↔ code <:+: wordOf l := by
  constructor
  · rintro ⟨b, w, r, rfl, hb, hw, hs, hi⟩
    have hne : w ≠ [] := by
      rintro rfl
      exact hcode (List.infix_nil.1 hi)
    obtain ⟨c, w, rfl⟩ := List.exists_cons_of_ne_nil hne
    have hc : isSpace c = false := by
      rw [← Bool.not_eq_true, isSpace_iff]
      exact hw c rfl
    have h1 : (b ++ (c :: w) ++ r).dropWhile isSpace = (c :: w) ++ r := by
      rw [List.append_assoc, List.dropWhile_append_of_pos fun x hx => (isSpace_iff x).2 (hb x hx), List.cons_append, List.dropWhile_cons_of_neg (by simp [hc])]
    have h2 : wordOf (b ++ (c :: w) ++ r) = (c :: w) ++ r.takeWhile (· ≠ ' ') := by
      unfold wordOf
      rw [h1, List.takeWhile_append_of_pos]
      intro x hx
      rw [decide_eq_true_eq]
      rintro rfl
      exact hs hx
    rw [h2]
    exact hi.trans (List.prefix_append _ _).isInfix
  · intro hi
    refine ⟨l.takeWhile isSpace, wordOf l, (l.dropWhile isSpace).dropWhile (· ≠ ' '), ?_, ?_, ?_, ?_, hi⟩
    · rw [List.append_assoc, wordOf, List.takeWhile_append_dropWhile, List.takeWhile_append_dropWhile]
    · exact fun c hc => (isSpace_iff c).1 (takeWhile_all _ _ c hc)
    · intro c hc
      rw [← isSpace_iff, Bool.not_eq_true]
      unfold wordOf at hc
      cases hd : l.dropWhile isSpace with
      | nil => rw [hd] at hc; simp at hc
      | cons d t =>
        have hne : l.dropWhile isSpace ≠ [] := by rw [hd]; simp
        have h3 := List.head_dropWhile_not isSpace hne
        simp only [hd, List.head_cons] at h3
        rw [hd, List.takeWhile_cons] at hc
        split at hc
        · simp only [List.head?_cons, Option.mem_def, Option.some.injEq] at hc
          rw [← hc]; exact h3
        · simp at hc
    · intro h
      have := takeWhile_all _ _ _ h
      simp at this

theorem hasCodes_hotend (lines : List Str) : hasCodes hotendTempCodes lines = true ↔ SetsHotend lines := by
  rw [hasCodes_iff hotendCodes_space]
  unfold SetsHotend
  simp only [hotendTempCodes, List.mem_cons, List.not_mem_nil, or_false, exists_eq_or_imp, exists_eq_left]
  simp only [inFirstWord_iff (show "M104".toList ≠ [] by decide), inFirstWord_iff (show "M109".toList ≠ [] by decide)]

theorem hasCodes_bed (lines : List Str) : hasCodes bedTempCodes lines = true ↔ SetsBed lines := by
  rw [hasCodes_iff bedCodes_space]
  unfold SetsBed
  simp only [bedTempCodes, List.mem_cons, List.not_mem_nil, or_false, exists_eq_or_imp, exists_eq_left]
  simp only [inFirstWord_iff (show "M140".toList ≠ [] by decide), inFirstWord_iff (show "M190".toList ≠ [] by decide)]

theorem customLine_plain {l : Str} (h : '%' ∉ l) : customLine l = l ++ ['\n'] :=
  (sprintf0_eq_iff _ _ (by simp)).2 (by simpa using h)

theorem mem_intercalate {sep : Str} {us : List Str} {c : Char} (h : c ∈ sep.intercalate us) : c ∈ sep ∨ ∃ u ∈ us, c ∈ u := by
  induction us with
  | nil => simp [List.intercalate] at h
  | cons u us ih =>
    cases us with
    | nil => right; exact ⟨u, by simp, by simpa [List.intercalate] using h⟩
    | cons v vs =>
      rw [intercalate_cons_cons _ _ (by simp)] at h
      rcases List.mem_append.1 h with h | h
      · rcases List.mem_append.1 h with h | h
        · exact .inr ⟨u, by simp, h⟩
        · exact .inl h
      · rcases ih h with h | ⟨w, hw, h⟩
        · exact .inl h
        · exact .inr ⟨w, List.mem_cons_of_mem _ hw, h⟩

theorem intercalate_mem {sep : Str} {us : List Str} {c : Char} {u : Str} (hu : u ∈ us) (h : c ∈ u) : c ∈ sep.intercalate us := by
  induction us with
  | nil => cases hu
  | cons v us ih =>
    cases us with
    | nil =>
      rw [List.mem_singleton] at hu
      subst hu
      simpa [List.intercalate] using h
    | cons w ws =>
      rw [intercalate_cons_cons _ _ (by simp)]
      rcases List.mem_cons.1 hu with rfl | hu
      · exact List.mem_append_left _ (List.mem_append_left _ h)
      · exact List.mem_append_right _ (ih hu)

theorem replaced_no_percent {old s s' : Str} {v : Int} (h : Replaced old (formatInt v) s s') (hs : '%' ∉ s) : '%' ∉ s' := by
  obtain ⟨us, -, rfl, rfl, -⟩ := h
  intro hm
  rcases mem_intercalate hm with h | ⟨u, hu, h⟩
  · exact not_mem_formatInt v (by decide) (by decide) h
  · exact hs (intercalate_mem hu h)

/-- Both placeholders of a start G-code line are filled in. -/
def FilledIn (o : Options) (s s' : Str) : Prop := ∃ mid,
  Replaced "{print_bed_temperature}".toList (formatInt o.filament.initialBedTemperature) s mid ∧
  Replaced "{print_temperature}".toList (formatInt o.filament.initialHotEndTemperature) mid s'

open Classical in
/-- **C154** The text before the first layer. -/
theorem C154_start (o : Options) (h : ∀ l ∈ o.printer.startGCode, '%' ∉ l) : ∃ lines, List.Forall₂ (FilledIn o) o.printer.startGCode lines ∧
    startText o = ";Generated with GoSlice\n;______________________\n".toList ++
      (if o.printer.forceSafeStartStopGCode = true ∧ o.printer.hasHeatedBed = true ∧ ¬ SetsBed o.printer.startGCode then
        ";SET BED TEMP\nM190 S".toList ++ formatInt o.filament.initialBedTemperature ++ " ; heat and wait for bed\n".toList else []) ++
      (if o.printer.forceSafeStartStopGCode = true ∧ ¬ SetsHotend o.printer.startGCode then
        ";SET HOTEND TEMP\nM109 S".toList ++ formatInt o.filament.initialHotEndTemperature ++ " ; wait for hot end temperature\n".toList else []) ++
      ";START GCODE\n".toList ++ (lines.map (· ++ ['\n'])).flatten ++ "G92 E0 ; reset extrusion distance\n".toList := by
  refine ⟨o.printer.startGCode.map (fillTemplates o), ?_, ?_⟩
  · rw [List.forall₂_map_right_iff, List.forall₂_same]
    exact fun l _ => C35_replaced o l
  · unfold startText
    have e : o.printer.startGCode.flatMap (fun l => customLine (fillTemplates o l)) = ((o.printer.startGCode.map (fillTemplates o)).map (· ++ ['\n'])).flatten := by
      rw [List.map_map, ← List.flatMap_def]
      refine List.flatMap_congr fun l hl => ?_
      obtain ⟨mid, h1, h2⟩ := C35_replaced o l
      exact customLine_plain (replaced_no_percent h2 (replaced_no_percent h1 (h l hl)))
    rw [e]
    simp only [← hasCodes_bed, ← hasCodes_hotend, Bool.and_eq_true, Bool.not_eq_true', Bool.not_eq_true, and_assoc]

open Classical in
/-- **C154** The text after the last layer. -/
theorem C154_end (o : Options) (h : ∀ l ∈ o.printer.endGCode, '%' ∉ l) :
    endText o = ";END_GCODE\n".toList ++
      (if o.printer.forceSafeStartStopGCode = true ∧ ¬ SetsHotend o.printer.endGCode then "M104 S0 ; Set Hot-end to 0C (off)\n".toList else []) ++
      (if o.printer.forceSafeStartStopGCode = true ∧ o.printer.hasHeatedBed = true ∧ ¬ SetsBed o.printer.endGCode then
        "M140 S0 ; Set bed to 0C (off)\n".toList else []) ++
      (o.printer.endGCode.map (· ++ ['\n'])).flatten := by
  unfold endText
  have e : o.printer.endGCode.flatMap customLine = (o.printer.endGCode.map (· ++ ['\n'])).flatten := by
    rw [← List.flatMap_def]
    exact List.flatMap_congr fun l hl => customLine_plain (h l hl)
  rw [e]
  simp only [← hasCodes_bed, ← hasCodes_hotend, Bool.and_eq_true, Bool.not_eq_true', Bool.not_eq_true, and_assoc]

open Classical in
/-- **C154** The text of a whole print without percent signs in custom lines: what is before the first and after the last layer, and which commands are in between is said by C77. -/
theorem C154_print {lib : ClipperLib} {o : Options} {pt : Patterns} {layers : List Layer} {g0 : Builder} {t : Str} {crossing : List LayerPart → Path → Bool × Bool}
    (hs : ∀ l ∈ o.printer.startGCode, '%' ∉ l) (he : ∀ l ∈ o.printer.endGCode, '%' ∉ l) (hne : layers ≠ [])
    (h : (generateScripts crossing o (standardRenderers lib o pt) layers g0).2 = (t, none)) :
    ∃ lines body, List.Forall₂ (FilledIn o) o.printer.startGCode lines ∧
      t = ";Generated with GoSlice\n;______________________\n".toList ++
        (if o.printer.forceSafeStartStopGCode = true ∧ o.printer.hasHeatedBed = true ∧ ¬ SetsBed o.printer.startGCode then
          ";SET BED TEMP\nM190 S".toList ++ formatInt o.filament.initialBedTemperature ++ " ; heat and wait for bed\n".toList else []) ++
        (if o.printer.forceSafeStartStopGCode = true ∧ ¬ SetsHotend o.printer.startGCode then
          ";SET HOTEND TEMP\nM109 S".toList ++ formatInt o.filament.initialHotEndTemperature ++ " ; wait for hot end temperature\n".toList else []) ++
        ";START GCODE\n".toList ++ (lines.map (· ++ ['\n'])).flatten ++ "G92 E0 ; reset extrusion distance\n".toList ++
        body ++
        (";END_GCODE\n".toList ++
        (if o.printer.forceSafeStartStopGCode = true ∧ ¬ SetsHotend o.printer.endGCode then "M104 S0 ; Set Hot-end to 0C (off)\n".toList else []) ++
        (if o.printer.forceSafeStartStopGCode = true ∧ o.printer.hasHeatedBed = true ∧ ¬ SetsBed o.printer.endGCode then
          "M140 S0 ; Set bed to 0C (off)\n".toList else []) ++
        (o.printer.endGCode.map (· ++ ['\n'])).flatten) := by
  obtain ⟨lines, hl, h1⟩ := C154_start o hs
  obtain ⟨g, ht, -⟩ := print_body hne h
  refine ⟨lines, g.buf, hl, ?_⟩
  rw [ht, h1, C154_end o he]

theorem contains_brace {l t : Str} (h : '{' ∉ l) : contains l ('{' :: t) = false := by
  rw [← Bool.not_eq_true, contains_iff]
  intro hi
  exact h (hi.subset (List.mem_cons_self ..))

theorem fillTemplates_plain (o : Options) {l : Str} (h : '{' ∉ l) : fillTemplates o l = l := by
  unfold fillTemplates bedTempTemplate hotendTempTemplate
  have e1 : contains l "{print_bed_temperature}".toList = false := contains_brace h
  have e2 : contains l "{print_temperature}".toList = false := contains_brace h
  simp only [e1, e2, Bool.false_eq_true, if_false]

/-- **C154** With the default start lines, both temperatures are set once, in the lines themselves, whatever the other options are. -/
theorem C154_default_start (o : Options) (h : o.printer.startGCode = ({} : Options).printer.startGCode) :
    startText o = ";Generated with GoSlice\n;______________________\n;START GCODE\n;SET BED TEMP\nM190 S".toList ++ formatInt o.filament.initialBedTemperature ++
      " ; heat and wait for bed\n;SET HOTEND TEMP\nM109 S".toList ++ formatInt o.filament.initialHotEndTemperature ++
      " ; wait for hot end temperature\nM107 ; disable fan\nG1 Z5 F5000 ; lift nozzle\nG92 E0 ; reset extrusion distance\n".toList := by
  have hb : hasCodes bedTempCodes ({} : Options).printer.startGCode = true := by decide +kernel
  have hh : hasCodes hotendTempCodes ({} : Options).printer.startGCode = true := by decide +kernel
  have hn : ∀ (v : Int) (s t : Str) (c : Char), c ∉ s → c ∉ t → (c.toNat < 48 ∨ 57 < c.toNat) → c ≠ '-' → c ∉ s ++ formatInt v ++ t := by
    intro v s t c h1 h2 h3 h4 hm
    rcases List.mem_append.1 hm with hm | hm
    · rcases List.mem_append.1 hm with hm | hm
      · exact h1 hm
      · exact not_mem_formatInt v h4 h3 hm
    · exact h2 hm
  have f1 : fillTemplates o "M190 S{print_bed_temperature} ; heat and wait for bed".toList =
      "M190 S".toList ++ formatInt o.filament.initialBedTemperature ++ " ; heat and wait for bed".toList := by
    unfold fillTemplates
    have e1 : contains "M190 S{print_bed_temperature} ; heat and wait for bed".toList bedTempTemplate = true := by decide +kernel
    have e2 : ∀ x, replaceAll bedTempTemplate x "M190 S{print_bed_temperature} ; heat and wait for bed".toList = "M190 S".toList ++ x ++ " ; heat and wait for bed".toList := by
      intro x
      rw [List.append_assoc]
      rfl
    have e3 : contains ("M190 S".toList ++ formatInt o.filament.initialBedTemperature ++ " ; heat and wait for bed".toList) hotendTempTemplate = false :=
      contains_brace (hn _ _ _ '{' (by decide) (by decide) (by decide) (by decide))
    rw [if_pos e1, e2]
    dsimp only
    rw [e3]
    rfl
  have f2 : fillTemplates o "M109 S{print_temperature} ; wait for hot end temperature".toList =
      "M109 S".toList ++ formatInt o.filament.initialHotEndTemperature ++ " ; wait for hot end temperature".toList := by
    unfold fillTemplates
    have e1 : contains "M109 S{print_temperature} ; wait for hot end temperature".toList bedTempTemplate = false := by decide +kernel
    have e2 : contains "M109 S{print_temperature} ; wait for hot end temperature".toList hotendTempTemplate = true := by decide +kernel
    have e3 : ∀ x, replaceAll hotendTempTemplate x "M109 S{print_temperature} ; wait for hot end temperature".toList =
        "M109 S".toList ++ x ++ " ; wait for hot end temperature".toList := by
      intro x
      rw [List.append_assoc]
      rfl
    rw [e1]
    simp only [Bool.false_eq_true, if_false]
    rw [if_pos e2, e3]
  unfold startText
  rw [h, hb, hh]
  simp only [Bool.not_true, Bool.and_false, Bool.false_eq_true, if_false, List.append_nil]
  simp only [List.flatMap_cons, List.flatMap_nil, List.append_nil]
  rw [f1, f2, fillTemplates_plain o (l := ";SET BED TEMP".toList) (by decide), fillTemplates_plain o (l := ";SET HOTEND TEMP".toList) (by decide),
    fillTemplates_plain o (l := "M107 ; disable fan".toList) (by decide), fillTemplates_plain o (l := "G1 Z5 F5000 ; lift nozzle".toList) (by decide)]
  rw [customLine_plain (hn _ _ _ '%' (by decide) (by decide) (by decide) (by decide)), customLine_plain (hn _ _ _ '%' (by decide) (by decide) (by decide) (by decide)),
    customLine_plain (l := ";SET BED TEMP".toList) (by decide), customLine_plain (l := ";SET HOTEND TEMP".toList) (by decide),
    customLine_plain (l := "M107 ; disable fan".toList) (by decide), customLine_plain (l := "G1 Z5 F5000 ; lift nozzle".toList) (by decide)]
  have s1 : ";Generated with GoSlice\n;______________________\n;START GCODE\n;SET BED TEMP\nM190 S".toList =
      ";Generated with GoSlice\n;______________________\n".toList ++ (";START GCODE\n".toList ++ (";SET BED TEMP".toList ++ (['\n'] ++ "M190 S".toList))) := by decide +kernel
  have s2 : " ; heat and wait for bed\n;SET HOTEND TEMP\nM109 S".toList =
      " ; heat and wait for bed".toList ++ (['\n'] ++ (";SET HOTEND TEMP".toList ++ (['\n'] ++ "M109 S".toList))) := by decide +kernel
  have s3 : " ; wait for hot end temperature\nM107 ; disable fan\nG1 Z5 F5000 ; lift nozzle\nG92 E0 ; reset extrusion distance\n".toList =
      " ; wait for hot end temperature".toList ++ (['\n'] ++ ("M107 ; disable fan".toList ++ (['\n'] ++ ("G1 Z5 F5000 ; lift nozzle".toList ++ (['\n'] ++
        "G92 E0 ; reset extrusion distance\n".toList))))) := by decide +kernel
  rw [s1, s2, s3]
  simp only [List.append_assoc]

/-- **C154** With the default end lines the heaters are switched off if safe G-code is demanded. -/
theorem C154_default_end (o : Options) (h : o.printer.endGCode = ({} : Options).printer.endGCode) :
    endText o = ";END_GCODE\n".toList ++ (if o.printer.forceSafeStartStopGCode = true then "M104 S0 ; Set Hot-end to 0C (off)\n".toList else []) ++
      (if o.printer.forceSafeStartStopGCode = true ∧ o.printer.hasHeatedBed = true then "M140 S0 ; Set bed to 0C (off)\n".toList else []) ++
      "M107 ; disable fan\nG28 X0  ; home X axis to get head out of the way\nM84 ;steppers off\n".toList := by
  have hb : hasCodes bedTempCodes ({} : Options).printer.endGCode = false := by decide +kernel
  have hh : hasCodes hotendTempCodes ({} : Options).printer.endGCode = false := by decide +kernel
  have hf : ({} : Options).printer.endGCode.flatMap customLine = "M107 ; disable fan\nG28 X0  ; home X axis to get head out of the way\nM84 ;steppers off\n".toList := by decide +kernel
  unfold endText
  rw [h, hb, hh, hf]
  simp only [Bool.not_false, Bool.and_true, Bool.and_eq_true]

/-- Non-vacuity: the default options have no percent sign, and their start G-code sets both temperatures, but their end G-code sets none. -/
example : (∀ l ∈ ({} : Options).printer.startGCode ++ ({} : Options).printer.endGCode, '%' ∉ l) ∧ SetsBed ({} : Options).printer.startGCode ∧
    SetsHotend ({} : Options).printer.startGCode ∧ ¬ SetsHotend ({} : Options).printer.endGCode ∧ ¬ SetsBed ({} : Options).printer.endGCode := by
  rw [← hasCodes_bed, ← hasCodes_bed, ← hasCodes_hotend, ← hasCodes_hotend]
  decide +kernel

end Verif
