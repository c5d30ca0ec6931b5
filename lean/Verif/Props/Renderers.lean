import Verif.Props.Heaters
import Verif.Spec.Replace

/-! # C35, C36: custom start G-code and perimeters -/
namespace Verif
open Verif.Go Verif.Model Verif.Spec Verif.Spec.GCode

/-! ## C35 -/

theorem intercalate_cons_cons (sep a : Str) {us : List Str} (h : us ≠ []) : sep.intercalate (a :: us) = a ++ sep ++ sep.intercalate us := by
  cases us with
  | nil => exact absurd rfl h
  | cons b us => simp [List.intercalate]

theorem intercalate_cons_append (sep : Str) (c : Char) (u : Str) (us : List Str) :
    sep.intercalate ((c :: u) :: us) = c :: sep.intercalate (u :: us) := by
  cases us with
  | nil => simp [List.intercalate]
  | cons b us => simp [List.intercalate]

theorem replaceFuel_replaced {old new : Str} (ho : old ≠ []) (fuel : Nat) : ∀ s : Str, s.length < fuel →
    Replaced old new s (replaceFuel old new fuel s) := by
  induction fuel with
  | zero => intro s h; omega
  | succ fuel ih =>
    intro s hs
    cases s with
    | nil =>
      refine ⟨[[]], by simp, by simp [List.intercalate], by simp [replaceFuel, List.intercalate], ?_⟩
      simpa using ho
    | cons c s =>
      simp only [replaceFuel]
      split
      · rename_i hp
        obtain ⟨s', hs'⟩ := List.isPrefixOf_iff_prefix.1 hp
        have hd : (c :: s).drop old.length = s' := by rw [← hs']; simp
        have hl : s'.length < fuel := by
          have h1 := congrArg List.length hs'
          have h2 := List.length_pos_iff.2 ho
          simp only [List.length_append, List.length_cons] at h1 hs
          omega
        obtain ⟨us, hne, h1, h2, h3⟩ := ih s' hl
        rw [hd]
        refine ⟨[] :: us, by simp, ?_, ?_, ?_⟩
        · rw [intercalate_cons_cons _ _ hne, ← h1, ← hs']; rfl
        · rw [intercalate_cons_cons _ _ hne, ← h2]; rfl
        · intro u hu
          rcases List.mem_cons.1 hu with rfl | hu
          · simpa using ho
          · exact h3 u hu
      · rename_i hp
        obtain ⟨us, hne, h1, h2, h3⟩ := ih s (by simp at hs; omega)
        cases us with
        | nil => exact absurd rfl hne
        | cons u us =>
          refine ⟨(c :: u) :: us, by simp, ?_, ?_, ?_⟩
          · rw [intercalate_cons_append, ← h1]
          · rw [intercalate_cons_append, ← h2]
          · intro v hv
            rcases List.mem_cons.1 hv with rfl | hv
            · rw [List.infix_cons_iff]
              rintro (h | h)
              · apply hp
                rw [List.isPrefixOf_iff_prefix]
                refine h.trans ?_
                rw [h1]
                cases us with
                | nil => simp [List.intercalate]
                | cons w us =>
                  rw [intercalate_cons_cons _ _ (by simp), List.append_assoc]
                  exact ⟨_, by rw [List.cons_append]⟩
              · exact h3 u (by simp) h
            · exact h3 v (List.mem_cons_of_mem _ hv)

theorem replaceAll_replaced {old new : Str} (ho : old ≠ []) (s : Str) : Replaced old new s (replaceAll old new s) :=
  replaceFuel_replaced ho _ s (by omega)

/-- A text without a certain character is a part of one of the sides. -/
theorem infix_append_sep {x a b sep : Str} (hsep : sep ≠ []) (hx : ∀ c ∈ x, c ∉ sep) (h : x <:+: a ++ sep ++ b) : x <:+: a ∨ x <:+: b := by
  obtain ⟨l, r, h⟩ := h
  cases sep with
  | nil => exact absurd rfl hsep
  | cons c sep =>
    rw [List.append_assoc, List.append_assoc] at h
    rcases List.append_eq_append_iff.1 h with ⟨a', h1, h2⟩ | ⟨c', h1, h2⟩
    · -- a = l ++ a'
      rcases List.append_eq_append_iff.1 h2 with ⟨b', h3, h4⟩ | ⟨d', h3, h4⟩
      · left; exact ⟨l, b', by rw [h1, h3, List.append_assoc]⟩
      · cases d' with
        | nil => left; exact ⟨l, [], by rw [h1, h3]; simp⟩
        | cons y d' =>
          simp only [List.cons_append, List.cons.injEq] at h4
          exact absurd (by simp [h4.1]) (hx y (by rw [h3]; simp))
    · -- l = a ++ c'
      cases c' with
      | nil =>
        simp only [List.nil_append] at h2
        cases x with
        | nil => left; exact List.nil_infix
        | cons y x =>
          simp only [List.cons_append, List.cons.injEq] at h2
          exact absurd (by simp [h2.1]) (hx y (by simp))
      | cons y c' =>
        -- sep begins inside the left context, x lies behind its first character
        rcases List.append_eq_append_iff.1 h2 with ⟨e, h3, h4⟩ | ⟨e, h3, h4⟩
        · right
          -- (y :: c') = (c :: sep) ++ e ... or the other way round
          exact ⟨e, r, by rw [h4, List.append_assoc]⟩
        · -- c :: sep = (y :: c') ++ e
          rcases List.append_eq_append_iff.1 h4 with ⟨f, h5, h6⟩ | ⟨f, h5, h6⟩
          · cases x with
            | nil => left; exact List.nil_infix
            | cons z x =>
              cases e with
              | nil => right; simp only [List.nil_append] at h4; exact ⟨[], r, by rw [← h4]; simp⟩
              | cons w e =>
                simp only [List.cons_append, List.cons.injEq] at h4
                exact absurd (by rw [h3, ← h4.1]; simp) (hx z (by simp))
          · cases e with
            | nil => right; simp only [List.nil_append] at h4; exact ⟨[], r, by rw [← h4]; simp⟩
            | cons w e =>
              cases x with
              | nil => left; exact List.nil_infix
              | cons z x =>
                simp only [List.cons_append, List.cons.injEq] at h4
                exact absurd (by rw [h3, ← h4.1]; simp) (hx z (by simp))

theorem infix_intercalate {x sep : Str} (hsep : sep ≠ []) (hxne : x ≠ []) (hx : ∀ c ∈ x, c ∉ sep) {us : List Str}
    (h : x <:+: sep.intercalate us) : ∃ u ∈ us, x <:+: u := by
  induction us with
  | nil => simp [List.intercalate] at h; exact absurd h hxne
  | cons u us ih =>
    cases us with
    | nil => exact ⟨u, by simp, by simpa [List.intercalate] using h⟩
    | cons v us =>
      rw [intercalate_cons_cons _ _ (by simp)] at h
      rcases infix_append_sep hsep hx h with h | h
      · exact ⟨u, by simp, h⟩
      · obtain ⟨w, hw, h⟩ := ih h
        exact ⟨w, List.mem_cons_of_mem _ hw, h⟩

theorem infix_of_mem_intercalate {sep : Str} {us : List Str} {u : Str} (h : u ∈ us) : u <:+: sep.intercalate us := by
  induction us with
  | nil => simp at h
  | cons v us ih =>
    rcases List.mem_cons.1 h with rfl | h
    · cases us with
      | nil => simp [List.intercalate]
      | cons w us => rw [intercalate_cons_cons _ _ (by simp), List.append_assoc]; exact ⟨[], _, rfl⟩
    · have hne : us ≠ [] := by rintro rfl; simp at h
      rw [intercalate_cons_cons _ _ hne]
      exact (ih h).trans ⟨v ++ sep, [], by simp⟩

theorem replaced_self {old new s : Str} (h : ¬ old <:+: s) : Replaced old new s s :=
  ⟨[s], by simp, by simp [List.intercalate], by simp [List.intercalate], by simpa using h⟩

theorem template_not_number (v : Int) : ∀ c ∈ "{print_bed_temperature}".toList ++ "{print_temperature}".toList, c ∉ formatInt v := by
  have h : ∀ c ∈ "{print_bed_temperature}".toList ++ "{print_temperature}".toList, c ≠ '-' ∧ (c.toNat < 48 ∨ 57 < c.toNat) := by decide
  intro c hc
  exact not_mem_formatInt v (h c hc).1 (h c hc).2

theorem formatInt_nonempty (v : Int) : formatInt v ≠ [] := by
  intro h
  have := number_formatInt v
  rw [h] at this
  simp [number, unsigned, split] at this

/-- **C35** A start G-code line is written with all occurrences of the first placeholder replaced by the initial bed temperature, and in the
result all occurrences of the second one by the initial hot end temperature; nothing else changes. -/
theorem C35_replaced (o : Options) (s : Str) : ∃ mid,
    Replaced "{print_bed_temperature}".toList (formatInt o.filament.initialBedTemperature) s mid ∧
    Replaced "{print_temperature}".toList (formatInt o.filament.initialHotEndTemperature) mid (fillTemplates o s) := by
  unfold fillTemplates
  have step : ∀ (old new s : Str), old ≠ [] → Replaced old new s (if contains s old = true then replaceAll old new s else s) := by
    intro old new s ho
    split
    · exact replaceAll_replaced ho s
    · rename_i h
      rw [contains_iff] at h
      exact replaced_self h
  exact ⟨_, step _ _ s (by decide), step _ _ _ (by decide)⟩

/-- **C35** No placeholder remains. -/
theorem C35_none_left (o : Options) (s : Str) :
    ¬ "{print_bed_temperature}".toList <:+: fillTemplates o s ∧ ¬ "{print_temperature}".toList <:+: fillTemplates o s := by
  obtain ⟨mid, ⟨us, -, -, h2, h3⟩, ⟨vs, -, h5, h6, h7⟩⟩ := C35_replaced o s
  have hb : ¬ "{print_bed_temperature}".toList <:+: mid := by
    intro h
    rw [h2] at h
    obtain ⟨u, hu, h⟩ := infix_intercalate (formatInt_nonempty _) (by decide)
      (fun c hc => template_not_number _ c (List.mem_append_left _ hc)) h
    exact h3 u hu h
  constructor
  · intro h
    rw [h6] at h
    obtain ⟨v, hv, h⟩ := infix_intercalate (formatInt_nonempty _) (by decide)
      (fun c hc => template_not_number _ c (List.mem_append_left _ hc)) h
    exact hb (h5 ▸ h.trans (infix_of_mem_intercalate hv))
  · intro h
    rw [h6] at h
    obtain ⟨v, hv, h⟩ := infix_intercalate (formatInt_nonempty _) (by decide)
      (fun c hc => template_not_number _ c (List.mem_append_right _ hc)) h
    exact h7 v hv h

/-- **C35** Replacing the bed placeholder cannot create a hot end placeholder: each one of the result lies in the text between. -/
theorem C35_no_new_placeholder (v : Int) (s mid : Str) (h : Replaced "{print_bed_temperature}".toList (formatInt v) s mid)
    (hs : ¬ "{print_temperature}".toList <:+: s) : ¬ "{print_temperature}".toList <:+: mid := by
  obtain ⟨us, -, h1, h2, -⟩ := h
  intro h
  rw [h2] at h
  obtain ⟨u, hu, h⟩ := infix_intercalate (formatInt_nonempty _) (by decide)
    (fun c hc => template_not_number _ c (List.mem_append_right _ hc)) h
  exact hs (h1 ▸ h.trans (infix_of_mem_intercalate hu))

example : fillTemplates {} "M190 S{print_bed_temperature} T{print_temperature}{print_temperature}".toList = "M190 S60 T205205".toList := by
  decide +kernel

/-! ## C36 -/

/-- The calls that draw one contour group of a perimeter. -/
def drawWall (o : Options) (layer : Layer) (z : Int) (outer : Bool) (p : LayerPart) : List Call :=
  [.comment (if outer then "TYPE:WALL-OUTER".toList else "TYPE:WALL-INNER".toList),
   .setExtrudeSpeed (if outer then o.print.outerPerimeterSpeed else o.print.layerSpeed)] ++
  (p.holes ++ [p.outline]).map fun contour => .polygon (some layer.parts) contour z false

theorem insetPartCalls_eq (o : Options) (l : Layer) (z : Int) (k : Nat) (p : LayerPart) :
    insetPartCalls o l z k p = drawWall o l z (decide (k = 0)) p := by
  unfold insetPartCalls drawWall
  by_cases h : k = 0 <;> simp [h]

theorem perimeterPart_eq (o : Options) (l : Layer) (z : Int) (first : List LayerPart) (others : List (List LayerPart)) :
    perimeterPartCalls o l z (first :: others) =
      others.flatMap (fun inset => inset.flatMap (drawWall o l z false)) ++ first.flatMap (drawWall o l z true) := by
  unfold perimeterPartCalls
  have hlen : (first :: others).length = others.length + 1 := rfl
  rw [hlen, List.range_succ, List.flatMap_append]
  congr 1
  · rw [show others.flatMap (fun inset => inset.flatMap (drawWall o l z false)) =
        (List.range others.length).flatMap (fun k => (others.getD k []).flatMap (drawWall o l z false)) from ?_]
    · apply List.flatMap_congr
      intro k hk
      rw [List.mem_range] at hk
      have : insetOrder (others.length + 1) k = k + 1 := by unfold insetOrder; rw [if_neg (by omega)]
      rw [this, show insetPartCalls o l z (k + 1) = drawWall o l z false from funext fun p => insetPartCalls_eq o l z (k + 1) p]
      simp
    · rw [List.flatMap_def, List.flatMap_def]
      congr 1
      apply List.ext_getElem
      · simp
      · intro i h1 h2
        simp at h1
        simp [List.getD, h1]
  · have : insetOrder (others.length + 1) others.length = 0 := by unfold insetOrder; rw [if_pos (by omega)]
    have e : insetPartCalls o l z 0 = drawWall o l z true := funext fun p => insetPartCalls_eq o l z 0 p
    simp [this, e]

/-- **C36** The perimeters of a layer are drawn part by part; in each part the inner insets come first, in order, then the outer perimeter
(inset 0), which alone uses the speed for outer perimeters. In each piece the holes are drawn before the outline. -/
theorem C36_order (o : Options) (n : Nat) (m : Int) (l : Layer) (z : Int) (ps : OffsetResult) (h : l.perimeters = .ok ps) :
    perimeterRenderer o n m l z = ⟨ps.flatMap fun part =>
      (part.drop 1).flatMap (fun inset => inset.flatMap (drawWall o l z false)) ++
      (part.take 1).flatMap (fun inset => inset.flatMap (drawWall o l z true)), none⟩ := by
  unfold perimeterRenderer
  rw [h]
  simp only [Script.mk.injEq, and_true]
  apply List.flatMap_congr
  intro part _
  cases part with
  | nil => rfl
  | cons first others => rw [perimeterPart_eq]; simp

/-- The polygon drawn by a call. -/
def polygon? : Call → Option Path
  | .polygon _ p _ _ => some p
  | _ => none

/-- The polygons drawn by calls. -/
def drawnPolygons (cs : List Call) : List Path := cs.filterMap polygon?

theorem drawnPolygons_append (a b : List Call) : drawnPolygons (a ++ b) = drawnPolygons a ++ drawnPolygons b := by simp [drawnPolygons]

theorem drawnPolygons_flatMap {α : Type} (xs : List α) (f : α → List Call) : drawnPolygons (xs.flatMap f) = xs.flatMap fun x => drawnPolygons (f x) := by
  simp [drawnPolygons, List.filterMap_flatMap]

theorem drawnPolygons_wall (o : Options) (l : Layer) (z : Int) (b : Bool) (p : LayerPart) : drawnPolygons (drawWall o l z b p) = p.holes ++ [p.outline] := by
  have : ∀ ps : List Path, (ps.map fun contour => Call.polygon (some l.parts) contour z false).filterMap polygon? = ps := by
    intro ps
    induction ps with
    | nil => rfl
    | cons q ps ih => rw [List.map_cons, List.filterMap_cons, ih]; rfl
  rw [drawWall, drawnPolygons, List.filterMap_append, this]
  rfl

/-- **C36** Every contour of every inset is drawn exactly once. -/
theorem C36_each_once (o : Options) (n : Nat) (m : Int) (l : Layer) (z : Int) (ps : OffsetResult) (h : l.perimeters = .ok ps) :
    (drawnPolygons (perimeterRenderer o n m l z).calls).Perm (ps.flatten.flatten.flatMap fun p => p.holes ++ [p.outline]) := by
  rw [C36_order o n m l z ps h]
  simp only [drawnPolygons_flatMap, drawnPolygons_append, drawnPolygons_wall]
  clear h
  induction ps with
  | nil => simp
  | cons part ps ih =>
    rw [List.flatMap_cons, List.flatten_cons, List.flatten_append, List.flatMap_append]
    refine List.Perm.append ?_ ih
    cases part with
    | nil => simp
    | cons first others =>
      simp only [List.drop_succ_cons, List.drop_zero, List.take_succ_cons, List.take_zero, List.flatMap_cons, List.flatMap_nil, List.append_nil,
        List.flatten_cons, List.flatMap_append]
      refine List.perm_append_comm.trans (List.Perm.append_left _ ?_)
      rw [List.flatten_eq_flatMap, List.flatMap_assoc]
      rfl

example : (perimeterRenderer {} 0 0 ⟨[], some (AttrMap.insert (fun _ => none) "perimeters" (.offsetResult
    [[[⟨[⟨0, 0⟩], []⟩], [⟨[⟨1, 1⟩], [[⟨2, 2⟩]]⟩]]]))⟩ 200).calls =
    [.comment "TYPE:WALL-INNER".toList, .setExtrudeSpeed 60, .polygon (some []) [⟨2, 2⟩] 200 false, .polygon (some []) [⟨1, 1⟩] 200 false,
     .comment "TYPE:WALL-OUTER".toList, .setExtrudeSpeed 40, .polygon (some []) [⟨0, 0⟩] 200 false] := by
  rw [C36_order _ _ _ _ _ [[[⟨[⟨0, 0⟩], []⟩], [⟨[⟨1, 1⟩], [[⟨2, 2⟩]]⟩]]] (by rfl)]
  rfl

end Verif
