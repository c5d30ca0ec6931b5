import Verif.Props.Modifiers
import Verif.Props.Region
import Verif.Spec.Areas

/-! # Areas of the infill (C62, C63, C83) -/
namespace Verif
open Verif.Go Verif.Model Verif.Spec

variable {X : Type} (inside : List IntPoint → Set X)

theorem orErr_ok {α : Type} {msg : String} {x : Option α} {a : α} (h : orErr msg x = .ok a) : x = some a := by
  cases x with
  | none => cases h
  | some b => simp only [orErr, Except.ok.injEq] at h; rw [h]

theorem unionIfNeeded_region {lib : ClipperLib} (hl : Exact inside lib) {msg : String} {acc parts r : List LayerPart}
    (h : unionIfNeeded lib msg acc parts = .ok r) (x : X) :
    x ∈ region inside r ↔ x ∈ region inside acc ∨ x ∈ region inside parts := by
  unfold unionIfNeeded at h
  split at h
  · next hz =>
    cases h
    rw [List.length_eq_zero_iff.1 hz]
    simp
  · exact C84_union inside hl (orErr_ok h) x

theorem bottomLoop_region {lib : ClipperLib} (hl : Exact inside lib) (layers : List Layer) (layerNr : Nat) (part : LayerPart) (n i : Nat)
    (acc r : List LayerPart) (h : bottomLoop lib layers layerNr part n i acc = .ok r) (x : X) :
    x ∈ region inside r ↔ x ∈ region inside acc ∨ x ∈ region inside [part] ∧ ∃ j, i ≤ j ∧ j < i + n ∧ (j = layerNr ∨
      ∃ below, j + 1 ≤ layerNr ∧ layers[layerNr - 1 - j]? = some below ∧ x ∉ region inside below.parts) := by
  induction n generalizing i acc with
  | zero =>
    cases h
    constructor
    · exact Or.inl
    · rintro (h | ⟨_, j, h1, h2, _⟩)
      · exact h
      · omega
  | succ n ih =>
    unfold bottomLoop at h
    split at h
    · next hi =>
      obtain ⟨acc', h1, h2⟩ := bind_ok.1 h
      rw [ih _ _ h2, unionIfNeeded_region inside hl h1]
      constructor
      · rintro ((h | h) | ⟨h, j, hj⟩)
        · exact Or.inl h
        · exact Or.inr ⟨h, i, le_rfl, by omega, Or.inl hi.symm⟩
        · exact Or.inr ⟨h, j, by omega, by omega, hj.2.2⟩
      · rintro (h | ⟨h, j, hj⟩)
        · exact Or.inl (Or.inl h)
        · exact Or.inl (Or.inr h)
    · split at h
      · cases h
        constructor
        · exact Or.inl
        · rintro (h | ⟨_, j, h1, h2, h | ⟨b, h, _⟩⟩)
          · exact h
          · omega
          · omega
      · obtain ⟨below, hb, h⟩ := bind_ok.1 h
        obtain ⟨parts, hp, h⟩ := bind_ok.1 h
        obtain ⟨acc', h1, h2⟩ := bind_ok.1 h
        have hb := (index_ok hb).2
        have e : ((layerNr : Int) - 1 - i).toNat = layerNr - 1 - i := by omega
        rw [e] at hb
        rw [ih _ _ h2, unionIfNeeded_region inside hl h1, C84_difference inside hl (orErr_ok hp)]
        constructor
        · rintro ((h | h) | ⟨h, j, hj⟩)
          · exact Or.inl h
          · exact Or.inr ⟨h.1, i, le_rfl, by omega, Or.inr ⟨below, by omega, hb, h.2⟩⟩
          · exact Or.inr ⟨h, j, by omega, by omega, hj.2.2⟩
        · rintro (h | ⟨hx, j, h1, h2, h3⟩)
          · exact Or.inl (Or.inl h)
          · by_cases hij : j = i
            · subst hij
              rcases h3 with h3 | ⟨b, h3, h4, h5⟩
              · omega
              · rw [hb] at h4
                cases h4
                exact Or.inl (Or.inr ⟨hx, h5⟩)
            · exact Or.inr ⟨hx, j, by omega, by omega, h3⟩

/-- C63: bottom area. -/
theorem C63_bottom {lib : ClipperLib} (hl : Exact inside lib) (layers : List Layer) (layerNr n : Nat) (part : LayerPart)
    (r : List LayerPart) (h : bottomLoop lib layers layerNr part n 0 [] = .ok r) :
    region inside r = bottomArea inside layers layerNr n part := by
  ext x
  rw [bottomLoop_region inside hl layers layerNr part n 0 [] r h]
  simp [bottomArea]

theorem topLoop_region {lib : ClipperLib} (hl : Exact inside lib) (layers : List Layer) (layerNr : Nat) (part : LayerPart) (n i : Nat)
    (acc r : List LayerPart) (h : topLoop lib layers layerNr part n i acc = .ok r) (x : X) :
    x ∈ region inside r ↔ x ∈ region inside acc ∨ x ∈ region inside [part] ∧ ∃ j, i ≤ j ∧ j < i + n ∧ (layerNr + j + 1 = layers.length ∨
      ∃ above, layers[layerNr + 1 + j]? = some above ∧ x ∉ region inside above.parts) := by
  induction n generalizing i acc with
  | zero =>
    cases h
    constructor
    · exact Or.inl
    · rintro (h | ⟨_, j, h1, h2, _⟩)
      · exact h
      · omega
  | succ n ih =>
    unfold topLoop at h
    split at h
    · next hi =>
      obtain ⟨acc', h1, h2⟩ := bind_ok.1 h
      rw [ih _ _ h2, unionIfNeeded_region inside hl h1]
      constructor
      · rintro ((h | h) | ⟨h, j, hj⟩)
        · exact Or.inl h
        · exact Or.inr ⟨h, i, le_rfl, by omega, Or.inl (by omega)⟩
        · exact Or.inr ⟨h, j, by omega, by omega, hj.2.2⟩
      · rintro (h | ⟨h, j, hj⟩)
        · exact Or.inl (Or.inl h)
        · exact Or.inl (Or.inr h)
    · next hne =>
      split at h
      · next hge =>
        cases h
        constructor
        · exact Or.inl
        · rintro (h | ⟨_, j, h1, h2, h | ⟨b, h, _⟩⟩)
          · exact h
          · omega
          · rw [List.getElem?_eq_none (by omega)] at h
            cases h
      · obtain ⟨above, hb, h⟩ := bind_ok.1 h
        obtain ⟨parts, hp, h⟩ := bind_ok.1 h
        obtain ⟨acc', h1, h2⟩ := bind_ok.1 h
        have hb := (index_ok hb).2
        have e : ((layerNr : Int) + 1 + i).toNat = layerNr + 1 + i := by omega
        rw [e] at hb
        rw [ih _ _ h2, unionIfNeeded_region inside hl h1, C84_difference inside hl (orErr_ok hp)]
        constructor
        · rintro ((h | h) | ⟨h, j, hj⟩)
          · exact Or.inl h
          · exact Or.inr ⟨h.1, i, le_rfl, by omega, Or.inr ⟨above, hb, h.2⟩⟩
          · exact Or.inr ⟨h, j, by omega, by omega, hj.2.2⟩
        · rintro (h | ⟨hx, j, h1, h2, h3⟩)
          · exact Or.inl (Or.inl h)
          · by_cases hij : j = i
            · subst hij
              rcases h3 with h3 | ⟨b, h4, h5⟩
              · omega
              · rw [hb] at h4
                cases h4
                exact Or.inl (Or.inr ⟨hx, h5⟩)
            · exact Or.inr ⟨hx, j, by omega, by omega, h3⟩

/-- C63: top area. -/
theorem C63_top {lib : ClipperLib} (hl : Exact inside lib) (layers : List Layer) (layerNr n : Nat) (part : LayerPart)
    (r : List LayerPart) (h : topLoop lib layers layerNr part n 0 [] = .ok r) :
    region inside r = topArea inside layers layerNr n part := by
  ext x
  rw [topLoop_region inside hl layers layerNr part n 0 [] r h]
  simp [topArea]

/-! ## From the areas to the infill of the layer -/

/-- The parts of an area, each enlarged for the internal overlap. -/
def enlarged (lib : ClipperLib) (o : Options) (area : List LayerPart) : List LayerPart :=
  area.flatMap fun part => calculateOverlapPerimeter lib part
    (o.print.infillOverlapPercent + o.print.additionalInternalInfillOverlapPercent) o.printer.extrusionWidth

theorem addInfill_region {lib : ClipperLib} (hl : Exact inside lib) (o : Options) (overlapping : Res (List LayerPart))
    (area infill r : List LayerPart) (h : addInfill lib o overlapping area infill = .ok r) (x : X) :
    x ∈ region inside r ↔ x ∈ region inside infill ∨
      ∃ border, overlapping = .ok border ∧ x ∈ region inside (enlarged lib o area) ∧ x ∈ region inside border := by
  unfold addInfill at h
  simp only [] at h
  split at h
  · next he =>
    cases h
    have : enlarged lib o area = [] := he
    simp [this]
  · simp only [bind_ok] at h
    obtain ⟨border, h1, clipped, h2, h3⟩ := h
    rw [C84_union inside hl (orErr_ok h3), C84_intersection inside hl (orErr_ok h2)]
    constructor
    · rintro (h | h)
      · exact Or.inl h
      · exact Or.inr ⟨border, h1, h⟩
    · rintro (h | ⟨b, hb, h⟩)
      · exact Or.inl h
      · rw [h1] at hb
        cases hb
        exact Or.inr h

/-- The parts which the loop for the bottom leaves (empty if it fails). -/
def bottomParts (lib : ClipperLib) (o : Options) (layers : List Layer) (layerNr : Nat) (part : LayerPart) : List LayerPart :=
  match bottomLoop lib layers layerNr part o.print.numberBottomLayers.toNat 0 [] with
  | .ok r => r
  | .error _ => []

/-- The parts which the loop for the top leaves (empty if it fails). -/
def topParts (lib : ClipperLib) (o : Options) (layers : List Layer) (layerNr : Nat) (part : LayerPart) : List LayerPart :=
  match topLoop lib layers layerNr part o.print.numberTopLayers.toNat 0 [] with
  | .ok r => r
  | .error _ => []

/-- Both loops succeed for a part. -/
def LoopsOk (lib : ClipperLib) (o : Options) (layers : List Layer) (layerNr : Nat) (part : LayerPart) : Prop :=
  bottomLoop lib layers layerNr part o.print.numberBottomLayers.toNat 0 [] = .ok (bottomParts lib o layers layerNr part) ∧
  topLoop lib layers layerNr part o.print.numberTopLayers.toNat 0 [] = .ok (topParts lib o layers layerNr part)

theorem infillPart_region {lib : ClipperLib} (hl : Exact inside lib) (o : Options) (layers : List Layer) (layerNr : Nat)
    (ov : List (List LayerPart)) (nr : Nat) (infill r : List LayerPart × List LayerPart) (part : LayerPart)
    (h : infillPart lib o layers layerNr ov nr infill part = .ok r) :
    LoopsOk lib o layers layerNr part ∧
    (∀ x, x ∈ region inside r.1 ↔ x ∈ region inside infill.1 ∨ ∃ border, ov[nr]? = some border ∧
      x ∈ region inside (enlarged lib o (bottomParts lib o layers layerNr part)) ∧ x ∈ region inside border) ∧
    (∀ x, x ∈ region inside r.2 ↔ x ∈ region inside infill.2 ∨ ∃ border, ov[nr]? = some border ∧
      x ∈ region inside (enlarged lib o (topParts lib o layers layerNr part)) ∧ x ∈ region inside border) := by
  simp only [infillPart, bind_ok, pure, Except.pure, Except.ok.injEq] at h
  obtain ⟨bp, h1, tp, h2, b, h3, t, h4, rfl⟩ := h
  have e1 : bottomParts lib o layers layerNr part = bp := by simp only [bottomParts, h1]
  have e2 : topParts lib o layers layerNr part = tp := by simp only [topParts, h2]
  have hi : ∀ border, index ov (nr : Int) = .ok border ↔ ov[nr]? = some border := by
    intro border
    unfold index
    rw [if_pos (by omega)]
    simp only [Int.toNat_natCast]
    cases ov[nr]? <;> simp
  refine ⟨⟨by rw [e1, h1], by rw [e2, h2]⟩, fun x => ?_, fun x => ?_⟩
  · rw [addInfill_region inside hl o _ _ _ _ h3, e1]
    simp only [hi]
  · rw [addInfill_region inside hl o _ _ _ _ h4, e2]
    simp only [hi]

theorem infillFold_region {lib : ClipperLib} (hl : Exact inside lib) (o : Options) (layers : List Layer) (layerNr : Nat)
    (ov : List (List LayerPart)) (nr : Nat) (parts : List LayerPart) (infill r : List LayerPart × List LayerPart)
    (h : parts.foldlM (infillPart lib o layers layerNr ov nr) infill = .ok r) :
    (∀ part ∈ parts, LoopsOk lib o layers layerNr part) ∧
    (∀ x, x ∈ region inside r.1 ↔ x ∈ region inside infill.1 ∨ ∃ part ∈ parts, ∃ border, ov[nr]? = some border ∧
      x ∈ region inside (enlarged lib o (bottomParts lib o layers layerNr part)) ∧ x ∈ region inside border) ∧
    (∀ x, x ∈ region inside r.2 ↔ x ∈ region inside infill.2 ∨ ∃ part ∈ parts, ∃ border, ov[nr]? = some border ∧
      x ∈ region inside (enlarged lib o (topParts lib o layers layerNr part)) ∧ x ∈ region inside border) := by
  induction parts generalizing infill with
  | nil =>
    simp only [List.foldlM_nil, pure, Except.pure, Except.ok.injEq] at h
    subst h
    simp
  | cons p ps ih =>
    simp only [List.foldlM_cons, bind_ok] at h
    obtain ⟨i', h1, h2⟩ := h
    obtain ⟨a1, a2, a3⟩ := infillPart_region inside hl o layers layerNr ov nr _ _ _ h1
    obtain ⟨b1, b2, b3⟩ := ih _ h2
    refine ⟨?_, fun x => ?_, fun x => ?_⟩
    · intro part hp
      rcases List.mem_cons.1 hp with rfl | hp
      · exact a1
      · exact b1 part hp
    · rw [b2, a2]
      simp only [List.mem_cons, exists_eq_or_imp, or_assoc]
    · rw [b3, a3]
      simp only [List.mem_cons, exists_eq_or_imp, or_assoc]

theorem infillParts_region {lib : ClipperLib} (hl : Exact inside lib) (o : Options) (layers : List Layer) (layerNr : Nat)
    (ov : List (List LayerPart)) (nr : Nat) (pe : OffsetResult) (infill r : List LayerPart × List LayerPart)
    (h : infillParts lib o layers layerNr ov nr pe infill = .ok r) :
    (∀ walls ∈ pe, ∀ part ∈ walls.getLastD [], LoopsOk lib o layers layerNr part) ∧
    (∀ x, x ∈ region inside r.1 ↔ x ∈ region inside infill.1 ∨ ∃ (k : Nat) (walls : List (List LayerPart)), pe[k]? = some walls ∧
      ∃ part ∈ walls.getLastD [], ∃ border, ov[nr + k]? = some border ∧
      x ∈ region inside (enlarged lib o (bottomParts lib o layers layerNr part)) ∧ x ∈ region inside border) ∧
    (∀ x, x ∈ region inside r.2 ↔ x ∈ region inside infill.2 ∨ ∃ (k : Nat) (walls : List (List LayerPart)), pe[k]? = some walls ∧
      ∃ part ∈ walls.getLastD [], ∃ border, ov[nr + k]? = some border ∧
      x ∈ region inside (enlarged lib o (topParts lib o layers layerNr part)) ∧ x ∈ region inside border) := by
  induction pe generalizing nr infill with
  | nil =>
    simp only [infillParts, Except.ok.injEq] at h
    subst h
    simp
  | cons w ws ih =>
    simp only [infillParts, bind_ok] at h
    obtain ⟨inner, hin, i', h1, h2⟩ := h
    have hin : w.getLastD [] = inner := by
      have := index_ok hin
      rw [List.getLastD_eq_getLast?, List.getLast?_eq_getElem?]
      have e : ((w.length : Int) - 1).toNat = w.length - 1 := by omega
      rw [e] at this
      rw [this.2]
      rfl
    obtain ⟨a1, a2, a3⟩ := infillFold_region inside hl o layers layerNr ov nr _ _ _ h1
    obtain ⟨b1, b2, b3⟩ := ih _ _ h2
    have step : ∀ (P : Nat → List (List LayerPart) → Prop), (∃ (k : Nat) (walls : List (List LayerPart)), (w :: ws)[k]? = some walls ∧ P k walls) ↔
        P 0 w ∨ ∃ (k : Nat) (walls : List (List LayerPart)), ws[k]? = some walls ∧ P (k + 1) walls := by
      intro P
      constructor
      · rintro ⟨k, walls, hk, hp⟩
        cases k with
        | zero =>
          simp only [List.getElem?_cons_zero, Option.some.injEq] at hk
          subst hk
          exact Or.inl hp
        | succ k => exact Or.inr ⟨k, walls, by simpa using hk, hp⟩
      · rintro (h | ⟨k, walls, hk, hp⟩)
        · exact ⟨0, w, rfl, h⟩
        · exact ⟨k + 1, walls, by simpa using hk, hp⟩
    have e : ∀ k, ov[nr + (k + 1)]? = ov[nr + 1 + k]? := fun k => by rw [Nat.add_right_comm, Nat.add_assoc]
    refine ⟨?_, fun x => ?_, fun x => ?_⟩
    · intro walls hw part hp
      rcases List.mem_cons.1 hw with rfl | hw
      · exact a1 part (hin ▸ hp)
      · exact b1 walls hw part hp
    · rw [b2, a2, step, hin]
      simp only [e, Nat.add_zero, or_assoc]
    · rw [b3, a3, step, hin]
      simp only [e, Nat.add_zero, or_assoc]

/-- The attributes of a layer after the infill modifier. -/
theorem infillLayer_region {lib : ClipperLib} (hl : Exact inside lib) (o : Options) (layers : List Layer) (layerNr : Nat) (l l' : Layer)
    (ov : List (List LayerPart)) (pe : OffsetResult) (hov : l.overlapPerimeters = .ok ov) (hpe : l.perimeters = .ok pe)
    (hb : l.attr "bottom" = none) (ht : l.attr "top" = none)
    (h : infillLayer lib o layers layerNr l = .ok (some l')) :
    (∀ walls ∈ pe, ∀ part ∈ walls.getLastD [], LoopsOk lib o layers layerNr part) ∧ ∃ bottom top,
    HasParts l' "bottom" bottom ∧ HasParts l' "top" top ∧
    (∀ x, x ∈ region inside bottom ↔ ∃ (k : Nat) (walls : List (List LayerPart)), pe[k]? = some walls ∧
      ∃ part ∈ walls.getLastD [], ∃ border, ov[k]? = some border ∧
      x ∈ region inside (enlarged lib o (bottomParts lib o layers layerNr part)) ∧ x ∈ region inside border) ∧
    (∀ x, x ∈ region inside top ↔ x ∉ region inside bottom ∧ ∃ (k : Nat) (walls : List (List LayerPart)), pe[k]? = some walls ∧
      ∃ part ∈ walls.getLastD [], ∃ border, ov[k]? = some border ∧
      x ∈ region inside (enlarged lib o (topParts lib o layers layerNr part)) ∧ x ∈ region inside border) := by
  simp only [infillLayer, bind_ok, pure, Except.pure, hov, hpe, Except.ok.injEq] at h
  obtain ⟨_, rfl, h⟩ := h
  split at h
  · simp at h
  obtain ⟨_, h', h⟩ := bind_ok.1 h
  cases h'
  split at h
  · simp at h
  simp only [bind_ok, Except.ok.injEq, Option.some.injEq] at h
  obtain ⟨inf, h1, top, h2, rfl⟩ := h
  obtain ⟨a1, a2, a3⟩ := infillParts_region inside hl o layers layerNr _ 0 _ _ _ h1
  simp only [region_nil, Set.mem_empty_iff_false, false_or, Nat.zero_add] at a2 a3
  refine ⟨a1, inf.1, top, ?_, ?_, a2, fun x => ?_⟩
  · unfold HasParts
    rw [attr_setParts (extended_setParts (extended_extend _) _ _), if_neg (by simp), attr_setParts (extended_extend _)]
    by_cases hz : inf.1 = []
    · simp [hz, hb]
    · simp [hz]
  · unfold HasParts
    rw [attr_setParts (extended_setParts (extended_extend _) _ _), attr_setParts (extended_extend _)]
    by_cases hz : top = []
    · simp [hz, ht]
    · simp [hz]
  · rw [← a3]
    unfold topWithoutBottom at h2
    split at h2
    · rw [C84_difference inside hl (orErr_ok h2)]
      exact and_comm
    · next hn =>
      cases h2
      by_cases hz : inf.2 = []
      · simp [hz]
      · have : inf.1 = [] := by
          by_contra hc
          exact hn ⟨List.length_pos_iff.2 hz, List.length_pos_iff.2 hc⟩
        simp [this]

/-! ## The whole print: perimeter, infill and internal infill modifiers -/

/-- The innermost perimeters of a part. -/
def innermost (lib : ClipperLib) (o : Options) (part : LayerPart) : List LayerPart :=
  (lib.inset part o.printer.extrusionWidth o.print.insetCount ((-o.printer.extrusionWidth).tdiv 2)).getLastD []

/-- The border of the infill of a part: its innermost perimeters, offset for the overlap. -/
def infillBorder (lib : ClipperLib) (o : Options) (part : LayerPart) : List LayerPart :=
  (innermost lib o part).flatMap fun p => calculateOverlapPerimeter lib p o.print.infillOverlapPercent o.printer.extrusionWidth

theorem bottomArea_same {ls ls' : List Layer} (h : ls'.map Layer.parts = ls.map Layer.parts) (j n : Nat) (p : LayerPart) :
    bottomArea inside ls' j n p = bottomArea inside ls j n p := by
  have key : ∀ (k : Nat) (x : X), (∃ below, ls'[k]? = some below ∧ x ∉ region inside below.parts) ↔
      ∃ below, ls[k]? = some below ∧ x ∉ region inside below.parts := by
    intro k x
    have := congrArg (fun l => l[k]?) h
    simp only [List.getElem?_map] at this
    cases h1 : ls'[k]? <;> cases h2 : ls[k]? <;> simp_all
  ext x
  simp only [bottomArea, Set.mem_ofPred_eq, exists_and_left, key]

theorem topArea_same {ls ls' : List Layer} (h : ls'.map Layer.parts = ls.map Layer.parts) (j n : Nat) (p : LayerPart) :
    topArea inside ls' j n p = topArea inside ls j n p := by
  have key : ∀ (k : Nat) (x : X), (∃ below, ls'[k]? = some below ∧ x ∉ region inside below.parts) ↔
      ∃ below, ls[k]? = some below ∧ x ∉ region inside below.parts := by
    intro k x
    have := congrArg (fun l => l[k]?) h
    simp only [List.getElem?_map] at this
    cases h1 : ls'[k]? <;> cases h2 : ls[k]? <;> simp_all
  have hlen : ls'.length = ls.length := by simpa using congrArg List.length h
  ext x
  simp only [topArea, Set.mem_ofPred_eq, key, hlen]

theorem sameLayers_parts {names : List String} {a b : List Layer} (h : SameLayersBut names a b) :
    b.map Layer.parts = a.map Layer.parts := by
  induction h with
  | nil => rfl
  | cons h _ ih => simp [ih, h.1]

theorem sameLayers_get {names : List String} {a b : List Layer} (h : SameLayersBut names a b) {k : Nat} {l : Layer} (hk : a[k]? = some l) :
    ∃ l', b[k]? = some l' ∧ SameBut names l l' := by
  induction h generalizing k with
  | nil => simp at hk
  | cons h _ ih =>
    cases k with
    | zero =>
      simp only [List.getElem?_cons_zero, Option.some.injEq] at hk
      subst hk
      exact ⟨_, rfl, h⟩
    | succ k => simpa using ih (by simpa using hk)

/-- C63: the bottom and top infill of a layer (if it and all layers below have parts). The areas which are a bottom or a top are computed for
each innermost perimeter, their parts are enlarged, and the result is clipped at the border of the infill. -/
theorem C63_infill {lib : ClipperLib} (hl : Exact inside lib) (o : Options) (hi : 1 ≤ o.print.insetCount) (ls ls1 ls2 : List Layer)
    (h1 : perimeterModifier lib o ls = .ok ls1) (h2 : infillModifier lib o ls1 = .ok ls2)
    (hno : ∀ l ∈ ls, l.attr "bottom" = none ∧ l.attr "top" = none) (j : Nat) (l : Layer) (hj : ls[j]? = some l)
    (hparts : ∀ (i : Nat) (m : Layer), i ≤ j → ls[i]? = some m → m.parts ≠ []) :
    ∃ l2 bottom top, ∃ bottomOf topOf : LayerPart → List LayerPart,
      ls2[j]? = some l2 ∧ HasParts l2 "bottom" bottom ∧ HasParts l2 "top" top ∧
      (∀ part ∈ l.parts, ∀ p ∈ innermost lib o part,
        region inside (bottomOf p) = bottomArea inside ls j o.print.numberBottomLayers.toNat p ∧
        region inside (topOf p) = topArea inside ls j o.print.numberTopLayers.toNat p) ∧
      (∀ x, x ∈ region inside bottom ↔ ∃ part ∈ l.parts, ∃ p ∈ innermost lib o part,
        x ∈ region inside (enlarged lib o (bottomOf p)) ∧ x ∈ region inside (infillBorder lib o part)) ∧
      (∀ x, x ∈ region inside top ↔ x ∉ region inside bottom ∧ ∃ part ∈ l.parts, ∃ p ∈ innermost lib o part,
        x ∈ region inside (enlarged lib o (topOf p)) ∧ x ∈ region inside (infillBorder lib o part)) := by
  have hs1 := C61_perimeter lib o _ _ h1
  have hlen : ls1.length = ls.length := hs1.length_eq.symm
  obtain ⟨l1, hl1, hsame⟩ := sameLayers_get hs1 hj
  have walls : ∀ (i : Nat) (m : Layer), 0 ≤ i → i ≤ j → ls1[i]? = some m → HasWalls m := by
    intro i m _ hij hm
    obtain ⟨l0, hl0, _, _, hp, hov⟩ := perimeterModifier_get lib o ls ls1 hi h1 i m hm
    have hne := hparts i l0 hij hl0
    have hne' : perimetersOf lib o l0.parts ≠ [] := by simpa [perimetersOf, ClipperLib.insetLayer] using hne
    exact ⟨_, _, hov, hp, by simpa using hne', hne'⟩
  obtain ⟨lsj, l2, hs2, hlay, hl2⟩ := infillLoop_get lib o _ 0 ls1 ls2 h2 (by omega) j l1 (by omega) hl1 walls
  obtain ⟨l0, hl0, _, _, hp, hov⟩ := perimeterModifier_get lib o ls ls1 hi h1 j l1 hl1
  have : l0 = l := by simpa [hj] using hl0.symm
  subst this
  have hnb := hno l0 (List.mem_of_getElem? hj)
  obtain ⟨hok, bottom, top, hb, ht, rb, rt⟩ := infillLayer_region inside hl o lsj j l1 l2 _ _ hov hp
    (by rw [hsame.2 _ (by decide), hnb.1]) (by rw [hsame.2 _ (by decide), hnb.2]) hlay
  have hparts' : lsj.map Layer.parts = ls.map Layer.parts := by rw [sameLayers_parts hs2, sameLayers_parts hs1]
  have conv : ∀ (P : LayerPart → List LayerPart → Prop),
      (∃ (k : Nat) (walls : List (List LayerPart)), (perimetersOf lib o l0.parts)[k]? = some walls ∧ ∃ part ∈ walls.getLastD [], ∃ border,
        ((perimetersOf lib o l0.parts).map fun part => (part.getLastD []).flatMap fun p =>
          calculateOverlapPerimeter lib p o.print.infillOverlapPercent o.printer.extrusionWidth)[k]? = some border ∧ P part border) ↔
      ∃ part ∈ l0.parts, ∃ p ∈ innermost lib o part, P p (infillBorder lib o part) := by
    intro P
    constructor
    · rintro ⟨k, walls, hk, p, hp, border, hb, hP⟩
      simp only [perimetersOf, ClipperLib.insetLayer, List.getElem?_map, Option.map_eq_some_iff] at hk hb
      obtain ⟨part, hpart, rfl⟩ := hk
      obtain ⟨_, ⟨_, hpart', rfl⟩, rfl⟩ := hb
      rw [hpart] at hpart'
      cases hpart'
      exact ⟨part, List.mem_of_getElem? hpart, p, hp, hP⟩
    · rintro ⟨part, hpart, p, hp, hP⟩
      obtain ⟨k, hk⟩ := List.mem_iff_getElem?.1 hpart
      refine ⟨k, _, ?_, p, hp, infillBorder lib o part, ?_, hP⟩
      · simp [perimetersOf, ClipperLib.insetLayer, hk]
      · simp only [perimetersOf, ClipperLib.insetLayer, List.getElem?_map, hk, Option.map_some]
        rfl
  refine ⟨l2, bottom, top, bottomParts lib o lsj j, topParts lib o lsj j, hl2, hb, ht, ?_, fun x => ?_, fun x => ?_⟩
  · intro part hpart p hp
    have := hok _ (List.mem_map_of_mem (f := fun part => lib.inset part o.printer.extrusionWidth o.print.insetCount
      ((-o.printer.extrusionWidth).tdiv 2)) hpart) p hp
    exact ⟨by rw [C63_bottom inside hl _ _ _ _ _ this.1, bottomArea_same inside hparts'],
      by rw [C63_top inside hl _ _ _ _ _ this.2, topArea_same inside hparts']⟩
  · rw [rb]
    exact conv fun q border => x ∈ region inside (enlarged lib o (bottomParts lib o lsj j q)) ∧ x ∈ region inside border
  · rw [rt]
    refine and_congr Iff.rfl ?_
    exact conv fun q border => x ∈ region inside (enlarged lib o (topParts lib o lsj j q)) ∧ x ∈ region inside border

/-- Membership for several lists of parts put together. -/
theorem flatten_region_congr (ls ms : List (List LayerPart)) (x : X)
    (h : List.Forall₂ (fun a b => x ∈ region inside a ↔ x ∈ region inside b) ls ms) :
    x ∈ region inside ls.flatten ↔ x ∈ region inside ms.flatten := by
  induction h with
  | nil => rfl
  | cons h _ ih => simp only [List.flatten_cons, mem_region_append, h, ih]

theorem flatten_region_none (ls : List (List LayerPart)) (x : X) (h : ∀ a ∈ ls, x ∉ region inside a) :
    x ∉ region inside ls.flatten := by
  induction ls with
  | nil => simp
  | cons a ls ih =>
    have h1 := h a List.mem_cons_self
    have h2 := ih fun b hb => h b (List.mem_cons_of_mem _ hb)
    simp only [List.flatten_cons, mem_region_append, h1, h2]
    tauto

theorem partsAttribute_of {l : Layer} {name : String} {ps : List LayerPart} (h : HasParts l name ps) : l.partsAttribute name = .ok ps := by
  rcases h with h | ⟨h, rfl⟩
  · exact (C68_parts _ _).1 _ h
  · exact (C68_parts _ _).2.1 h

theorem forall₂_right {α β : Type} {R : α → β → Prop} {l : List α} {m : List β} (h : List.Forall₂ R l m) {b : β} (hb : b ∈ m) :
    ∃ a, R a b := by
  induction h with
  | nil => simp at hb
  | cons h1 _ ih =>
    rcases List.mem_cons.1 hb with rfl | hb
    · exact ⟨_, h1⟩
    · exact ih hb

theorem internalLayer_region {lib : ClipperLib} (hl : Exact inside lib) (o : Options) (hp : o.print.infillPercent ≠ 0) (l l' : Layer)
    (hx : IsExtended l) (ov : List (List LayerPart)) (bottom top : List LayerPart) (hov : l.overlapPerimeters = .ok ov)
    (hb : HasParts l "bottom" bottom) (ht : HasParts l "top" top)
    (hd : ∀ x, ¬(x ∈ region inside bottom ∧ x ∈ region inside top)) (hno : l.attr "infill" = none)
    (h : internalLayer lib o l = .ok (some l')) :
    ∃ internal, HasParts l' "infill" internal ∧ ∀ x, x ∈ region inside internal ↔
      x ∈ region inside ov.flatten ∧ x ∉ region inside bottom ∧ x ∉ region inside top := by
  simp only [internalLayer, hov, partsAttribute_of hb, partsAttribute_of ht, bind_ok, pure, Except.pure, Except.ok.injEq] at h
  obtain ⟨_, rfl, h⟩ := h
  split at h
  · simp at h
  simp only [bind_ok, Except.ok.injEq, Option.some.injEq] at h
  obtain ⟨_, rfl, _, rfl, internal, hm, rfl⟩ := h
  have hm := mapM_ok.1 hm
  have hpart : ∀ (part r : List LayerPart), internalPart lib o bottom top part = .ok r → ∀ x, x ∈ region inside r ↔
      x ∈ region inside part ∧ x ∉ region inside bottom ∧ x ∉ region inside top := by
    intro part r hr x
    unfold internalPart at hr
    rw [if_neg hp] at hr
    split at hr
    · next he =>
      cases hr
      obtain ⟨rfl, rfl, rfl⟩ := he
      simp
    · rw [C84_difference inside hl (orErr_ok hr), mem_region_append_disjoint inside _ _ _ (hd x)]
      tauto
  refine ⟨internal.flatten, ?_, fun x => ?_⟩
  · unfold HasParts
    by_cases hz : internal.flatten = []
    · rw [hz]
      simp [hno]
    · rw [if_pos (List.length_pos_iff.2 hz), Layer.setShared, attr_set hx]
      simp
  · by_cases hbt : x ∈ region inside bottom ∨ x ∈ region inside top
    · have : x ∉ region inside internal.flatten := by
        apply flatten_region_none
        intro a ha
        obtain ⟨part, hpa⟩ := forall₂_right hm ha
        rw [hpart _ _ hpa]
        tauto
      tauto
    · rw [← flatten_region_congr inside _ internal x (hm.imp fun a b h => ?_)]
      · tauto
      · rw [hpart _ _ h]
        tauto

theorem internalInfill_get (lib : ClipperLib) (o : Options) (ls ls' : List Layer) (h : internalInfillModifier lib o ls = .ok ls') (j : Nat)
    (l : Layer) (hj : ls[j]? = some l) (hw : ∀ (i : Nat) (m : Layer), i ≤ j → ls[i]? = some m → m.overlapPerimeters ≠ .ok []) :
    ∃ l', internalLayer lib o l = .ok (some l') ∧ ls'[j]? = some l' := by
  induction ls generalizing ls' j with
  | nil => simp at hj
  | cons m ms ih =>
    simp only [internalInfillModifier, bind_ok] at h
    obtain ⟨new, hn, h⟩ := h
    cases new with
    | none =>
      exfalso
      have h0 := hw 0 m (by omega) rfl
      simp only [internalLayer, bind_ok, pure, Except.pure] at hn
      obtain ⟨ov, hov, hn⟩ := hn
      split at hn
      · next he => exact h0 (by rw [hov, he])
      · simp only [bind_ok] at hn
        obtain ⟨_, _, _, _, _, _, hn⟩ := hn
        cases hn
    | some new =>
      simp only [bind_ok, pure, Except.pure, Except.ok.injEq] at h
      obtain ⟨rest, hr, rfl⟩ := h
      cases j with
      | zero =>
        simp only [List.getElem?_cons_zero, Option.some.injEq] at hj
        subst hj
        exact ⟨new, hn, rfl⟩
      | succ j =>
        simpa using ih rest hr j (by simpa using hj) fun i m hi hm => hw (i + 1) m (by omega) (by simpa using hm)

theorem infillLayer_extended (lib : ClipperLib) (o : Options) (ls : List Layer) (k : Nat) (l l' : Layer)
    (h : infillLayer lib o ls k l = .ok (some l')) : IsExtended l' := by
  simp only [infillLayer, bind_ok, pure, Except.pure] at h
  obtain ⟨ov, _, h⟩ := h
  split at h
  · simp at h
  · obtain ⟨pe, _, h⟩ := bind_ok.1 h
    split at h
    · simp at h
    · obtain ⟨inf, _, h⟩ := bind_ok.1 h
      obtain ⟨top, _, h⟩ := bind_ok.1 h
      simp only [Except.ok.injEq, Option.some.injEq] at h
      subst h
      exact extended_setParts (extended_setParts (extended_extend _) _ _) _ _

/-- C62: bottom, top and internal infill of a layer: they are pairwise disjoint, bottom and top lie inside of the borders, and the internal
infill is exactly the rest of the area of the borders. -/
theorem C62_infill {lib : ClipperLib} (hl : Exact inside lib) (o : Options) (hi : 1 ≤ o.print.insetCount)
    (hp : o.print.infillPercent ≠ 0) (ls ls1 ls2 ls3 : List Layer)
    (h1 : perimeterModifier lib o ls = .ok ls1) (h2 : infillModifier lib o ls1 = .ok ls2) (h3 : internalInfillModifier lib o ls2 = .ok ls3)
    (hno : ∀ l ∈ ls, l.attr "bottom" = none ∧ l.attr "top" = none ∧ l.attr "infill" = none) (j : Nat) (l : Layer) (hj : ls[j]? = some l)
    (hparts : ∀ (i : Nat) (m : Layer), i ≤ j → ls[i]? = some m → m.parts ≠ []) :
    ∃ l3 bottom top internal, ls3[j]? = some l3 ∧ HasParts l3 "bottom" bottom ∧ HasParts l3 "top" top ∧ HasParts l3 "infill" internal ∧
      (∀ x, x ∈ region inside bottom → ∃ part ∈ l.parts, x ∈ region inside (infillBorder lib o part)) ∧
      (∀ x, x ∈ region inside top → x ∉ region inside bottom ∧ ∃ part ∈ l.parts, x ∈ region inside (infillBorder lib o part)) ∧
      (∀ x, x ∈ region inside internal ↔
        x ∈ region inside (l.parts.flatMap (infillBorder lib o)) ∧ x ∉ region inside bottom ∧ x ∉ region inside top) := by
  obtain ⟨l2, bottom, top, bO, tO, hl2, hb, ht, _, rb, rt⟩ := C63_infill inside hl o hi ls ls1 ls2 h1 h2
    (fun l hl => ⟨(hno l hl).1, (hno l hl).2.1⟩) j l hj hparts
  have hs1 := C61_perimeter lib o _ _ h1
  have hs2 := C61_infill lib o _ _ h2
  have hs3 := C61_internal lib o _ _ h3
  have hovs : ∀ (i : Nat) (m2 : Layer), ls2[i]? = some m2 → ∃ m, ls[i]? = some m ∧ m2.overlapPerimeters = .ok (m.parts.map (infillBorder lib o)) := by
    intro i m2 hm2
    have hlt : i < ls1.length := by
      rw [hs2.length_eq]
      by_contra hc
      rw [List.getElem?_eq_none (by omega)] at hm2
      cases hm2
    obtain ⟨m2', hm2', hsame⟩ := sameLayers_get hs2 (List.getElem?_eq_getElem hlt)
    rw [hm2] at hm2'
    cases hm2'
    obtain ⟨m, hm, _, _, _, hov⟩ := perimeterModifier_get lib o ls ls1 hi h1 i _ (List.getElem?_eq_getElem hlt)
    refine ⟨m, hm, ?_⟩
    have e : m2.overlapPerimeters = (ls1[i]).overlapPerimeters := by
      unfold Layer.overlapPerimeters
      rw [hsame.2 _ (by decide)]
    rw [e, hov]
    simp only [perimetersOf, ClipperLib.insetLayer, List.map_map]
    rfl
  obtain ⟨l3, hint, hl3⟩ := internalInfill_get lib o ls2 ls3 h3 j l2 hl2 fun i m2 hij hm2 => by
    obtain ⟨m, hm, hov⟩ := hovs i m2 hm2
    rw [hov]
    simpa using hparts i m hij hm
  obtain ⟨m, hm, hov⟩ := hovs j l2 hl2
  have : m = l := by simpa [hj] using hm.symm
  subst this
  have hdis : ∀ x, ¬(x ∈ region inside bottom ∧ x ∈ region inside top) := fun x h => ((rt x).1 h.2).1 h.1
  obtain ⟨l1, hl1, same1⟩ := sameLayers_get hs1 hj
  obtain ⟨l2', hl2', same2⟩ := sameLayers_get hs2 hl1
  rw [hl2] at hl2'
  cases hl2'
  have hext : IsExtended l2 := by
    obtain ⟨lsj, l2', _, hlay, hl2'⟩ := infillLoop_get lib o _ 0 ls1 ls2 h2 (by omega) j l1 (by omega) hl1 (by
      intro i m _ hij hm
      obtain ⟨l0, hl0, _, _, hp, hov⟩ := perimeterModifier_get lib o ls ls1 hi h1 i m hm
      have hne := hparts i l0 hij hl0
      have hne' : perimetersOf lib o l0.parts ≠ [] := by simpa [perimetersOf, ClipperLib.insetLayer] using hne
      exact ⟨_, _, hov, hp, by simpa using hne', hne'⟩)
    rw [hl2] at hl2'
    cases hl2'
    exact infillLayer_extended lib o _ _ _ _ hlay
  have hno' : l2.attr "infill" = none := by
    rw [same2.2 _ (by decide), same1.2 _ (by decide)]
    exact (hno _ (List.mem_of_getElem? hj)).2.2
  obtain ⟨internal, hin, ri⟩ := internalLayer_region inside hl o hp l2 l3 hext _ bottom top hov hb ht hdis hno' hint
  have same3 := internalLayer_same lib o l2 l3 hint
  refine ⟨l3, bottom, top, internal, hl3, ?_, ?_, hin, fun x hx => ?_, fun x hx => ?_, fun x => ?_⟩
  · unfold HasParts
    rw [same3.2 _ (by decide)]
    exact hb
  · unfold HasParts
    rw [same3.2 _ (by decide)]
    exact ht
  · obtain ⟨part, h1, p, _, _, h2⟩ := (rb x).1 hx
    exact ⟨part, h1, h2⟩
  · obtain ⟨h0, part, h1, p, _, _, h2⟩ := (rt x).1 hx
    exact ⟨h0, part, h1, h2⟩
  · rw [ri]
    simp only [List.flatMap]

/-- C62: if the borders of different parts do not overlap, the three kinds of infill together are the area inside of the borders. -/
theorem C62_cover (lib : ClipperLib) (o : Options) (l : Layer) (bottom top internal : List LayerPart)
    (hsep : Separate inside (l.parts.flatMap (infillBorder lib o)))
    (hb : ∀ x, x ∈ region inside bottom → ∃ part ∈ l.parts, x ∈ region inside (infillBorder lib o part))
    (ht : ∀ x, x ∈ region inside top → x ∉ region inside bottom ∧ ∃ part ∈ l.parts, x ∈ region inside (infillBorder lib o part))
    (hin : ∀ x, x ∈ region inside internal ↔
        x ∈ region inside (l.parts.flatMap (infillBorder lib o)) ∧ x ∉ region inside bottom ∧ x ∉ region inside top) (x : X) :
    (x ∈ region inside bottom ∨ x ∈ region inside top ∨ x ∈ region inside internal) ↔
      ∃ part ∈ l.parts, x ∈ region inside (infillBorder lib o part) := by
  have e : x ∈ region inside (l.parts.flatMap (infillBorder lib o)) ↔ ∃ part ∈ l.parts, x ∈ region inside (infillBorder lib o part) := by
    rw [region_separate inside _ hsep]
    have hs : ∀ part ∈ l.parts, Separate inside (infillBorder lib o part) := by
      intro part hpart
      refine List.Pairwise.sublist ?_ hsep
      obtain ⟨a, b, hab⟩ := List.append_of_mem hpart
      rw [hab, List.flatMap_append, List.flatMap_cons]
      exact ((List.sublist_append_left _ _).trans (List.sublist_append_right _ _))
    simp only [cover, Set.mem_ofPred_eq, List.mem_flatMap]
    constructor
    · rintro ⟨p, ⟨part, h1, h2⟩, h3⟩
      refine ⟨part, h1, ?_⟩
      rw [region_separate inside _ (hs part h1)]
      exact ⟨p, h2, h3⟩
    · rintro ⟨part, h1, h2⟩
      rw [region_separate inside _ (hs part h1)] at h2
      obtain ⟨p, h3, h4⟩ := h2
      exact ⟨p, ⟨part, h1, h3⟩, h4⟩
  rw [hin, e]
  constructor
  · rintro (h | h | h)
    · exact hb x h
    · exact (ht x h).2
    · exact h.1
  · tauto

/-! ## C83: overlapping enlarged areas cancel each other -/

/-- C83 (violation of "solid bottoms"): a point which lies in the enlarged areas of exactly two solid parts is not in the enlarged area, so it is
not filled solidly. -/
theorem C83_cancel (lib : ClipperLib) (o : Options) (p q : LayerPart) (x : X) (hp : x ∈ region inside (enlarged lib o [p]))
    (hq : x ∈ region inside (enlarged lib o [q])) : x ∉ region inside (enlarged lib o [p, q]) := by
  have e : enlarged lib o [p, q] = enlarged lib o [p] ++ enlarged lib o [q] := by simp [enlarged]
  rw [e, mem_region_append]
  tauto

/-- C83: if the enlarged parts do not overlap and contain the parts, then all of the area is in the enlarged area. -/
theorem C83_covered (lib : ClipperLib) (o : Options) (area : List LayerPart) (hs : Separate inside (enlarged lib o area))
    (hg : ∀ p ∈ area, ∀ x ∈ region inside [p], ∃ q ∈ enlarged lib o [p], x ∈ region inside [q]) (x : X) (hx : x ∈ region inside area) :
    x ∈ region inside (enlarged lib o area) := by
  have hin : ∃ p ∈ area, x ∈ region inside [p] := by
    clear hs hg
    induction area with
    | nil => simp at hx
    | cons p ps ih =>
      by_cases hp : x ∈ region inside [p]
      · exact ⟨p, List.mem_cons_self, hp⟩
      · have e : p :: ps = [p] ++ ps := rfl
        rw [e, mem_region_append] at hx
        obtain ⟨q, hq, hqx⟩ := ih (by tauto)
        exact ⟨q, List.mem_cons_of_mem _ hq, hqx⟩
  obtain ⟨p, hp, hpx⟩ := hin
  obtain ⟨q, hq, hqx⟩ := hg p hp x hpx
  rw [region_separate inside _ hs]
  refine ⟨q, ?_, hqx⟩
  simp only [enlarged, List.flatMap_cons, List.flatMap_nil, List.append_nil] at hq
  exact List.mem_flatMap.2 ⟨p, hp, hq⟩

/-- Options for the examples: one bottom and one top layer. -/
def oneBottom : Options := { print := { numberBottomLayers := 1, numberTopLayers := 1 } }

/-- Layers for the examples: the second layer overhangs. -/
def overhang : List Layer := [⟨[pixelPart [5]], none⟩, ⟨[pixelPart [0, 1, 5]], none⟩]

/-- The value of a result, for the examples. -/
def valueOf (r : Res (List Layer)) : List Layer :=
  match r with
  | .ok a => a
  | .error _ => []

theorem valueOf_ok {r : Res (List Layer)} (h : valueOf r ≠ []) : r = .ok (valueOf r) := by
  cases r with
  | ok a => rfl
  | error e => exact absurd rfl h

/-- The pixels of an attribute, for the examples. -/
def attrPixels (ls : List Layer) (k : Nat) (name : String) : List IntPoint :=
  match ls[k]? with
  | some l =>
    match l.attr name with
    | some (.parts r) => pixelsOf r
    | _ => []
  | none => []

def overhang1 : List Layer := valueOf (perimeterModifier pixelLib oneBottom overhang)
def overhang2 : List Layer := valueOf (infillModifier pixelLib oneBottom overhang1)
def overhang3 : List Layer := valueOf (internalInfillModifier pixelLib oneBottom overhang2)

theorem overhang1_ok : perimeterModifier pixelLib oneBottom overhang = .ok overhang1 :=
  valueOf_ok (List.length_pos_iff.1 (by decide +kernel))
theorem overhang2_ok : infillModifier pixelLib oneBottom overhang1 = .ok overhang2 :=
  valueOf_ok (List.length_pos_iff.1 (by decide +kernel))
theorem overhang3_ok : internalInfillModifier pixelLib oneBottom overhang2 = .ok overhang3 :=
  valueOf_ok (List.length_pos_iff.1 (by decide +kernel))

/-- C83: it happens: pixel 0 of the second layer has nothing below and is inside of the border, but it gets no bottom infill, as the two
parts of the overhang are enlarged over each other. -/
theorem C83_violated : ∃ (lib : ClipperLib) (o : Options) (ls ls1 ls2 : List Layer) (l2 : Layer) (part p : LayerPart) (x : IntPoint),
    Exact pixels lib ∧ perimeterModifier lib o ls = .ok ls1 ∧ infillModifier lib o ls1 = .ok ls2 ∧
    (∃ l, ls[1]? = some l ∧ part ∈ l.parts) ∧ p ∈ innermost lib o part ∧ x ∈ bottomArea pixels ls 1 o.print.numberBottomLayers.toNat p ∧
    x ∈ region pixels (infillBorder lib o part) ∧ ls2[1]? = some l2 ∧ l2.partsAttribute "bottom" = .ok [] := by
  have hl2 : ∃ l2, overhang2[1]? = some l2 ∧ l2.partsAttribute "bottom" = .ok [] := by
    have h : (match overhang2[1]? with
      | some l => (match l.attr "bottom" with
        | none => true
        | some _ => false)
      | none => false) = true := by decide +kernel
    split at h
    · next l hl =>
      split at h
      · next ha => exact ⟨l, hl, (C68_parts _ _).2.1 ha⟩
      · cases h
    · cases h
  obtain ⟨l2, h1, h2⟩ := hl2
  refine ⟨pixelLib, oneBottom, overhang, overhang1, overhang2, l2, pixelPart [0, 1, 5], pixelPart [0, 1, 5], ⟨0, 0⟩, pixelLib_exact,
    overhang1_ok, overhang2_ok, ⟨⟨[pixelPart [0, 1, 5]], none⟩, rfl, by simp⟩, by decide +kernel,
    ⟨(mem_pixelsOf _ _).2 (by decide +kernel), 0, by decide, Or.inr ⟨⟨[pixelPart [5]], none⟩, by decide, rfl, ?_⟩⟩,
    (mem_pixelsOf _ _).2 (by decide +kernel), h1, h2⟩
  rw [mem_pixelsOf]
  decide +kernel

example : ∃ l3 bottom top internal, overhang3[0]? = some l3 ∧ HasParts l3 "bottom" bottom ∧ HasParts l3 "top" top ∧
    HasParts l3 "infill" internal := by
  obtain ⟨l3, b, t, i, h1, h2, h3, h4, _⟩ := C62_infill pixels pixelLib_exact oneBottom (by decide) (by decide) overhang overhang1 overhang2
    overhang3 overhang1_ok overhang2_ok overhang3_ok (by simp [overhang, Layer.attr]) 0 _ rfl (by
      intro i m hi hm
      obtain rfl : i = 0 := by omega
      simp only [overhang, List.getElem?_cons_zero, Option.some.injEq] at hm
      subst hm
      simp)
  exact ⟨l3, b, t, i, h1, h2, h3, h4⟩

example : attrPixels overhang3 0 "bottom" = [⟨5, 0⟩] ∧ attrPixels overhang3 1 "top" = [⟨5, 0⟩, ⟨1, 0⟩, ⟨0, 0⟩] := by decide +kernel

end Verif
