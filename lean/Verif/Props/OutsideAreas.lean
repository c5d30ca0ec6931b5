import Verif.Props.OutsideFill
import Verif.Props.PrintAreaLayers

/-! # C114: the areas to print are inside the sliced areas -/
namespace Verif
open Verif.Go Verif.Model Verif.Spec

/-- Each point of the closed area of the part `p` is within the distance `t` of the closed area of one of the parts. -/
def NearParts (inside : List IntPoint → Set (ℚ × ℚ)) (t : ℚ) (parts : List LayerPart) (p : LayerPart) : Prop :=
  ∀ x, Touches inside (partContours p) x → ∃ q ∈ parts, NearArea inside t (partContours q) x

/-- The number of walls of a layer. -/
def wallCount (lib : ClipperLib) (o : Options) (parts : List LayerPart) : Nat := (perimetersOf lib o parts).flatten.flatten.length

section
variable {inside : List IntPoint → Set (ℚ × ℚ)} {lib : ClipperLib} {tol t : ℚ} {S : List LayerPart}

theorem NearParts.mono {t' : ℚ} {p : LayerPart} (h : NearParts inside t S p) (ht : t ≤ t') : NearParts inside t' S p := by
  intro x hx
  obtain ⟨q, hq, hn⟩ := h x hx
  exact ⟨q, hq, NearArea.mono hn ht⟩

theorem nearParts_self {p : LayerPart} (hp : p ∈ S) (h0 : 0 ≤ t) : NearParts inside t S p := fun x hx => ⟨p, hp, x, hx, NearPt.refl h0 x⟩

/-- A point near the area of several parts. -/
theorem nearParts_of_near {ps : List LayerPart} (hps : ∀ p ∈ ps, NearParts inside t S p) {x : ℚ × ℚ} (hx : NearArea inside tol (ps.flatMap partContours) x) :
    ∃ q ∈ S, NearArea inside (t + tol) (partContours q) x := by
  obtain ⟨y, hy, hxy⟩ := hx
  obtain ⟨p, hp, hy⟩ := touches_parts hy
  obtain ⟨q, hq, hn⟩ := hps p hp y hy
  refine ⟨q, hq, ?_⟩
  rw [add_comm]
  exact NearArea.near hn hxy

variable (hn : NothingOutside inside lib tol)
include hn

theorem union_near {a b r : List LayerPart} (h : lib.union a b = some r) (ha : ∀ p ∈ a, NearParts inside t S p) (hb : ∀ p ∈ b, NearParts inside t S p) :
    ∀ p ∈ r, NearParts inside (t + tol) S p := by
  unfold ClipperLib.union ClipperLib.runClipper at h
  split at h
  · cases h; intro p hp; cases hp
  · obtain ⟨tree, htree, rfl⟩ := Option.map_eq_some_iff.1 h
    intro p hp x hx
    rcases hn.union _ _ _ htree _ (isArea_part hp) x hx with h | h
    · exact nearParts_of_near ha h
    · exact nearParts_of_near hb h

theorem difference_near {a b r : List LayerPart} (h : lib.difference a b = some r) (ha : ∀ p ∈ a, NearParts inside t S p) :
    ∀ p ∈ r, NearParts inside (t + tol) S p := by
  unfold ClipperLib.difference ClipperLib.runClipper at h
  split at h
  · cases h; intro p hp; cases hp
  · obtain ⟨tree, htree, rfl⟩ := Option.map_eq_some_iff.1 h
    intro p hp x hx
    exact nearParts_of_near ha (hn.difference _ _ _ htree _ (isArea_part hp) x hx)

theorem intersection_near {a b r : List LayerPart} (h : lib.intersection a b = some r) (hb : ∀ p ∈ b, NearParts inside t S p) :
    ∀ p ∈ r, NearParts inside (t + tol) S p := by
  unfold ClipperLib.intersection ClipperLib.runClipper at h
  split at h
  · cases h; intro p hp; cases hp
  · obtain ⟨tree, htree, rfl⟩ := Option.map_eq_some_iff.1 h
    intro p hp x hx
    exact nearParts_of_near hb (hn.intersection _ _ _ htree _ (isArea_part hp) x hx)

theorem inset1_near {part : LayerPart} (ha : LibArea lib (partContours part)) (hp : NearParts inside t S part) {d : ℚ} (hd : d ≤ 0) :
    ∀ p ∈ lib.inset1 part d, NearParts inside (t + tol) S p := by
  intro p hpm x hx
  refine nearParts_of_near (ps := [part]) (by simpa using hp) ?_
  rw [List.flatMap_singleton]
  exact hn.inset _ _ ha hd _ (isArea_part hpm) x hx

omit hn in
theorem inset1_area {part p : LayerPart} {d : ℚ} (hp : p ∈ lib.inset1 part d) : LibArea lib (partContours p) := ⟨_, .inr ⟨_, _, rfl⟩, isArea_part hp⟩

/-- Insets by growing distances are insets. -/
theorem insetLoop_near {part : LayerPart} (ha : LibArea lib (partContours part)) (hp : NearParts inside t S part) {w : Int} (hw : 0 ≤ w) :
    ∀ (n : Nat) (d : ℚ), d ≤ 0 → ∀ inset ∈ lib.insetLoop part w n d, ∀ p ∈ inset, NearParts inside (t + tol) S p ∧ LibArea lib (partContours p) := by
  intro n
  induction n with
  | zero => intro d hd inset hi; cases hi
  | succ n ih =>
    intro d hd inset hi
    rw [ClipperLib.insetLoop] at hi
    rcases List.mem_cons.1 hi with rfl | hi
    · exact fun p hpm => ⟨inset1_near hn ha hp hd p hpm, inset1_area hpm⟩
    · refine ih _ ?_ inset hi
      have h1 : r64 ((-w : Int) : ℚ) ≤ 0 := by rw [← r64_zero]; exact r64_mono (by exact_mod_cast (by omega : -w ≤ 0))
      rw [← r64_zero]
      exact r64_mono (by linarith)

/-- **C114** The walls are inside the sliced parts. -/
theorem C114_walls {o : Options} (hw : 0 ≤ o.printer.extrusionWidth) (h0 : 0 ≤ t) {parts : List LayerPart} (ha : ∀ p ∈ parts, LibArea lib (partContours p)) :
    ∀ part ∈ perimetersOf lib o parts, ∀ inset ∈ part, ∀ p ∈ inset, NearParts inside (t + tol) parts p ∧ LibArea lib (partContours p) := by
  intro part hpart inset hi
  obtain ⟨p, hp, rfl⟩ := List.mem_map.1 hpart
  refine insetLoop_near hn (ha p hp) (nearParts_self hp h0) hw _ _ ?_ inset hi
  have h1 : (-o.printer.extrusionWidth).tdiv 2 ≤ 0 := by rw [Int.neg_tdiv]; have := Int.tdiv_nonneg (b := 2) hw (by norm_num); omega
  rw [← r64_zero]; exact r64_mono (by exact_mod_cast h1)

theorem overlap_near {o : Options} (hm : Moderate o) (h0 : 0 ≤ tol) {p : LayerPart} (ha : LibArea lib (partContours p)) (hp : NearParts inside t S p) :
    ∀ q ∈ calculateOverlapPerimeter lib p o.print.infillOverlapPercent o.printer.extrusionWidth, NearParts inside (t + tol) S q := by
  unfold calculateOverlapPerimeter
  split
  · have h0 := perimeterOverlap_nonneg hm.overlap hm.width.1
    have h1 : (-perimeterOverlap o.print.infillOverlapPercent o.printer.extrusionWidth).tdiv 2 ≤ 0 := by rw [Int.neg_tdiv]; have := Int.tdiv_nonneg (b := 2) h0 (by norm_num); omega
    exact inset1_near hn ha hp (by rw [← r64_zero]; exact r64_mono (by exact_mod_cast h1))
  · intro q hq
    rw [List.mem_singleton] at hq
    subst hq; exact hp.mono (by linarith)

end

/-- The areas of a layer are inside its sliced parts, up to a multiple of the tolerance of the library. -/
structure LayerNear (inside : List IntPoint → Set (ℚ × ℚ)) (lib : ClipperLib) (o : Options) (tol : ℚ) (l : Layer) : Prop where
  walls : ∀ v, l.attr "perimeters" = some v → v = .offsetResult (perimetersOf lib o l.parts)
  border : ∀ r, l.attr "overlapPerimeters" = some (.partLists r) → ∀ ps ∈ r, ∀ p ∈ ps, NearParts inside (2 * tol) l.parts p
  infill : ∀ name ∈ ["bottom", "top", "infill"], ∀ r, l.attr name = some (.parts r) → ∀ p ∈ r, NearParts inside ((4 + wallCount lib o l.parts) * tol) l.parts p

section
variable {inside : List IntPoint → Set (ℚ × ℚ)} {lib : ClipperLib} {tol t : ℚ} {o : Options}

theorem LayerNear.of_same {names : List String} (hnames : ∀ n ∈ ["perimeters", "overlapPerimeters", "bottom", "top", "infill"], n ∉ names) {l l' : Layer}
    (h : LayerNear inside lib o tol l) (hs : SameBut names l l') : LayerNear inside lib o tol l' := by
  obtain ⟨hp, ha⟩ := hs
  refine ⟨?_, ?_, ?_⟩
  · rw [ha _ (hnames _ (by simp)), hp]; exact h.walls
  · rw [ha _ (hnames _ (by simp)), hp]; exact h.border
  · intro name hname
    rw [ha _ (hnames _ (by simp only [List.mem_cons] at hname ⊢; tauto)), hp]
    exact h.infill name hname

theorem LayerNear.setInfill {l : Layer} (h : LayerNear inside lib o tol l) {name : String} (hname : name ∈ ["bottom", "top", "infill"]) {ps : List LayerPart}
    (hps : ∀ p ∈ ps, NearParts inside ((4 + wallCount lib o l.parts) * tol) l.parts p) : LayerNear inside lib o tol (l.set name (.parts ps)) := by
  have hparts : (l.set name (.parts ps)).parts = l.parts := by cases l with | mk p a => cases a <;> rfl
  have hne : "perimeters" ≠ name ∧ "overlapPerimeters" ≠ name := by
    simp only [List.mem_cons, List.not_mem_nil, or_false] at hname
    rcases hname with rfl | rfl | rfl <;> decide
  refine ⟨?_, ?_, ?_⟩
  · rw [attr_set_other _ _ hne.1, hparts]; exact h.walls
  · rw [attr_set_other _ _ hne.2, hparts]; exact h.border
  · intro m hm r hr
    rw [hparts]
    by_cases he : m = name
    · subst he
      cases hx : l.attrs with
      | none =>
        have : (l.set m (.parts ps)).attr m = none := by simp [Layer.set, Layer.attr, hx]
        rw [this] at hr; cases hr
      | some f =>
        rw [attr_set (by simp [IsExtended, hx]), if_pos rfl] at hr
        cases hr
        exact hps
    · rw [attr_set_other _ _ he] at hr
      exact h.infill m hm r hr

theorem LayerNear.setParts {l : Layer} (h : LayerNear inside lib o tol l) {name : String} (hname : name ∈ ["bottom", "top", "infill"]) {ps : List LayerPart}
    (hps : ∀ p ∈ ps, NearParts inside ((4 + wallCount lib o l.parts) * tol) l.parts p) : LayerNear inside lib o tol (setParts l name ps) := by
  unfold Model.setParts
  split
  · exact h.setInfill hname hps
  · exact h

theorem LayerNear.extend {l : Layer} (h : LayerNear inside lib o tol l) : LayerNear inside lib o tol l.extend :=
  h.of_same (names := []) (by simp) ⟨rfl, fun n _ => attr_extend l n⟩

theorem LayerNear.overlap {l : Layer} (h : LayerNear inside lib o tol l) :
    Yields l.overlapPerimeters fun r => ∀ ps ∈ r, ∀ p ∈ ps, NearParts inside (2 * tol) l.parts p := by
  intro ps hp
  unfold Layer.overlapPerimeters at hp
  split at hp
  · cases hp; simp
  · rename_i r hr; cases hp
    exact h.border _ hr
  · cases hp

theorem LayerNear.perims {l : Layer} (h : LayerNear inside lib o tol l) : Yields l.perimeters fun r => r = [] ∨ r = perimetersOf lib o l.parts := by
  intro ps hp
  unfold Layer.perimeters at hp
  split at hp
  · cases hp; exact .inl rfl
  · rename_i r hr; cases hp
    have := h.walls _ hr
    cases this
    exact .inr rfl
  · cases hp

variable (hn : NothingOutside inside lib tol) (hm : Moderate o) (h0 : 0 ≤ tol)
include hn h0

include hm in
theorem perimeter_near {l : Layer} (hplain : l.attrs = none) (ha : ∀ p ∈ l.parts, LibArea lib (partContours p)) :
    Yields (perimeterLayer lib o l) fun l' => LayerNear inside lib o tol l' ∧ l'.parts = l.parts := by
  have hp := C114_walls hn hm.width.1 le_rfl ha
  have hattr : ∀ name, l.attr name = none := fun name => by simp [Layer.attr, hplain]
  unfold perimeterLayer
  refine yields_bind (P := fun r => ∀ ps ∈ r, ∀ p ∈ ps, NearParts inside (2 * tol) l.parts p) (yields_mapM _ fun part hpart => ?_) fun ov hov => yields_pure ?_
  · unfold overlapOfPart
    refine yields_bind yields_index fun innermost hi => yields_pure ?_
    intro q hq
    obtain ⟨p, hpm, hq⟩ := List.mem_flatMap.1 hq
    obtain ⟨h1, h2⟩ := hp part hpart innermost hi p hpm
    exact (overlap_near hn hm h0 h2 h1 q hq).mono (by linarith)
  · have hext : IsExtended (l.extend.set "perimeters" (.offsetResult (perimetersOf lib o l.parts))) := by
      cases l with | mk p a => cases a <;> simp [IsExtended, Layer.extend, Layer.set]
    have hparts : ((l.extend.set "perimeters" (.offsetResult (perimetersOf lib o l.parts))).set "overlapPerimeters" (.partLists ov)).parts = l.parts := by
      cases l with | mk p a => cases a <;> rfl
    have hget : ∀ m, ((l.extend.set "perimeters" (.offsetResult (perimetersOf lib o l.parts))).set "overlapPerimeters" (.partLists ov)).attr m =
        if m = "overlapPerimeters" then some (.partLists ov) else if m = "perimeters" then some (.offsetResult (perimetersOf lib o l.parts)) else none := by
      intro m
      rw [attr_set hext, attr_set_extend, hattr]
    refine ⟨⟨?_, ?_, ?_⟩, hparts⟩
    · intro v hv
      rw [hget] at hv
      rw [hparts]
      simpa using hv.symm
    · intro r hr
      rw [hget] at hr
      rw [hparts]
      cases hr
      exact hov
    · intro name hname r hr
      rw [hget] at hr
      simp only [List.mem_cons, List.not_mem_nil, or_false] at hname
      rcases hname with rfl | rfl | rfl <;> cases hr

theorem addInfill_near {S : List LayerPart} {ov : Res (List LayerPart)} (ho : Yields ov fun ps => ∀ p ∈ ps, NearParts inside (2 * tol) S p) (parts : List LayerPart)
    {infill : List LayerPart} {k : Nat} (hi : ∀ p ∈ infill, NearParts inside ((3 + k) * tol) S p) :
    Yields (addInfill lib o ov parts infill) fun r => ∀ p ∈ r, NearParts inside ((3 + (k + 1 : Nat)) * tol) S p := by
  unfold addInfill
  dsimp only
  split
  · refine yields_pure fun p hp => (hi p hp).mono ?_
    push_cast
    nlinarith
  · refine yields_bind ho fun border hb => yields_bind (P := fun r => ∀ p ∈ r, NearParts inside (2 * tol + tol) S p) (fun r hr => intersection_near hn (orErr_ok hr) hb)
      fun clipped hc => ?_
    intro r hr p hp
    have := union_near hn (orErr_ok hr) hi (fun q hq => (hc q hq).mono (t' := (3 + k) * tol) (by nlinarith [mul_nonneg (Nat.cast_nonneg (α := ℚ) k) h0])) p hp
    refine this.mono (le_of_eq ?_)
    push_cast
    ring

theorem infillParts_near {S : List LayerPart} {layers : List Layer} {layerNr : Nat} {ov : List (List LayerPart)}
    (ho : ∀ ps ∈ ov, ∀ p ∈ ps, NearParts inside (2 * tol) S p) (pe : OffsetResult) :
    ∀ (i k : Nat) (infill : List LayerPart × List LayerPart),
      ((∀ p ∈ infill.1, NearParts inside ((3 + k) * tol) S p) ∧ ∀ p ∈ infill.2, NearParts inside ((3 + k) * tol) S p) →
      Yields (infillParts lib o layers layerNr ov i pe infill) fun r =>
        (∀ p ∈ r.1, NearParts inside ((3 + (k + pe.flatten.flatten.length : Nat)) * tol) S p) ∧
        ∀ p ∈ r.2, NearParts inside ((3 + (k + pe.flatten.flatten.length : Nat)) * tol) S p := by
  induction pe with
  | nil => intro i k infill h; exact yields_ok h
  | cons part rest ih =>
    intro i k infill h
    rw [infillParts]
    refine yields_bind (yields_index) fun innermost hinner => ?_
    have hov : Yields (index ov (i : Int)) fun ps => ∀ p ∈ ps, NearParts inside (2 * tol) S p := yields_mono yields_index fun a ha => ho a ha
    have hstep : ∀ (ps : List LayerPart) (k : Nat) (infill : List LayerPart × List LayerPart),
        ((∀ p ∈ infill.1, NearParts inside ((3 + k) * tol) S p) ∧ ∀ p ∈ infill.2, NearParts inside ((3 + k) * tol) S p) →
        Yields (ps.foldlM (infillPart lib o layers layerNr ov i) infill) fun r =>
          (∀ p ∈ r.1, NearParts inside ((3 + (k + ps.length : Nat)) * tol) S p) ∧ ∀ p ∈ r.2, NearParts inside ((3 + (k + ps.length : Nat)) * tol) S p := by
      intro ps
      induction ps with
      | nil => intro k infill h; exact yields_pure h
      | cons p ps ihp =>
        intro k infill h
        rw [List.foldlM_cons]
        refine yields_bind (P := fun (r : List LayerPart × List LayerPart) =>
          (∀ p ∈ r.1, NearParts inside ((3 + (k + 1 : Nat)) * tol) S p) ∧ ∀ p ∈ r.2, NearParts inside ((3 + (k + 1 : Nat)) * tol) S p) ?_ fun infill' h' => ?_
        · unfold infillPart
          refine yields_bind (yields_any _) fun b _ => yields_bind (yields_any _) fun t _ => ?_
          exact yields_bind (addInfill_near hn h0 hov b h.1) fun b' hb => yields_bind (addInfill_near hn h0 hov t h.2) fun t' ht => yields_pure ⟨hb, ht⟩
        · have := ihp (k + 1) infill' h'
          rw [show k + 1 + ps.length = k + (p :: ps).length by simp; omega] at this
          exact this
    refine yields_bind (hstep innermost k infill h) fun infill' h' => ?_
    refine yields_mono (ih (i + 1) _ infill' h') fun r hr => ?_
    have hle : innermost.length ≤ part.flatten.length := by
      obtain ⟨l1, l2, rfl⟩ := List.append_of_mem hinner
      simp
      omega
    have hle2 : (3 + ((k + innermost.length + rest.flatten.flatten.length : Nat) : ℚ)) * tol ≤ (3 + ((k + (part :: rest).flatten.flatten.length : Nat) : ℚ)) * tol := by
      refine mul_le_mul_of_nonneg_right ?_ h0
      have : k + innermost.length + rest.flatten.flatten.length ≤ k + (part :: rest).flatten.flatten.length := by
        simp only [List.flatten_cons, List.flatten_append, List.length_append]
        omega
      have : ((k + innermost.length + rest.flatten.flatten.length : Nat) : ℚ) ≤ ((k + (part :: rest).flatten.flatten.length : Nat) : ℚ) := by exact_mod_cast this
      linarith
    exact ⟨fun p hp => (hr.1 p hp).mono hle2, fun p hp => (hr.2 p hp).mono hle2⟩

theorem infillLayer_near {layers : List Layer} {layerNr : Nat} {l : Layer} (h : LayerNear inside lib o tol l) :
    Yields (infillLayer lib o layers layerNr l) fun r => ∀ l', r = some l' → LayerNear inside lib o tol l' := by
  unfold infillLayer
  refine yields_bind h.overlap fun ov hov => ?_
  split
  · exact yields_pure (by simp)
  refine yields_bind h.perims fun pe hpe => ?_
  split
  · exact yields_pure (by simp)
  rename_i hne
  obtain rfl : pe = perimetersOf lib o l.parts := hpe.resolve_left hne
  have hinf := infillParts_near (o := o) (layers := layers) (layerNr := layerNr) hn h0 hov (perimetersOf lib o l.parts) 0 0 ([], []) ⟨by simp, by simp⟩
  refine yields_bind hinf fun infill hi => ?_
  rw [Nat.zero_add] at hi
  refine yields_bind (P := fun top => ∀ p ∈ top, NearParts inside ((4 + wallCount lib o l.parts) * tol) l.parts p) ?_ fun top ht => yields_pure ?_
  · unfold topWithoutBottom
    split
    · intro r hr p hp
      refine (difference_near hn (orErr_ok hr) hi.2 p hp).mono (le_of_eq ?_)
      unfold wallCount
      ring
    · exact yields_ok fun p hp => (hi.2 p hp).mono (by unfold wallCount; nlinarith)
  · rintro l' ⟨⟩
    have hb : ∀ p ∈ infill.1, NearParts inside ((4 + wallCount lib o l.parts) * tol) l.parts p := fun p hp => (hi.1 p hp).mono (by unfold wallCount; nlinarith)
    have hpe : l.extend.parts = l.parts := rfl
    have hps : (setParts l.extend "bottom" infill.1).parts = l.parts := (setParts_same l.extend "bottom" infill.1).1
    exact (h.extend.setParts (by simp) (by rw [hpe]; exact hb)).setParts (by simp) (by rw [hps]; exact ht)

/-- All layers have their areas inside of the sliced parts. -/
def LayersNear (inside : List IntPoint → Set (ℚ × ℚ)) (lib : ClipperLib) (o : Options) (tol : ℚ) (ls : List Layer) : Prop := ∀ l ∈ ls, LayerNear inside lib o tol l

theorem infill_near {ls : List Layer} (h : LayersNear inside lib o tol ls) : Yields (infillModifier lib o ls) (LayersNear inside lib o tol) := by
  have key : ∀ (n k : Nat) (ls : List Layer), LayersNear inside lib o tol ls → Yields (infillLoop lib o n k ls) (LayersNear inside lib o tol) := by
    intro n
    induction n with
    | zero => intro k ls h; exact yields_ok h
    | succ n ih =>
      intro k ls h
      rw [infillLoop]
      refine yields_bind yields_index fun l hlm => yields_bind (infillLayer_near hn h0 (h l hlm)) fun new hnew => ?_
      cases new with
      | none => exact yields_ok h
      | some l' =>
        refine ih _ _ fun x hx => ?_
        rcases List.mem_or_eq_of_mem_set hx with hx | rfl
        · exact h x hx
        · exact hnew _ rfl
  exact key _ 0 ls h

theorem internal_near {ls : List Layer} (h : LayersNear inside lib o tol ls) : Yields (internalInfillModifier lib o ls) (LayersNear inside lib o tol) := by
  induction ls with
  | nil => exact yields_ok h
  | cons l rest ih =>
    have hl := h l List.mem_cons_self
    rw [internalInfillModifier]
    refine yields_bind (P := fun r => ∀ l', r = some l' → LayerNear inside lib o tol l') ?_ fun new hnew => ?_
    · unfold internalLayer
      refine yields_bind hl.overlap fun ov hov => ?_
      split
      · exact yields_pure (by simp)
      refine yields_bind (yields_any _) fun b _ => yields_bind (yields_any _) fun t _ => ?_
      refine yields_bind (yields_mapM (P := fun ps => ∀ p ∈ ps, NearParts inside (2 * tol + tol) l.parts p) _ fun part hpart => ?_) fun internal hi => yields_pure ?_
      · unfold internalPart
        split
        · exact yields_ok (by simp)
        split
        · exact yields_ok (by simp)
        · exact fun r hr => difference_near hn (orErr_ok hr) (hov part hpart)
      · rintro l' ⟨⟩
        split
        · refine hl.setInfill (by simp) fun p hp => ?_
          obtain ⟨ps, hps, hp⟩ := List.mem_flatten.1 hp
          refine (hi ps hps p hp).mono ?_
          nlinarith [mul_nonneg (Nat.cast_nonneg (α := ℚ) (wallCount lib o l.parts)) h0]
        · exact hl
    · cases new with
      | none => exact yields_ok h
      | some l' =>
        refine yields_bind (ih fun x hx => h x (List.mem_cons_of_mem _ hx)) fun rest' hr => yields_pure ?_
        intro x hx
        rcases List.mem_cons.1 hx with rfl | hx
        · exact hnew _ rfl
        · exact hr x hx

include hm in
/-- **C114** After all modifiers, the walls and the areas of bottom, top and internal infill of each layer are inside the sliced parts of the layer, up to a multiple of the
tolerance of the library. -/
theorem C114_areas {tan : ℚ} {ls ls' : List Layer} (h : (standardModifiers lib tan o).foldlM (fun ls m => m ls) ls = .ok ls') (hplain : ∀ l ∈ ls, l.attrs = none)
    (ha : ∀ l ∈ ls, ∀ p ∈ l.parts, LibArea lib (partContours p)) : LayersNear inside lib o tol ls' := by
  simp only [standardModifiers, List.foldlM_cons, List.foldlM_nil, bind_ok, pure, Except.pure, Except.ok.injEq] at h
  obtain ⟨l1, h1, l2, h2, l3, h3, l4, h4, l5, h5, l6, h6, rfl⟩ := h
  have n1 : LayersNear inside lib o tol l1 := by
    have : Yields (perimeterModifier lib o ls) (LayersNear inside lib o tol) := by
      unfold perimeterModifier
      exact yields_mapM ls fun l hl => yields_mono (perimeter_near hn hm h0 (hplain l hl) (ha l hl)) fun r hr => hr.1
    exact this _ h1
  have n3 := internal_near hn h0 (infill_near hn h0 n1 _ h2) _ h3
  have hsame : SameLayersBut ["brim", "outerBrim", "fullSupport", "supportInterface", "support"] l3 l6 :=
    ((C61_brim _ _ _ _ h4).mono (by simp)).trans <| ((C61_detector _ _ _ _ _ h5).mono (by simp)).trans ((C61_generator _ _ _ _ h6).mono (by simp))
  intro l hl
  obtain ⟨i, hi, rfl⟩ := List.getElem_of_mem hl
  have hs := (List.forall₂_iff_get.1 hsame).2 i (by rw [hsame.length_eq]; exact hi) hi
  simp only [List.get_eq_getElem] at hs
  exact (n3 _ (List.getElem_mem _)).of_same (by decide) hs

end
end Verif
