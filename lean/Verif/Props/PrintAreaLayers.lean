import Verif.Props.PrintArea
import Verif.Props.InfillAreas

/-! # C102: the modifiers stay inside the area -/
namespace Verif
open Verif.Go Verif.Model Verif.Spec

theorem perimeterOverlap_nonneg {p w : Int} (hp : p ≤ 100) (hw : 0 ≤ w) : 0 ≤ perimeterOverlap p w := by
  unfold perimeterOverlap
  have h1 : r32 (p : ℚ) ≤ 100 := by
    have := r32_mono (show (p : ℚ) ≤ ((100 : Int) : ℚ) by exact_mod_cast hp)
    rwa [r32_intCast (n := 100) (by norm_num), show ((100 : Int) : ℚ) = 100 by norm_num] at this
  have h2 : 0 ≤ r32 (w : ℚ) := r32_nonneg (by exact_mod_cast hw)
  have h3 : 0 ≤ r32 (100 - r32 (p : ℚ)) := r32_nonneg (by linarith)
  have h4 : 0 ≤ r32 (r32 (r32 (w : ℚ) * r32 (100 - r32 (p : ℚ))) / 100) := r32_nonneg (div_nonneg (r32_nonneg (mul_nonneg h2 h3)) (by norm_num))
  unfold truncZ
  rw [if_pos h4]
  exact Int.floor_nonneg.2 h4

/-- The value of an attribute is inside a rectangle. -/
def Rect.HasAttr (R : Rect) : Attr → Prop
  | .offsetResult r => ∀ part ∈ r, ∀ inset ∈ part, R.HasParts inset
  | .partLists r => ∀ ps ∈ r, R.HasParts ps
  | .parts r => R.HasParts r
  | .other _ => True

/-- The margin for an attribute. -/
def attrMargin (o : Options) (name : String) : Int :=
  if name = "brim" then reach (brimWidth o)
  else if name = "support" ∨ name = "supportInterface" ∨ name = "fullSupport" then supportMargin o
  else 0

/-- The parts of a layer are in the rectangle, and its attributes are in the rectangle with their margin. The area of the brim is only used to keep it free. -/
def LayerIn (R : Rect) (o : Options) (l : Layer) : Prop :=
  R.HasParts l.parts ∧ ∀ name v, l.attr name = some v → name ≠ "outerBrim" → Rect.HasAttr (R.grow (attrMargin o name)) v

section
variable {R : Rect} {o : Options} {l : Layer}

theorem layerIn_plain {parts : List LayerPart} (h : R.HasParts parts) : LayerIn R o { parts := parts } :=
  ⟨h, fun _ _ hv => by cases hv⟩

theorem layerIn_extend (h : LayerIn R o l) : LayerIn R o l.extend := ⟨h.1, fun n v hv => h.2 n v (by rwa [attr_extend] at hv)⟩

theorem layerIn_set (h : LayerIn R o l) {name : String} {v : Attr} (hv : name ≠ "outerBrim" → Rect.HasAttr (R.grow (attrMargin o name)) v) :
    LayerIn R o (l.set name v) := by
  refine ⟨h.1, fun m u hu hm => ?_⟩
  by_cases hn : m = name
  · subst hn
    cases he : l.attrs with
    | none =>
      have : (l.set m v).attr m = none := by simp [Layer.set, Layer.attr, he]
      rw [this] at hu; cases hu
    | some f =>
      rw [attr_set (by simp [IsExtended, he]), if_pos rfl] at hu
      cases hu
      exact hv hm
  · rw [attr_set_other _ _ hn] at hu
    exact h.2 m u hu hm

theorem layerIn_setParts (h : LayerIn R o l) {name : String} {ps : List LayerPart} (hv : name ≠ "outerBrim" → (R.grow (attrMargin o name)).HasParts ps) :
    LayerIn R o (setParts l name ps) := by
  unfold setParts
  split
  · exact layerIn_set h hv
  · exact h

theorem layerIn_parts (h : LayerIn R o l) {name : String} (hn : name ≠ "outerBrim") :
    Yields (l.partsAttribute name) (R.grow (attrMargin o name)).HasParts := by
  intro ps hp
  unfold Layer.partsAttribute at hp
  split at hp
  · cases hp; exact hasParts_nil _
  · rename_i r hr; cases hp; exact h.2 _ _ hr hn
  · cases hp

theorem layerIn_fullSupport (h : LayerIn R o l) : Yields l.fullSupport (R.grow (supportMargin o)).HasParts := by
  intro ps hp
  unfold Layer.fullSupport at hp
  split at hp
  · cases hp; exact hasParts_nil _
  · rename_i r hr; cases hp; exact h.2 _ _ hr (by decide)
  · cases hp

theorem layerIn_perimeters (h : LayerIn R o l) : Yields l.perimeters fun r => ∀ part ∈ r, ∀ inset ∈ part, R.HasParts inset := by
  intro ps hp
  unfold Layer.perimeters at hp
  split at hp
  · cases hp; simp
  · rename_i r hr; cases hp
    have := h.2 _ _ hr (by decide)
    simpa [attrMargin, grow_zero, Rect.HasAttr] using this
  · cases hp

theorem layerIn_overlap (h : LayerIn R o l) : Yields l.overlapPerimeters fun r => ∀ ps ∈ r, R.HasParts ps := by
  intro ps hp
  unfold Layer.overlapPerimeters at hp
  split at hp
  · cases hp; simp
  · rename_i r hr; cases hp
    have := h.2 _ _ hr (by decide)
    simpa [attrMargin, grow_zero, Rect.HasAttr] using this
  · cases hp

theorem layerIn_brim (h : LayerIn R o l) : Yields l.brim fun r => ∀ part ∈ r, ∀ inset ∈ part, (R.grow (reach (brimWidth o))).HasParts inset := by
  intro ps hp
  unfold Layer.brim at hp
  split at hp
  · cases hp; simp
  · rename_i r hr; cases hp
    exact h.2 _ _ hr (by decide)
  · cases hp

theorem toOneDimension_mem {r : OffsetResult} {p : LayerPart} : p ∈ toOneDimension r ↔ ∃ part ∈ r, ∃ inset ∈ part, p ∈ inset := by
  rw [C40_toOneDimension]
  simp only [List.mem_flatten]
  constructor
  · rintro ⟨l, ⟨part, hp, hl⟩, hm⟩; exact ⟨part, hp, l, hl, hm⟩
  · rintro ⟨part, hp, l, hl, hm⟩; exact ⟨l, ⟨part, hp, hl⟩, hm⟩

theorem hasParts_one {r : OffsetResult} (h : ∀ part ∈ r, ∀ inset ∈ part, R.HasParts inset) : R.HasParts (toOneDimension r) := by
  intro p hp
  obtain ⟨part, hpart, inset, hi, hp⟩ := toOneDimension_mem.1 hp
  exact h part hpart inset hi p hp

end

/-- Sizes for which the margins are computed exactly: no negative widths, and no overlap which moves the infill out of its perimeter. -/
structure Moderate (o : Options) : Prop where
  width : 0 ≤ o.printer.extrusionWidth ∧ o.printer.extrusionWidth ≤ 2 ^ 30
  overlap : o.print.infillOverlapPercent ≤ 100
  brim : |o.print.brimSkirt.brimCount| ≤ 2 ^ 20
  skirt : o.print.brimSkirt.skirtCount ≤ 2 ^ 20
  distance : |toMicrometer o.print.brimSkirt.skirtDistance| ≤ 2 ^ 50
  spacing : |toMicrometer o.print.support.patternSpacing| ≤ 2 ^ 50

/-- All layers are inside the area. -/
def LayersIn (R : Rect) (o : Options) (ls : List Layer) : Prop := ∀ l ∈ ls, LayerIn R o l

theorem layersIn_set {R : Rect} {o : Options} {ls : List Layer} (h : LayersIn R o ls) {l : Layer} (hl : LayerIn R o l) (k : Nat) : LayersIn R o (ls.set k l) := by
  intro x hx
  rcases List.mem_or_eq_of_mem_set hx with hx | rfl
  · exact h x hx
  · exact hl

section
variable {lib : ClipperLib} (hl : StaysInside lib) {R : Rect} {o : Options} (hm : Moderate o)
include hl

theorem yields_union {msg : String} {a b : List LayerPart} (ha : R.HasParts a) (hb : R.HasParts b) : Yields (orErr msg (lib.union a b)) R.HasParts :=
  fun _ h => union_in hl (orErr_ok h) ha hb

theorem yields_difference {msg : String} {a b : List LayerPart} (ha : R.HasParts a) : Yields (orErr msg (lib.difference a b)) R.HasParts :=
  fun _ h => difference_in hl (orErr_ok h) ha

theorem yields_intersection {msg : String} {a b : List LayerPart} (hb : R.HasParts b) : Yields (orErr msg (lib.intersection a b)) R.HasParts :=
  fun _ h => intersection_in hl (orErr_ok h) hb

include hm

theorem overlapPerimeter_in {p : LayerPart} (hp : R.HasPart p) :
    R.HasParts (calculateOverlapPerimeter lib p o.print.infillOverlapPercent o.printer.extrusionWidth) := by
  unfold calculateOverlapPerimeter
  split
  · have h0 := perimeterOverlap_nonneg hm.overlap hm.width.1
    have h1 : (-perimeterOverlap o.print.infillOverlapPercent o.printer.extrusionWidth).tdiv 2 ≤ 0 := by rw [Int.neg_tdiv]; have := Int.tdiv_nonneg (b := 2) h0 (by norm_num); omega
    have h2 : r64 (((-perimeterOverlap o.print.infillOverlapPercent o.printer.extrusionWidth).tdiv 2 : Int) : ℚ) ≤ 0 := by
      rw [← r64_zero]; exact r64_mono (by exact_mod_cast h1)
    have := inset1_in hl hp (r64 (((-perimeterOverlap o.print.infillOverlapPercent o.printer.extrusionWidth).tdiv 2 : Int) : ℚ))
    rwa [reach_nonpos h2, grow_zero] at this
  · intro q hq
    rw [List.mem_singleton] at hq
    subst hq; exact hp

theorem perimetersOf_in {parts : List LayerPart} (h : R.HasParts parts) : ∀ part ∈ perimetersOf lib o parts, ∀ inset ∈ part, R.HasParts inset := by
  intro part hpart inset hi
  obtain ⟨p, hp, rfl⟩ := List.mem_map.1 hpart
  have hw := hm.width.1
  have h1 : (-o.printer.extrusionWidth).tdiv 2 ≤ 0 := by rw [Int.neg_tdiv]; have := Int.tdiv_nonneg (b := 2) hw (by norm_num); omega
  exact inset_shrinks hl (h p hp) hw _ (by rw [← r64_zero]; exact r64_mono (by exact_mod_cast h1)) inset hi

theorem perimeter_in {ls : List Layer} (h : LayersIn R o ls) : Yields (perimeterModifier lib o ls) (LayersIn R o) := by
  unfold perimeterModifier
  refine yields_mapM ls fun l hlm => ?_
  unfold perimeterLayer
  have hp := perimetersOf_in hl hm (h l hlm).1
  refine yields_bind (P := fun r => ∀ ps ∈ r, R.HasParts ps) (yields_mapM _ fun part hpart => ?_) fun ov hov => yields_pure ?_
  · unfold overlapOfPart
    refine yields_bind yields_index fun innermost hi => yields_pure ?_
    exact hasParts_flatMap fun q hq => overlapPerimeter_in hl hm (hp part hpart innermost hi q hq)
  · refine layerIn_set (layerIn_set (layerIn_extend (h l hlm)) fun _ => ?_) fun _ => ?_
    · simpa [attrMargin, grow_zero, Rect.HasAttr] using hp
    · simpa [attrMargin, grow_zero, Rect.HasAttr] using hov

omit hm in
theorem addInfill_in {ov : Res (List LayerPart)} (ho : Yields ov R.HasParts) (parts : List LayerPart) {infill : List LayerPart} (hi : R.HasParts infill) :
    Yields (addInfill lib o ov parts infill) R.HasParts := by
  unfold addInfill
  dsimp only
  split
  · exact yields_pure hi
  · exact yields_bind ho fun border hb => yields_bind (yields_intersection hl hb) fun clipped hc => yields_union hl hi hc

omit hm in
theorem infillParts_in {layers : List Layer} {layerNr : Nat} {ov : List (List LayerPart)} (ho : ∀ ps ∈ ov, R.HasParts ps) (pe : OffsetResult) :
    ∀ (k : Nat) (infill : List LayerPart × List LayerPart), R.HasParts infill.1 ∧ R.HasParts infill.2 →
      Yields (infillParts lib o layers layerNr ov k pe infill) fun r => R.HasParts r.1 ∧ R.HasParts r.2 := by
  induction pe with
  | nil => intro k infill h; exact yields_ok h
  | cons part rest ih =>
    intro k infill h
    rw [infillParts]
    refine yields_bind (yields_any _) fun innermost _ => ?_
    refine yields_bind (yields_foldlM (P := fun (r : List LayerPart × List LayerPart) => R.HasParts r.1 ∧ R.HasParts r.2) _ (fun infill p _ hi => ?_) infill h) fun infill hi => ih (k + 1) infill hi
    have hov : Yields (index ov (k : Int)) R.HasParts := yields_mono yields_index fun a ha => ho a ha
    unfold infillPart
    refine yields_bind (yields_any _) fun b _ => yields_bind (yields_any _) fun t _ => ?_
    exact yields_bind (addInfill_in hl hov b hi.1) fun b' hb => yields_bind (addInfill_in hl hov t hi.2) fun t' ht => yields_pure ⟨hb, ht⟩

omit hm in
theorem infillLayer_in {layers : List Layer} {layerNr : Nat} {l : Layer} (h : LayerIn R o l) :
    Yields (infillLayer lib o layers layerNr l) fun r => ∀ l', r = some l' → LayerIn R o l' := by
  unfold infillLayer
  refine yields_bind (layerIn_overlap h) fun ov hov => ?_
  split
  · exact yields_pure (by simp)
  refine yields_bind (yields_any _) fun pe _ => ?_
  split
  · exact yields_pure (by simp)
  refine yields_bind (infillParts_in hl hov pe 0 ([], []) ⟨hasParts_nil _, hasParts_nil _⟩) fun infill hi => ?_
  refine yields_bind (P := R.HasParts) ?_ fun top ht => yields_pure ?_
  · unfold topWithoutBottom
    split
    · exact yields_difference hl hi.2
    · exact yields_ok hi.2
  · rintro l' ⟨⟩
    refine layerIn_setParts (layerIn_setParts (layerIn_extend h) fun _ => ?_) fun _ => ?_
    · simpa [attrMargin, grow_zero] using hi.1
    · simpa [attrMargin, grow_zero] using ht

omit hm in
theorem infill_in {ls : List Layer} (h : LayersIn R o ls) : Yields (infillModifier lib o ls) (LayersIn R o) := by
  have key : ∀ (n k : Nat) (ls : List Layer), LayersIn R o ls → Yields (infillLoop lib o n k ls) (LayersIn R o) := by
    intro n
    induction n with
    | zero => intro k ls h; exact yields_ok h
    | succ n ih =>
      intro k ls h
      rw [infillLoop]
      refine yields_bind yields_index fun l hlm => yields_bind (infillLayer_in hl (h l hlm)) fun new hn => ?_
      cases new with
      | none => exact yields_ok h
      | some l' => exact ih _ _ (layersIn_set h (hn l' rfl) k)
  exact key _ 0 ls h

omit hm in
theorem internal_in {ls : List Layer} (h : LayersIn R o ls) : Yields (internalInfillModifier lib o ls) (LayersIn R o) := by
  induction ls with
  | nil => exact yields_ok h
  | cons l rest ih =>
    have h0 := h l List.mem_cons_self
    rw [internalInfillModifier]
    refine yields_bind (P := fun r => ∀ l', r = some l' → LayerIn R o l') ?_ fun new hn => ?_
    · unfold internalLayer
      refine yields_bind (layerIn_overlap h0) fun ov hov => ?_
      split
      · exact yields_pure (by simp)
      refine yields_bind (yields_any _) fun b _ => yields_bind (yields_any _) fun t _ => ?_
      refine yields_bind (yields_mapM (P := R.HasParts) _ fun part hpart => ?_) fun internal hi => yields_pure ?_
      · unfold internalPart
        split
        · exact yields_ok (hasParts_nil _)
        split
        · exact yields_ok (hasParts_nil _)
        · exact yields_difference hl (hov part hpart)
      · rintro l' ⟨⟩
        split
        · refine layerIn_set h0 fun _ => ?_
          have : R.HasParts internal.flatten := by
            intro p hp
            obtain ⟨ps, hps, hp⟩ := List.mem_flatten.1 hp
            exact hi ps hps p hp
          simpa [attrMargin, grow_zero, Rect.HasAttr] using this
        · exact h0
    · cases new with
      | none => exact yields_ok h
      | some l' =>
        refine yields_bind (ih fun x hx => h x (List.mem_cons_of_mem _ hx)) fun rest' hr => yields_pure ?_
        intro x hx
        rcases List.mem_cons.1 hx with rfl | hx
        · exact hn _ rfl
        · exact hr x hx

omit hl hm in
theorem treesContours_mem {tree : List PolyNode} {c : PolyNode} (h : c ∈ tree) : c.contour ∈ treesContours tree := by
  induction tree with
  | nil => cases h
  | cons t ts ih =>
    rw [treesContours, List.mem_append]
    rcases List.mem_cons.1 h with rfl | h
    · left; cases c; simp [treeContours, PolyNode.contour]
    · exact .inr (ih h)

omit hm in
theorem topLevelOutlines_in {pe : OffsetResult} (h : ∀ part ∈ pe, ∀ inset ∈ part, R.HasParts inset) : R.HasParts (topLevelOutlines lib pe) := by
  have h1 : R.HasParts (outerPerimeters pe) := by
    intro p hp
    obtain ⟨part, hpart, hp⟩ := List.mem_flatMap.1 hp
    obtain ⟨inset, hi, hp⟩ := List.mem_filterMap.1 hp
    exact h part hpart inset hi p (List.mem_of_head? hp)
  intro p hp
  obtain ⟨path, hpath, rfl⟩ := List.mem_map.1 hp
  refine ⟨?_, fun c hc => by cases hc⟩
  unfold ClipperLib.topLevelPolygons at hpath
  cases he : lib.execute .union ((outerPerimeters pe).map fun p => clipperPath p.outline) [] with
  | none => rw [he] at hpath; cases hpath
  | some tree =>
    rw [he] at hpath
    simp only [Option.map_some, Option.getD_some, List.mem_map] at hpath
    obtain ⟨c, hc, rfl⟩ := hpath
    have := hl.union R _ _ _ he (fun c hc q hq => by
      obtain ⟨p, hp, rfl⟩ := List.mem_map.1 hc
      obtain ⟨r, hr, rfl⟩ := List.mem_map.1 hq
      exact (h1 p hp).1 r hr) (fun c hc => by cases hc)
    intro q hq
    obtain ⟨r, hr, rfl⟩ := List.mem_map.1 hq
    exact this c.contour (treesContours_mem hc) r hr

theorem brim_in {ls : List Layer} (h : LayersIn R o ls) : Yields (brimModifier lib o ls) (LayersIn R o) := by
  unfold brimModifier
  split
  · exact yields_ok h
  cases ls with
  | nil => intro _ hc; cases hc
  | cons l rest =>
    have h0 := h l List.mem_cons_self
    refine yields_bind (P := LayerIn R o) ?_ fun l' hl' => yields_pure fun x hx => ?_
    · unfold brimLayer
      refine yields_bind (layerIn_perimeters h0) fun pe hpe => ?_
      split
      · exact yields_pure h0
      split
      · exact yields_pure h0
      refine yields_pure ?_
      unfold setBrim
      refine layerIn_setParts ?_ (fun hc => absurd rfl hc)
      split
      · refine layerIn_set (layerIn_extend h0) fun _ => ?_
        intro part hpart inset hi
        obtain ⟨p, hp, rfl⟩ := List.mem_map.1 hpart
        have hw := hm.width
        have hb := abs_le.1 hm.brim
        have := inset_grows hl (topLevelOutlines_in hl hpe p hp) hw.1 (count := o.print.brimSkirt.brimCount) (initial := o.printer.extrusionWidth)
          (by rw [abs_of_nonneg hw.1]; nlinarith [mul_le_mul_of_nonneg_right hb.2 hw.1]) inset hi
        rwa [show o.printer.extrusionWidth + (o.print.brimSkirt.brimCount - 1) * o.printer.extrusionWidth = brimWidth o by unfold brimWidth; ring] at this
      · exact layerIn_extend h0
    · rcases List.mem_cons.1 hx with rfl | hx
      · exact hl'
      · exact h x (List.mem_cons_of_mem _ hx)

theorem detector_in (tan : ℚ) {ls : List Layer} (h : LayersIn R o ls) : Yields (supportDetector lib tan o ls) (LayersIn R o) := by
  unfold supportDetector
  split
  swap
  · exact yields_ok h
  rename_i he
  have key : ∀ (n k : Nat) (ls : List Layer), LayersIn R o ls → Yields (detectorLoop lib tan o n k ls) (LayersIn R o) := by
    intro n
    induction n with
    | zero => intro k ls h; exact yields_ok h
    | succ n ih =>
      intro k ls h
      rw [detectorLoop]
      split
      · exact ih _ _ h
      refine yields_bind yields_index fun below hbelow => yields_bind yields_index fun above habove => ?_
      refine yields_bind (P := (R.grow (supportMargin o)).HasParts) ?_ fun support hs => ?_
      · unfold detectSupport
        refine yields_bind (yields_difference hl (h above habove).1) fun support hs => yields_pure ?_
        rw [oneInset]
        refine hasParts_flatMap fun p hp => ?_
        have hsp := abs_le.1 hm.spacing
        have := inset1_in hl (hs p hp) (r64 (((toMicrometer o.print.support.patternSpacing * 3).tdiv 2 : Int) : ℚ))
        have hp1 : 0 ≤ toMicrometer o.print.support.patternSpacing * 3 → (toMicrometer o.print.support.patternSpacing * 3).tdiv 2 = toMicrometer o.print.support.patternSpacing * 3 / 2 :=
          fun h => Int.tdiv_eq_ediv_of_nonneg h
        have hp2 : toMicrometer o.print.support.patternSpacing * 3 ≤ 0 → (toMicrometer o.print.support.patternSpacing * 3).tdiv 2 = -(-(toMicrometer o.print.support.patternSpacing * 3) / 2) := by
          intro h
          rw [← Int.tdiv_eq_ediv_of_nonneg (by omega), Int.neg_tdiv, neg_neg]
        have hex : r64 (((toMicrometer o.print.support.patternSpacing * 3).tdiv 2 : Int) : ℚ) = ((toMicrometer o.print.support.patternSpacing * 3).tdiv 2 : Int) :=
          r64_intCast (by rw [abs_le]; constructor <;> omega)
        rw [hex] at this ⊢
        refine hasParts_mono ?_ this
        unfold supportMargin
        rw [if_pos he]
        by_cases hz : 0 ≤ toMicrometer o.print.support.patternSpacing
        · refine reach_mono ?_
          exact_mod_cast (by omega : (toMicrometer o.print.support.patternSpacing * 3).tdiv 2 ≤ 3 * toMicrometer o.print.support.patternSpacing / 2)
        · rw [reach_nonpos]
          · exact reach_nonneg _
          · exact_mod_cast (by omega : (toMicrometer o.print.support.patternSpacing * 3).tdiv 2 ≤ 0)
      refine yields_bind yields_index fun target htarget => ih _ _ (layersIn_set h ?_ _)
      exact layerIn_setParts (layerIn_extend (h target htarget)) fun _ => hs
  exact key _ 0 ls h

omit hm in
theorem generator_in {ls : List Layer} (h : LayersIn R o ls) : Yields (supportGenerator lib o ls) (LayersIn R o) := by
  unfold supportGenerator
  split
  swap
  · exact yields_ok h
  have key : ∀ (n : Nat) (ls : List Layer) (last : List LayerPart), LayersIn R o ls → (R.grow (supportMargin o)).HasParts last →
      Yields (generatorLoop lib o n ls last) (LayersIn R o) := by
    intro n
    induction n with
    | zero => intro ls last h _; exact yields_ok h
    | succ n ih =>
      intro ls last h hlast
      rw [generatorLoop]
      refine yields_bind (P := fun r => LayersIn R o r.1 ∧ (R.grow (supportMargin o)).HasParts r.2) ?_ fun r hr => ih _ _ hr.1 hr.2
      unfold generatorStep
      refine yields_bind yields_index fun layer hlayer => yields_bind yields_index fun below hbelow => ?_
      refine yields_bind (P := (R.grow (supportMargin o)).HasParts) ?_ fun current hcur => ?_
      · unfold currentSupport
        split
        · exact layerIn_parts (h layer hlayer) (name := "support") (by decide)
        · exact yields_ok hlast
      refine yields_bind (layerIn_parts (h below hbelow) (name := "support") (by decide)) fun bs hbs => ?_
      split
      · exact yields_pure ⟨h, hlast⟩
      refine yields_bind (yields_union hl hcur hbs) fun result hres => yields_bind (yields_difference hl hres) fun actual hact => ?_
      refine yields_bind (P := fun r => (R.grow (supportMargin o)).HasParts r.1 ∧ (R.grow (supportMargin o)).HasParts r.2) ?_ fun parts hparts => yields_pure ⟨layersIn_set h ?_ _, hact⟩
      · unfold supportInterface
        split
        · exact yields_pure ⟨hasParts_nil _, hasParts_nil _⟩
        dsimp only
        refine yields_bind (yields_any _) fun above _ => yields_bind (yields_any _) fun fs _ => ?_
        refine yields_bind (yields_difference hl hact) fun interface hi => yields_bind (yields_difference hl hact) fun rest hr => ?_
        refine yields_bind (yields_any _) fun ob _ => ?_
        split
        · exact yields_pure ⟨hi, hr⟩
        · refine yields_pure ⟨?_, ?_⟩
          · cases hd : lib.difference interface ob with
            | none => exact hasParts_nil _
            | some r => exact difference_in hl hd hi
          · cases hd : lib.difference rest ob with
            | none => exact hasParts_nil _
            | some r => exact difference_in hl hd hr
      · unfold setSupport
        refine layerIn_set (layerIn_setParts (layerIn_setParts (layerIn_extend (h below hbelow)) ?_) ?_) ?_
        · exact fun _ => hact
        · exact fun _ => hparts.1
        · exact fun _ => hparts.2
  exact key _ ls [] h (hasParts_nil _)

/-- All modifiers stay inside the area. -/
theorem modifiers_in (tan : ℚ) {ls : List Layer} (h : LayersIn R o ls) :
    Yields ((standardModifiers lib tan o).foldlM (fun ls m => m ls) ls) (LayersIn R o) := by
  simp only [standardModifiers, List.foldlM_cons, List.foldlM_nil]
  refine yields_bind (perimeter_in hl hm h) fun l1 h1 => yields_bind (infill_in hl h1) fun l2 h2 => yields_bind (internal_in hl h2) fun l3 h3 => ?_
  refine yields_bind (brim_in hl hm h3) fun l4 h4 => yields_bind (detector_in hl hm tan h4) fun l5 h5 => yields_bind (generator_in hl h5) fun l6 h6 => yields_pure h6

end
end Verif
