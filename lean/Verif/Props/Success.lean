import Verif.Props.Support

/-! # All modifiers succeed -/
namespace Verif
open Verif.Go Verif.Model Verif.Spec

/-- The computation succeeds with a result which has the property. -/
def Succeeds {α : Type} (x : Res α) (P : α → Prop) : Prop := ∃ a, x = .ok a ∧ P a

theorem succeeds_bind {α β : Type} {x : Res α} {f : α → Res β} {P : α → Prop} {Q : β → Prop} (hx : Succeeds x P) (hf : ∀ a, P a → Succeeds (f a) Q) :
    Succeeds (x >>= f) Q := by
  obtain ⟨a, ha, hp⟩ := hx
  obtain ⟨b, hb, hq⟩ := hf a hp
  exact ⟨b, bind_ok.2 ⟨a, ha, hb⟩, hq⟩

theorem succeeds_bind_eq {α β : Type} {x : Res α} {a : α} {f : α → Res β} {Q : β → Prop} (hx : x = .ok a) (hf : Succeeds (f a) Q) :
    Succeeds (x >>= f) Q := succeeds_bind (P := (· = a)) ⟨a, hx, rfl⟩ fun _ h => h ▸ hf

theorem succeeds_pure {α : Type} {a : α} {P : α → Prop} (h : P a) : Succeeds (pure a : Res α) P := ⟨a, rfl, h⟩

theorem succeeds_mono {α : Type} {x : Res α} {P Q : α → Prop} (h : Succeeds x P) (hq : ∀ a, P a → Q a) : Succeeds x Q := by
  obtain ⟨a, ha, hp⟩ := h
  exact ⟨a, ha, hq a hp⟩

theorem succeeds_index {α : Type} {l : List α} {i : Int} (h0 : 0 ≤ i) (h : i < l.length) : Succeeds (index l i) (· ∈ l) := by
  have hi : i.toNat < l.length := by omega
  refine ⟨l[i.toNat], ?_, List.getElem_mem hi⟩
  unfold index
  rw [if_pos h0, List.getElem?_eq_getElem hi]

theorem succeeds_foldlM {α β : Type} {f : β → α → Res β} {P : β → Prop} (l : List α) (hf : ∀ b, ∀ a ∈ l, P b → Succeeds (f b a) P) :
    ∀ b, P b → Succeeds (l.foldlM f b) P := by
  induction l with
  | nil => intro b hb; exact succeeds_pure hb
  | cons a l ih =>
    intro b hb
    rw [List.foldlM_cons]
    exact succeeds_bind (hf b a List.mem_cons_self hb) fun b' hb' => ih (fun b a ha => hf b a (List.mem_cons_of_mem _ ha)) b' hb'

theorem succeeds_mapM {α β : Type} {f : α → Res β} {P : β → Prop} (l : List α) (hf : ∀ a ∈ l, Succeeds (f a) P) :
    Succeeds (l.mapM f) fun r => r.length = l.length ∧ ∀ b ∈ r, P b := by
  induction l with
  | nil => exact succeeds_pure ⟨rfl, by simp⟩
  | cons a l ih =>
    rw [List.mapM_cons]
    refine succeeds_bind (hf a List.mem_cons_self) fun b hb => ?_
    refine succeeds_bind (ih fun a ha => hf a (List.mem_cons_of_mem _ ha)) fun bs hbs => ?_
    exact succeeds_pure ⟨by simp [hbs.1], by simpa using ⟨hb, hbs.2⟩⟩

/-- The value has the type which the code expects for the attribute. -/
def RightType (name : String) : Attr → Prop
  | .offsetResult _ => name = "perimeters" ∨ name = "brim"
  | .partLists _ => name = "overlapPerimeters"
  | .parts _ => name ≠ "perimeters" ∧ name ≠ "brim" ∧ name ≠ "overlapPerimeters"
  | .other _ => False

/-- All attributes of the layer have the right type. -/
def Typed (l : Layer) : Prop := ∀ name v, l.attr name = some v → RightType name v

theorem typed_plain (parts : List LayerPart) : Typed { parts := parts } := by
  intro name v h
  cases h

theorem typed_extend {l : Layer} (h : Typed l) : Typed l.extend := by
  intro name v hv
  rw [attr_extend] at hv
  exact h name v hv

theorem typed_set {l : Layer} (h : Typed l) {name : String} {v : Attr} (hv : RightType name v) : Typed (l.set name v) := by
  intro name' v' h'
  by_cases he : name' = name
  · subst he
    cases l with
    | mk p a =>
      cases a with
      | none => cases h'
      | some m =>
        simp only [Layer.set, Layer.attr, AttrMap.insert, Option.map_some, Option.bind_some, if_true, Option.some.injEq] at h'
        rw [← h']; exact hv
  · rw [attr_set_other l v he] at h'
    exact h name' v' h'

theorem typed_setParts {l : Layer} (h : Typed l) {name : String} (hn : name ≠ "perimeters" ∧ name ≠ "brim" ∧ name ≠ "overlapPerimeters")
    (ps : List LayerPart) : Typed (setParts l name ps) := by
  unfold setParts
  split
  · exact typed_set h hn
  · exact h

theorem typed_parts {l : Layer} (h : Typed l) {name : String} (hn : name ≠ "perimeters" ∧ name ≠ "brim" ∧ name ≠ "overlapPerimeters") :
    ∃ ps, l.partsAttribute name = .ok ps := by
  unfold Layer.partsAttribute
  cases ha : l.attr name with
  | none => exact ⟨_, rfl⟩
  | some v =>
    have := h name v ha
    cases v <;> simp_all [RightType]

theorem typed_overlap {l : Layer} (h : Typed l) : ∃ ps, l.overlapPerimeters = .ok ps := by
  unfold Layer.overlapPerimeters
  cases ha : l.attr "overlapPerimeters" with
  | none => exact ⟨_, rfl⟩
  | some v =>
    have := h _ v ha
    cases v <;> simp_all [RightType]

theorem typed_perimeters {l : Layer} (h : Typed l) : ∃ ps, l.perimeters = .ok ps := by
  unfold Layer.perimeters
  cases ha : l.attr "perimeters" with
  | none => exact ⟨_, rfl⟩
  | some v =>
    have := h _ v ha
    cases v <;> simp_all [RightType]

theorem typed_brim {l : Layer} (h : Typed l) : ∃ ps, l.brim = .ok ps := by
  unfold Layer.brim
  cases ha : l.attr "brim" with
  | none => exact ⟨_, rfl⟩
  | some v =>
    have := h _ v ha
    cases v <;> simp_all [RightType]

theorem typed_outerBrim {l : Layer} (h : Typed l) : ∃ ps, l.brimOuterDimension = .ok ps := by
  unfold Layer.brimOuterDimension
  cases ha : l.attr "outerBrim" with
  | none => exact ⟨_, rfl⟩
  | some v =>
    have := h _ v ha
    cases v <;> simp_all [RightType]

theorem typed_fullSupport {l : Layer} (h : Typed l) : ∃ ps, l.fullSupport = .ok ps := by
  unfold Layer.fullSupport
  cases ha : l.attr "fullSupport" with
  | none => exact ⟨_, rfl⟩
  | some v =>
    have := h _ v ha
    cases v <;> simp_all [RightType]

/-- Perimeters and overlapping perimeters belong together. -/
def Matching (l : Layer) : Prop :=
  ∃ pe ov, l.perimeters = .ok pe ∧ l.overlapPerimeters = .ok ov ∧ ov.length = pe.length ∧ ∀ part ∈ pe, part ≠ []

theorem matching_same {names : List String} {l l' : Layer} (h : Matching l) (hs : SameBut names l l') (h1 : "perimeters" ∉ names) (h2 : "overlapPerimeters" ∉ names) :
    Matching l' := by
  obtain ⟨pe, ov, hp, ho, hl, hn⟩ := h
  refine ⟨pe, ov, ?_, ?_, hl, hn⟩
  · rw [← hp]; unfold Layer.perimeters; rw [hs.2 _ h1]
  · rw [← ho]; unfold Layer.overlapPerimeters; rw [hs.2 _ h2]

section
variable {lib : ClipperLib} (hf : NeverFails lib)
include hf

theorem succeeds_clip (msg : String) (t : ClipType) (a b : List LayerPart) : Succeeds (orErr msg (lib.runClipper t a b)) fun _ => True := by
  obtain ⟨r, hr⟩ := runClipper_some hf t a b
  exact ⟨r, by rw [hr]; rfl, trivial⟩

theorem succeeds_unionIfNeeded (msg : String) (a b : List LayerPart) : Succeeds (unionIfNeeded lib msg a b) fun _ => True := by
  unfold unionIfNeeded
  split
  · exact ⟨b, rfl, trivial⟩
  · exact succeeds_clip hf _ _ _ _

theorem succeeds_bottomLoop (layers : List Layer) (layerNr : Nat) (hn : layerNr < layers.length) (part : LayerPart) :
    ∀ (n i : Nat) (acc : List LayerPart), Succeeds (bottomLoop lib layers layerNr part n i acc) fun _ => True := by
  intro n
  induction n with
  | zero => intro i acc; exact ⟨acc, rfl, trivial⟩
  | succ n ih =>
    intro i acc
    rw [bottomLoop]
    split
    · exact succeeds_bind (succeeds_unionIfNeeded hf _ _ _) fun acc _ => ih _ _
    split
    · exact ⟨acc, rfl, trivial⟩
    · refine succeeds_bind (succeeds_index (by omega) (by omega)) fun below _ => ?_
      refine succeeds_bind (succeeds_clip hf _ _ _ _) fun parts _ => ?_
      exact succeeds_bind (succeeds_unionIfNeeded hf _ _ _) fun acc _ => ih _ _

theorem succeeds_topLoop (layers : List Layer) (layerNr : Nat) (part : LayerPart) :
    ∀ (n i : Nat) (acc : List LayerPart), Succeeds (topLoop lib layers layerNr part n i acc) fun _ => True := by
  intro n
  induction n with
  | zero => intro i acc; exact ⟨acc, rfl, trivial⟩
  | succ n ih =>
    intro i acc
    rw [topLoop]
    split
    · exact succeeds_bind (succeeds_unionIfNeeded hf _ _ _) fun acc _ => ih _ _
    split
    · exact ⟨acc, rfl, trivial⟩
    · refine succeeds_bind (succeeds_index (by omega) (by omega)) fun above _ => ?_
      refine succeeds_bind (succeeds_clip hf _ _ _ _) fun parts _ => ?_
      exact succeeds_bind (succeeds_unionIfNeeded hf _ _ _) fun acc _ => ih _ _

theorem succeeds_addInfill (o : Options) (overlapping : Res (List LayerPart)) (ho : Succeeds overlapping fun _ => True) (parts infill : List LayerPart) :
    Succeeds (addInfill lib o overlapping parts infill) fun _ => True := by
  unfold addInfill
  dsimp only
  split
  · exact succeeds_pure trivial
  · refine succeeds_bind ho fun border _ => ?_
    refine succeeds_bind (succeeds_clip hf _ _ _ _) fun clipped _ => ?_
    exact succeeds_clip hf _ _ _ _

theorem succeeds_infillParts (o : Options) (layers : List Layer) (layerNr : Nat) (hn : layerNr < layers.length) (ov : List (List LayerPart)) (pe : OffsetResult) :
    ∀ (k : Nat) (infill : List LayerPart × List LayerPart), k + pe.length = ov.length → (∀ part ∈ pe, part ≠ []) →
      Succeeds (infillParts lib o layers layerNr ov k pe infill) fun _ => True := by
  induction pe with
  | nil => intro k infill _ _; exact ⟨infill, rfl, trivial⟩
  | cons part rest ih =>
    intro k infill hk hne
    rw [List.length_cons] at hk
    have hp : 0 < part.length := List.length_pos_iff.2 (hne part List.mem_cons_self)
    rw [infillParts]
    refine succeeds_bind (succeeds_index (by omega) (by omega)) fun innermost _ => ?_
    refine succeeds_bind (succeeds_foldlM (P := fun _ => True) _ (fun infill p _ _ => ?_) infill trivial) fun infill _ =>
      ih (k + 1) infill (by omega) fun p hp => hne p (List.mem_cons_of_mem _ hp)
    have hov : Succeeds (index ov (k : Int)) fun _ => True := succeeds_mono (succeeds_index (by omega) (by omega)) fun _ _ => trivial
    unfold infillPart
    refine succeeds_bind (succeeds_bottomLoop hf layers layerNr hn p _ _ _) fun b _ => ?_
    refine succeeds_bind (succeeds_topLoop hf layers layerNr p _ _ _) fun t _ => ?_
    refine succeeds_bind (succeeds_addInfill hf o _ hov b _) fun b' _ => ?_
    refine succeeds_bind (succeeds_addInfill hf o _ hov t _) fun t' _ => ?_
    exact succeeds_pure trivial

theorem succeeds_infillLayer (o : Options) (layers : List Layer) (layerNr : Nat) (hn : layerNr < layers.length) (l : Layer) (ht : Typed l) (hm : Matching l) :
    Succeeds (infillLayer lib o layers layerNr l) fun r => ∀ l', r = some l' → Typed l' := by
  obtain ⟨pe, ov, hp, ho, hlen, hne⟩ := hm
  unfold infillLayer
  rw [ho, hp]
  refine succeeds_bind_eq (rfl) ?_
  split
  · exact succeeds_pure (by simp)
  refine succeeds_bind_eq (rfl) ?_
  split
  · exact succeeds_pure (by simp)
  refine succeeds_bind (succeeds_infillParts hf o layers layerNr hn _ _ 0 ([], []) (by omega) hne) fun infill _ => ?_
  refine succeeds_bind (P := fun _ => True) ?_ fun top _ => succeeds_pure ?_
  · unfold topWithoutBottom
    split
    · exact succeeds_clip hf _ _ _ _
    · exact ⟨_, rfl, trivial⟩
  · rintro l' rfl'
    cases rfl'
    exact typed_setParts (typed_setParts (typed_extend ht) (by decide) _) (by decide) _

/-- All layers have the right types, and their perimeters match. -/
def LayersFine (ls : List Layer) : Prop := ∀ l ∈ ls, Typed l ∧ Matching l

theorem succeeds_infillLoop (o : Options) : ∀ (n k : Nat) (ls : List Layer), k + n = ls.length → LayersFine ls →
    Succeeds (infillLoop lib o n k ls) LayersFine := by
  intro n
  induction n with
  | zero => intro k ls _ h; exact ⟨ls, rfl, h⟩
  | succ n ih =>
    intro k ls hk h
    rw [infillLoop]
    have hkl : k < ls.length := by omega
    refine succeeds_bind_eq (index_of (List.getElem?_eq_getElem hkl)) ?_
    obtain ⟨ht, hm⟩ := h _ (List.getElem_mem hkl)
    obtain ⟨new, hnew, hty⟩ := succeeds_infillLayer hf o ls k hkl _ ht hm
    refine succeeds_bind_eq (hnew) ?_
    cases new with
    | none => exact ⟨ls, rfl, h⟩
    | some l' =>
      refine ih (k + 1) _ (by rw [List.length_set]; omega) ?_
      intro l hl
      rcases List.mem_or_eq_of_mem_set hl with hl | rfl
      · exact h l hl
      · exact ⟨hty _ rfl, matching_same hm (infillLayer_same lib o ls k _ _ hnew) (by decide) (by decide)⟩

theorem succeeds_infill (o : Options) (ls : List Layer) (h : LayersFine ls) : Succeeds (infillModifier lib o ls) LayersFine :=
  succeeds_infillLoop hf o _ 0 ls (by omega) h

theorem succeeds_internal (o : Options) (ls : List Layer) (h : LayersFine ls) : Succeeds (internalInfillModifier lib o ls) LayersFine := by
  induction ls with
  | nil => exact ⟨[], rfl, h⟩
  | cons l rest ih =>
    obtain ⟨ht, hm⟩ := h l List.mem_cons_self
    have hl : Succeeds (internalLayer lib o l) fun r => ∀ l', r = some l' → Typed l' := by
      unfold internalLayer
      obtain ⟨ov, ho⟩ := typed_overlap ht
      obtain ⟨b, hb⟩ := typed_parts ht (name := "bottom") (by decide)
      obtain ⟨t, htop⟩ := typed_parts ht (name := "top") (by decide)
      rw [ho, hb, htop]
      refine succeeds_bind_eq (rfl) ?_
      split
      · exact succeeds_pure (by simp)
      refine succeeds_bind_eq (rfl) ?_
      refine succeeds_bind_eq (rfl) ?_
      refine succeeds_bind (succeeds_mapM (P := fun _ => True) _ fun part _ => ?_) fun internal _ => succeeds_pure ?_
      · unfold internalPart
        split
        · exact ⟨_, rfl, trivial⟩
        split
        · exact ⟨_, rfl, trivial⟩
        · exact succeeds_clip hf _ _ _ _
      · intro l' hl'
        cases hl'
        split
        · exact typed_set ht (by show _ ∧ _; decide)
        · exact ht
    rw [internalInfillModifier]
    obtain ⟨new, hnew, hty⟩ := hl
    refine succeeds_bind_eq (hnew) ?_
    cases new with
    | none => exact ⟨_, rfl, h⟩
    | some l' =>
      refine succeeds_bind (ih fun l hl => h l (List.mem_cons_of_mem _ hl)) fun rest' hrest => succeeds_pure ?_
      intro x hx
      rcases List.mem_cons.1 hx with rfl | hx
      · exact ⟨hty _ rfl, matching_same hm (internalLayer_same lib o _ _ hnew) (by decide) (by decide)⟩
      · exact hrest x hx

omit hf in
theorem succeeds_brim (o : Options) (ls : List Layer) (hne : ls ≠ [] ∨ o.print.brimSkirt.brimCount = 0) (h : LayersFine ls) :
    Succeeds (brimModifier lib o ls) LayersFine := by
  unfold brimModifier
  split
  · exact ⟨ls, rfl, h⟩
  rename_i hb
  cases ls with
  | nil => simp_all
  | cons l rest =>
    obtain ⟨ht, hm⟩ := h l List.mem_cons_self
    dsimp only
    have hl : Succeeds (brimLayer lib o l) Typed := by
      unfold brimLayer
      obtain ⟨pe, hp⟩ := typed_perimeters ht
      rw [hp]
      refine succeeds_bind_eq (rfl) ?_
      split
      · exact succeeds_pure ht
      split
      · exact succeeds_pure ht
      · refine succeeds_pure ?_
        unfold setBrim
        refine typed_setParts ?_ (by decide) _
        split
        · exact typed_set (typed_extend ht) (.inr rfl)
        · exact typed_extend ht
    obtain ⟨l', hl', hty⟩ := hl
    refine succeeds_bind_eq (hl') ?_
    refine succeeds_pure fun x hx => ?_
    rcases List.mem_cons.1 hx with rfl | hx
    · exact ⟨hty, matching_same hm (brimLayer_same lib o _ _ hl') (by decide) (by decide)⟩
    · exact h x (List.mem_cons_of_mem _ hx)

theorem succeeds_detector (tan : ℚ) (o : Options) (hg : 0 ≤ o.print.support.topGapLayers) (ls : List Layer) (h : LayersFine ls) :
    Succeeds (supportDetector lib tan o ls) LayersFine := by
  unfold supportDetector
  split
  swap
  · exact ⟨ls, rfl, h⟩
  have key : ∀ (n k : Nat) (ls : List Layer), k + n = ls.length → LayersFine ls → Succeeds (detectorLoop lib tan o n k ls) LayersFine := by
    intro n
    induction n with
    | zero => intro k ls _ h; exact ⟨ls, rfl, h⟩
    | succ n ih =>
      intro k ls hk h
      rw [detectorLoop]
      split
      · exact ih _ _ (by omega) h
      rename_i hc
      rw [not_or] at hc
      refine succeeds_bind (succeeds_index (by omega) (by omega)) fun below hbelow => ?_
      refine succeeds_bind (succeeds_index (by omega) (by omega)) fun above habove => ?_
      refine succeeds_bind (P := fun _ => True) ?_ fun support _ => ?_
      · unfold detectSupport
        refine succeeds_bind (succeeds_clip hf _ _ _ _) fun support _ => ?_
        exact succeeds_pure trivial
      refine succeeds_bind (succeeds_index (by omega) (by omega)) fun target htarget => ?_
      refine ih _ _ (by rw [List.length_set]; omega) ?_
      intro l hl
      rcases List.mem_or_eq_of_mem_set hl with hl | rfl
      · exact h l hl
      · obtain ⟨ht, hm⟩ := h target htarget
        exact ⟨typed_setParts (typed_extend ht) (by decide) _,
          matching_same hm ((extend_same ["support"] target).trans (setParts_same _ _ _)) (by decide) (by decide)⟩
  exact key _ 0 ls (by omega) h

theorem succeeds_generator (o : Options) (hi : 0 ≤ o.print.support.interfaceLayers) (ls : List Layer) (h : LayersFine ls) :
    Succeeds (supportGenerator lib o ls) LayersFine := by
  unfold supportGenerator
  split
  swap
  · exact ⟨ls, rfl, h⟩
  have key : ∀ (n : Nat) (ls : List Layer) (last : List LayerPart), n < ls.length ∨ n = 0 → LayersFine ls → Succeeds (generatorLoop lib o n ls last) LayersFine := by
    intro n
    induction n with
    | zero => intro ls last _ h; exact ⟨ls, rfl, h⟩
    | succ n ih =>
      intro ls last hn h
      have hn : n + 1 < ls.length := by omega
      rw [generatorLoop]
      refine succeeds_bind (P := fun r => r.1.length = ls.length ∧ LayersFine r.1) ?_ fun r hr => ih _ _ (.inl (by rw [hr.1]; omega)) hr.2
      unfold generatorStep
      refine succeeds_bind (succeeds_index (by omega) (by omega)) fun layer hlayer => ?_
      refine succeeds_bind (succeeds_index (by omega) (by omega)) fun below hbelow => ?_
      refine succeeds_bind (P := fun _ => True) ?_ fun current _ => ?_
      · unfold currentSupport
        split
        · obtain ⟨ps, hps⟩ := typed_parts (h layer hlayer).1 (name := "support") (by decide)
          exact ⟨ps, hps, trivial⟩
        · exact ⟨_, rfl, trivial⟩
      obtain ⟨bs, hbs⟩ := typed_parts (h below hbelow).1 (name := "support") (by decide)
      refine succeeds_bind_eq (hbs) ?_
      split
      · exact succeeds_pure ⟨rfl, h⟩
      refine succeeds_bind (succeeds_clip hf _ _ _ _) fun result _ => ?_
      refine succeeds_bind (succeeds_clip hf _ _ _ _) fun actual _ => ?_
      refine succeeds_bind (P := fun _ => True) ?_ fun parts _ => succeeds_pure ⟨by rw [List.length_set], ?_⟩
      · unfold supportInterface
        split
        · exact succeeds_pure trivial
        dsimp only
        refine succeeds_bind (succeeds_index (by split <;> omega) (by split <;> omega)) fun above habove => ?_
        obtain ⟨fs, hfs⟩ := typed_parts (h above habove).1 (name := "fullSupport") (by decide)
        refine succeeds_bind (P := fun _ => True) ⟨fs, hfs, trivial⟩ fun fs _ => ?_
        refine succeeds_bind (succeeds_clip hf _ _ _ _) fun interface _ => ?_
        refine succeeds_bind (succeeds_clip hf _ _ _ _) fun rest _ => ?_
        obtain ⟨ob, hob⟩ := typed_outerBrim (h below hbelow).1
        refine succeeds_bind (P := fun _ => True) ⟨ob, hob, trivial⟩ fun ob _ => ?_
        split <;> exact succeeds_pure trivial
      · intro l hl
        rcases List.mem_or_eq_of_mem_set hl with hl | rfl
        · exact h l hl
        · obtain ⟨ht, hm⟩ := h below hbelow
          refine ⟨?_, matching_same hm (setSupport_same _ _ _ _) (by decide) (by decide)⟩
          unfold setSupport
          exact typed_set (typed_setParts (typed_setParts (typed_extend ht) (by decide) _) (by decide) _) (by show _ ∧ _; decide)
  exact key _ ls [] (by omega) h

end

/-- The perimeter modifier succeeds and leaves matching perimeters. -/
theorem succeeds_perimeter (lib : ClipperLib) (o : Options) (hi : 1 ≤ o.print.insetCount) (ls : List Layer) (h : ∀ l ∈ ls, Typed l) :
    Succeeds (perimeterModifier lib o ls) LayersFine := by
  unfold perimeterModifier
  refine succeeds_mono (succeeds_mapM (P := fun l => Typed l ∧ Matching l) ls fun l hl => ⟨_, perimeterLayer_ok lib o l hi, ?_, ?_⟩) fun r hr => hr.2
  · refine typed_set (typed_set (typed_extend (h l hl)) ?_) ?_
    · exact Or.inl rfl
    · exact (rfl : _ = _)
  · refine ⟨perimetersOf lib o l.parts, (perimetersOf lib o l.parts).map fun part => (part.getLastD []).flatMap fun p => calculateOverlapPerimeter lib p o.print.infillOverlapPercent o.printer.extrusionWidth,
      (C68_perimeters _).1 _ ?_, (C68_overlap _).1 _ ?_, ?_, ?_⟩
    · rw [attr_set_other _ _ (by decide), attr_set_extend]
      rfl
    · rw [attr_set (extended_set (extended_extend _) _ _)]
      rfl
    · simp
    · intro part hp
      obtain ⟨q, _, rfl⟩ := List.mem_map.1 hp
      intro hc
      have := C39_count lib q o.printer.extrusionWidth o.print.insetCount ((-o.printer.extrusionWidth).tdiv 2)
      rw [hc] at this
      simp at this
      omega

/-- All modifiers succeed one after the other. -/
theorem succeeds_modifiers {lib : ClipperLib} (hf : NeverFails lib) (tan : ℚ) (o : Options) (hi : 1 ≤ o.print.insetCount)
    (hs : o.print.support.enabled = true → 0 ≤ o.print.support.topGapLayers ∧ 0 ≤ o.print.support.interfaceLayers) (ls : List Layer)
    (hb : ls ≠ [] ∨ o.print.brimSkirt.brimCount = 0) (h : ∀ l ∈ ls, Typed l) :
    Succeeds ((standardModifiers lib tan o).foldlM (fun ls m => m ls) ls) fun ls' => ls'.length = ls.length ∧ LayersFine ls' := by
  have key : Succeeds ((standardModifiers lib tan o).foldlM (fun ls m => m ls) ls) LayersFine := by
    simp only [standardModifiers, List.foldlM_cons, List.foldlM_nil]
    obtain ⟨l1, e1, h1⟩ := succeeds_perimeter lib o hi ls h
    refine succeeds_bind_eq (e1) ?_
    obtain ⟨l2, e2, h2⟩ := succeeds_infill hf o l1 h1
    refine succeeds_bind_eq (e2) ?_
    obtain ⟨l3, e3, h3⟩ := succeeds_internal hf o l2 h2
    refine succeeds_bind_eq (e3) ?_
    have hb' : l3 ≠ [] ∨ o.print.brimSkirt.brimCount = 0 := by
      refine hb.imp_left fun hne hc => hne ?_
      have := C61_parts lib tan o [perimeterModifier lib o, infillModifier lib o, internalInfillModifier lib o] (by simp [standardModifiers]) ls l3
        (by simp only [List.foldlM_cons, List.foldlM_nil, e1, e2, e3, bind, Except.bind]; rfl)
      rw [hc] at this
      simpa using this.symm
    obtain ⟨l4, e4, h4⟩ := succeeds_brim (lib := lib) o l3 hb' h3
    refine succeeds_bind_eq (e4) ?_
    by_cases he : o.print.support.enabled = true
    · obtain ⟨hg, hn⟩ := hs he
      refine succeeds_bind (succeeds_detector hf tan o hg l4 h4) fun l5 h5 => ?_
      refine succeeds_bind (succeeds_generator hf o hn l5 h5) fun l6 h6 => succeeds_pure h6
    · simp only [Bool.not_eq_true] at he
      simp only [supportDetector, supportGenerator, he]
      exact ⟨l4, rfl, h4⟩
  obtain ⟨ls', e, h'⟩ := key
  refine ⟨ls', e, ?_, h'⟩
  have := congrArg List.length (C61_parts lib tan o _ (fun _ h => h) ls ls' e)
  simpa using this

end Verif
