import Verif.Props.Sides

/-! # The areas of the infill of a layer for a point which is not near to a contour (C121) -/
namespace Verif
open Verif.Go Verif.Model Verif.Spec

section
variable {lib : ClipperLib} {tol : ℚ} {x : ℚ × ℚ} {o : Options}

theorem innermost_eq (hi : 1 ≤ o.print.insetCount) (hw : 0 ≤ o.printer.extrusionWidth) (hs : (o.print.insetCount + 1) * o.printer.extrusionWidth ≤ 2 ^ 53) (p : LayerPart) :
    ∃ d : ℚ, innermost lib o p = lib.inset1 p d ∧ |d| ≤ o.print.insetCount * o.printer.extrusionWidth := by
  set w := o.printer.extrusionWidth with hwd
  set n := o.print.insetCount.toNat with hn
  have hnn : (n : Int) = o.print.insetCount := Int.toNat_of_nonneg (by omega)
  have ha : |(-w).tdiv 2| ≤ w := by
    rw [Int.neg_tdiv, abs_neg, abs_of_nonneg (Int.tdiv_nonneg hw (by norm_num))]
    have := Int.tdiv_eq_ediv_of_nonneg hw (b := 2)
    omega
  have h53 : |(-w).tdiv 2| + (n : Int) * |w| ≤ 2 ^ 53 := by
    rw [abs_of_nonneg hw, hnn]; linarith
  have hw53 : |(-w).tdiv 2| ≤ 2 ^ 53 := by
    have : 0 ≤ (n : Int) * |w| := by positivity
    linarith
  have hlast := insetLoop_get lib p w n ((-w).tdiv 2) h53 (n - 1) (by omega)
  refine ⟨(((-w).tdiv 2 - ((n - 1 : Nat) : Int) * w : Int) : ℚ), ?_, ?_⟩
  · unfold innermost ClipperLib.inset
    rw [r64_intCast hw53, List.getLastD_eq_getLast?, List.getLast?_eq_getElem?, insetLoop_length, hlast]
    rfl
  · rw [← hnn]
    have e : ((n - 1 : Nat) : Int) = n - 1 := by omega
    have : |(-w).tdiv 2 - ((n - 1 : Nat) : Int) * w| ≤ (n : Int) * w := by
      rw [e]
      have h1 : 0 ≤ ((n : Int) - 1) * w := mul_nonneg (by omega) hw
      refine (abs_sub _ _).trans ?_
      rw [abs_of_nonneg h1]
      linarith
    exact_mod_cast this

theorem innermost_area {p q : LayerPart} (hi : 1 ≤ o.print.insetCount) (hw : 0 ≤ o.printer.extrusionWidth)
    (hs : (o.print.insetCount + 1) * o.printer.extrusionWidth ≤ 2 ^ 53) (hq : q ∈ innermost lib o p) : LibArea lib (partContours q) := by
  obtain ⟨d, hd, -⟩ := innermost_eq (lib := lib) hi hw hs p
  rw [hd] at hq
  exact inset1_area hq

variable (hk : KeepsSides lib tol) (h0 : 0 ≤ tol) (hi : 1 ≤ o.print.insetCount) (hw : 0 ≤ o.printer.extrusionWidth)
  (hs : (o.print.insetCount + 1) * o.printer.extrusionWidth ≤ 2 ^ 53)
include hk h0 hi hw hs

theorem innermost_sides {D : ℚ} (hD : 0 ≤ D) {p : LayerPart} (hp : LibArea lib (partContours p))
    (h : Clear (D + 3 / 2 * (o.print.insetCount * o.printer.extrusionWidth) + tol) [p] x) : Alike D [p] (innermost lib o p) x := by
  obtain ⟨d, hd, hd'⟩ := innermost_eq (lib := lib) hi hw hs p
  rw [hd]
  have := abs_nonneg d
  exact inset1_sides hk hD hp (h.mono (by positivity) (by linarith))

theorem infillBorder_sides {D g : ℚ} (hD : 0 ≤ D) (hg : Overlaps o o.print.infillOverlapPercent g) {p : LayerPart} (hp : LibArea lib (partContours p))
    (h : Clear (D + 3 / 2 * (o.print.insetCount * o.printer.extrusionWidth) + 3 / 2 * g + 2 * tol) [p] x) : Alike D [p] (infillBorder lib o p) x := by
  have hg0 : 0 ≤ g := (abs_nonneg _).trans hg
  have hW : (0 : ℚ) ≤ o.print.insetCount * o.printer.extrusionWidth := by exact_mod_cast mul_nonneg (by omega) hw
  have h1 := innermost_sides hk h0 hi hw hs (D := D + 3 / 2 * g + tol) (by linarith) hp (h.mono (by linarith) (by linarith))
  have h2 : Alike D (innermost lib o p) (infillBorder lib o p) x :=
    alike_flatMap fun q hq => overlap_sides hk h0 hD (innermost_area hi hw hs hq) hg (h1.1.single hq)
  exact ⟨h2.1, h2.2.trans h1.2⟩

end

theorem isBottom_same {ls ls' : List Layer} (h : ls'.map Layer.parts = ls.map Layer.parts) (j n : Nat) (x : ℚ × ℚ) : IsBottom ls' j n x ↔ IsBottom ls j n x := by
  have key : ∀ (k : Nat), (∃ below, ls'[k]? = some below ∧ x ∉ region enclosedBy below.parts) ↔
      ∃ below, ls[k]? = some below ∧ x ∉ region enclosedBy below.parts := by
    intro k
    have := congrArg (fun l => l[k]?) h
    simp only [List.getElem?_map] at this
    cases h1 : ls'[k]? <;> cases h2 : ls[k]? <;> simp_all
  simp only [IsBottom, exists_and_left, key]

theorem isTop_same {ls ls' : List Layer} (h : ls'.map Layer.parts = ls.map Layer.parts) (j n : Nat) (x : ℚ × ℚ) : IsTop ls' j n x ↔ IsTop ls j n x := by
  have key : ∀ (k : Nat), (∃ below, ls'[k]? = some below ∧ x ∉ region enclosedBy below.parts) ↔
      ∃ below, ls[k]? = some below ∧ x ∉ region enclosedBy below.parts := by
    intro k
    have := congrArg (fun l => l[k]?) h
    simp only [List.getElem?_map] at this
    cases h1 : ls'[k]? <;> cases h2 : ls[k]? <;> simp_all
  have hlen : ls'.length = ls.length := by simpa using congrArg List.length h
  simp only [IsTop, key, hlen]

theorem clearAround_same {ls ls' : List Layer} (h : ls'.map Layer.parts = ls.map Layer.parts) {D : ℚ} {j b t : Nat} {x : ℚ × ℚ} (hc : ClearAround D ls j b t x) :
    ClearAround D ls' j b t x := by
  intro k l hl h1 h2
  have := congrArg (fun l => l[k]?) h
  simp only [List.getElem?_map, hl, Option.map_some] at this
  obtain ⟨l0, e1, e2⟩ := Option.map_eq_some_iff.1 this.symm
  rw [← e2]
  exact hc k l0 e1 h1 h2

theorem partCount_flatten {parts : List LayerPart} {rs : List (List LayerPart)} {x : ℚ × ℚ} {c : Prop} [Decidable c]
    (h : List.Forall₂ (fun p r => partCount r x = if c then partCount [p] x else 0) parts rs) : partCount rs.flatten x = if c then partCount parts x else 0 := by
  induction h with
  | nil => simp
  | @cons p r ps rs h1 _ ih =>
    have e : p :: ps = [p] ++ ps := rfl
    rw [List.flatten_cons, partCount_append, h1, ih, e, partCount_append]
    split <;> rfl

theorem forall₂_and_mem {α β : Type} {R : α → β → Prop} {l : List α} {m : List β} (h : List.Forall₂ R l m) : List.Forall₂ (fun a b => a ∈ l ∧ R a b) l m := by
  induction h with
  | nil => exact .nil
  | cons h1 _ ih => exact .cons ⟨List.mem_cons_self, h1⟩ (ih.imp fun a b h => ⟨List.mem_cons_of_mem _ h.1, h.2⟩)

theorem top_only (A B T : Prop) : (A ∧ T) ∧ ¬(A ∧ B) ↔ A ∧ ¬B ∧ T := by tauto

theorem the_rest (A B T : Prop) : A ∧ ¬(A ∧ B ∨ A ∧ T) ↔ A ∧ ¬B ∧ ¬T := by tauto

theorem either_or (b t : Prop) : ¬(b ↔ t ∧ ¬b) ↔ b ∨ t := by tauto

/-- The internal infill of a layer: what is inside of the layer and neither in the bottom nor in the top infill. -/
theorem internalLayer_sides {lib : ClipperLib} {tol : ℚ} (hk : KeepsSides lib tol) {o : Options} {D : ℚ} (hD : 0 ≤ D) {x : ℚ × ℚ} (hpercent : o.print.infillPercent ≠ 0)
    {l2 l3 : Layer} (hext : IsExtended l2) {parts bottom top : List LayerPart} (hov2 : l2.overlapPerimeters = .ok (parts.map (infillBorder lib o)))
    (hb2 : HasParts l2 "bottom" bottom) (ht2 : HasParts l2 "top" top) (hno' : l2.attr "infill" = none) (hint : internalLayer lib o l2 = .ok (some l3))
    (hbd : ∀ p ∈ parts, Alike (D + tol) [p] (infillBorder lib o p) x) (hbot : Clear (D + tol) bottom x) (htop : Clear (D + tol) top x) :
    ∃ internal, HasParts l3 "infill" internal ∧ Clear D internal x ∧
      (x ∈ region enclosedBy internal ↔ x ∈ region enclosedBy parts ∧ x ∉ region enclosedBy (bottom ++ top)) := by
  classical
  simp only [internalLayer, hov2, partsAttribute_of hb2, partsAttribute_of ht2, bind_ok, pure, Except.pure, Except.ok.injEq] at hint
  obtain ⟨_, rfl, hint⟩ := hint
  split at hint
  · simp at hint
  simp only [bind_ok, Except.ok.injEq, Option.some.injEq] at hint
  obtain ⟨_, rfl, _, rfl, internal, hmm, rfl⟩ := hint
  have hmm := mapM_ok.1 hmm
  rw [List.forall₂_map_left_iff] at hmm
  have hpart : ∀ p ∈ parts, ∀ r, internalPart lib o bottom top (infillBorder lib o p) = .ok r → Clear D r x ∧
      partCount r x = if ¬ x ∈ region enclosedBy (bottom ++ top) then partCount [p] x else 0 := by
    intro p hp r hr
    have hal := hbd p hp
    unfold internalPart at hr
    rw [if_neg hpercent] at hr
    split at hr
    · next he =>
      cases hr
      refine ⟨clear_nil, ?_⟩
      rw [← hal.2, he.1]
      simp
    · obtain ⟨b1, b2, b3⟩ := clip_sides (x := x) hk hD (orErr_ok hr) hal.1 (hbot.append htop)
      refine ⟨b1, ?_⟩
      have b3 : x ∈ region enclosedBy r ↔ x ∈ region enclosedBy (infillBorder lib o p) ∧ x ∉ region enclosedBy (bottom ++ top) := b3
      rw [count_of_atMostOne b2, partCount_single]
      simp only [b3, hal.region]
      by_cases e1 : x ∈ region enclosedBy [p] <;> by_cases e2 : x ∈ region enclosedBy (bottom ++ top) <;> simp [e1, e2]
  have hcount : partCount internal.flatten x = if ¬ x ∈ region enclosedBy (bottom ++ top) then partCount parts x else 0 :=
    partCount_flatten ((forall₂_and_mem hmm).imp fun p r h => (hpart p h.1 r h.2).2)
  refine ⟨internal.flatten, ?_, ?_, ?_⟩
  · unfold HasParts
    by_cases hz : internal.flatten = []
    · rw [hz]
      simp [hno']
    · rw [if_pos (List.length_pos_iff.2 hz), Layer.setShared, attr_set hext]
      simp
  · intro q hq
    obtain ⟨r, hr, hq⟩ := List.mem_flatten.1 hq
    obtain ⟨p, hp, hpr⟩ := forall₂_right (forall₂_and_mem hmm) hr
    exact (hpart p hp r hpr).1 q hq
  · rw [mem_region_count, hcount, ite_not]
    split
    · next hcond => simp only [Nat.not_odd_zero, false_iff]; tauto
    · next hcond => rw [← mem_region_count]; tauto

/-- The distance from the contours of the layers at which a point is treated as it should be, for a distance `D` of the contours of the areas of infill. It grows with the width of
the walls, the overlaps and the number of operations of the library. -/
def sideDepth (lib : ClipperLib) (o : Options) (tol g1 g2 : ℚ) (parts : List LayerPart) (D : ℚ) : ℚ :=
  D + 3 / 2 * (o.print.insetCount * o.printer.extrusionWidth + g1 + g2) +
    (max o.print.numberBottomLayers.toNat o.print.numberTopLayers.toNat + innerCount (perimetersOf lib o parts) + 10 : Nat) * tol

/-- C121: the areas of infill of a layer for a point which is not near to a contour of the layer or of the layers which matter for top and bottom. It is in at most one part of each
of the areas. It is in the bottom infill if it is inside of the layer and not covered by one of the layers below (or the layer is one of the lowest), in the top infill if it is
not in the bottom infill and not covered by one of the layers above, and in the internal infill otherwise. -/
theorem C121_areas {lib : ClipperLib} {tol : ℚ} (hk : KeepsSides lib tol) (h0 : 0 ≤ tol) {o : Options} (hi : 1 ≤ o.print.insetCount) (hw : 0 ≤ o.printer.extrusionWidth)
    (hs : (o.print.insetCount + 1) * o.printer.extrusionWidth ≤ 2 ^ 53) {g1 g2 : ℚ} (hg1 : Overlaps o o.print.infillOverlapPercent g1)
    (hg2 : Overlaps o (o.print.infillOverlapPercent + o.print.additionalInternalInfillOverlapPercent) g2) {ls ls1 ls2 ls3 : List Layer}
    (h1 : perimeterModifier lib o ls = .ok ls1) (h2 : infillModifier lib o ls1 = .ok ls2) (h3 : internalInfillModifier lib o ls2 = .ok ls3)
    (hno : ∀ l ∈ ls, l.attr "bottom" = none ∧ l.attr "top" = none ∧ l.attr "infill" = none) (harea : ∀ l ∈ ls, ∀ p ∈ l.parts, LibArea lib (partContours p))
    {j : Nat} {l : Layer} (hj : ls[j]? = some l) (hparts : ∀ (i : Nat) (m : Layer), i ≤ j → ls[i]? = some m → m.parts ≠ []) {D : ℚ} (hD : 0 ≤ D) {x : ℚ × ℚ}
    (hx : ClearAround (sideDepth lib o tol g1 g2 l.parts D) ls j o.print.numberBottomLayers.toNat o.print.numberTopLayers.toNat x) (hone : AtMostOne l.parts x) :
    ∃ l3 bottom top, ls3[j]? = some l3 ∧ HasParts l3 "bottom" bottom ∧ HasParts l3 "top" top ∧ Clear D bottom x ∧ Clear D top x ∧
      (x ∈ region enclosedBy bottom ↔ x ∈ region enclosedBy l.parts ∧ IsBottom ls j o.print.numberBottomLayers.toNat x) ∧
      (x ∈ region enclosedBy top ↔ x ∈ region enclosedBy l.parts ∧ ¬ IsBottom ls j o.print.numberBottomLayers.toNat x ∧ IsTop ls j o.print.numberTopLayers.toNat x) ∧
      (o.print.infillPercent ≠ 0 → ∃ internal, HasParts l3 "infill" internal ∧ Clear D internal x ∧
        (x ∈ region enclosedBy internal ↔ x ∈ region enclosedBy l.parts ∧ ¬ IsBottom ls j o.print.numberBottomLayers.toNat x ∧ ¬ IsTop ls j o.print.numberTopLayers.toNat x)) := by
  classical
  have hs1 := C61_perimeter lib o _ _ h1
  have hlen : ls1.length = ls.length := hs1.length_eq.symm
  obtain ⟨l1, hl1, hsame⟩ := sameLayers_get hs1 hj
  have walls : ∀ (i : Nat) (m : Layer), 0 ≤ i → i ≤ j → ls1[i]? = some m → HasWalls m := by
    intro i m _ hij hm
    obtain ⟨l0, hl0, _, _, hp, hov⟩ := perimeterModifier_get lib o ls ls1 hi h1 i m hm
    have hne := hparts i l0 hij hl0
    have hne' : perimetersOf lib o l0.parts ≠ [] := by simpa [perimetersOf, ClipperLib.insetLayer] using hne
    exact ⟨_, _, hov, hp, by simpa using hne', hne'⟩
  obtain ⟨lsj, l2, hs2, hlay, hl2⟩ := infillLoop_get lib o _ 0 ls1 ls2 h2 (by omega) j l1 (by omega) hl1 walls
  obtain ⟨l0, hl0, _, _, hp, hov⟩ := perimeterModifier_get lib o ls ls1 hi h1 j l1 hl1
  have : l0 = l := by simpa [hj] using hl0.symm
  subst this
  have hlm := List.mem_of_getElem? hj
  have hnb := hno l0 hlm
  have hsame' : lsj.map Layer.parts = ls.map Layer.parts := by rw [sameLayers_parts hs2, sameLayers_parts hs1]
  -- the distances
  have hg10 : 0 ≤ g1 := (abs_nonneg _).trans hg1
  have hg20 : 0 ≤ g2 := (abs_nonneg _).trans hg2
  have hW : (0 : ℚ) ≤ o.print.insetCount * o.printer.extrusionWidth := by exact_mod_cast mul_nonneg (by omega) hw
  set W : ℚ := o.print.insetCount * o.printer.extrusionWidth with hWd
  set N := max o.print.numberBottomLayers.toNat o.print.numberTopLayers.toNat with hN
  set c := innerCount (perimetersOf lib o l0.parts) with hc
  have hsd : sideDepth lib o tol g1 g2 l0.parts D = D + 3 / 2 * (W + g1 + g2) + (N + c + 10) * tol := by
    unfold sideDepth; rw [← hN, ← hc, ← hWd]; push_cast; rfl
  rw [hsd] at hx
  have hN0 : (0 : ℚ) ≤ N * tol := by positivity
  have hc0 : (0 : ℚ) ≤ c * tol := by positivity
  have hself : Clear (D + 3 / 2 * (W + g1 + g2) + (N + c + 10) * tol) l0.parts x := hx j l0 hj (by omega) (by omega)
  have hin : ∀ p ∈ l0.parts, Alike (D + 3 / 2 * g2 + (N + c + 6) * tol) [p] (innermost lib o p) x := fun p hp =>
    innermost_sides hk h0 hi hw hs (by linarith) (harea l0 hlm p hp) ((hself.single hp).mono (by linarith) (by linarith))
  have hbd : ∀ p ∈ l0.parts, Alike (D + (c + 4) * tol) [p] (infillBorder lib o p) x := fun p hp =>
    infillBorder_sides hk h0 hi hw hs (by linarith) hg1 (harea l0 hlm p hp) ((hself.single hp).mono (by linarith) (by linarith))
  -- the infill modifier
  simp only [infillLayer, bind_ok, pure, Except.pure, hov, hp, Except.ok.injEq] at hlay
  obtain ⟨_, rfl, hlay⟩ := hlay
  split at hlay
  · simp at hlay
  obtain ⟨_, h', hlay⟩ := bind_ok.1 hlay
  cases h'
  split at hlay
  · simp at hlay
  simp only [bind_ok, Except.ok.injEq, Option.some.injEq] at hlay
  obtain ⟨inf, hinf, top, htop, hl2e⟩ := hlay
  have hpe : ∀ walls ∈ perimetersOf lib o l0.parts, ∃ p ∈ l0.parts, walls.getLastD [] = innermost lib o p := by
    intro walls hwl
    obtain ⟨p, hp, rfl⟩ := List.mem_map.1 hwl
    exact ⟨p, hp, rfl⟩
  obtain ⟨⟨a1, a1'⟩, ⟨a2, a2'⟩, a3, a4⟩ := infillParts_sides (x := x) hk h0 (D := D + 2 * tol) (by linarith) hg2 lsj j _ (le_max_left _ _) (le_max_right _ _)
    (E := D + 3 / 2 * g2 + (N + c + 6) * tol) 0 _ _ _ hinf
    (fun walls hwl p hp => by obtain ⟨q, hq, e⟩ := hpe walls hwl; rw [e] at hp; exact innermost_area hi hw hs hp)
    (by rw [← hc, ← hN]; linarith)
    (fun walls hwl => by obtain ⟨q, hq, e⟩ := hpe walls hwl; rw [e]; exact (hin q hq).1)
    (by simp)
    (fun border hb => by
      obtain ⟨walls, hwl, rfl⟩ := List.mem_map.1 hb
      obtain ⟨q, hq, e⟩ := hpe walls hwl
      rw [e]
      exact (hbd q hq).1.mono (by rw [← hc]; linarith) (by rw [← hc]; linarith))
    (fun k m e1 e2 e3 => (clearAround_same hsame' hx k m e1 e2 e3).mono (by linarith) (by linarith))
    ⟨clear_nil, atMostOne_nil⟩ ⟨clear_nil, atMostOne_nil⟩
  simp only [region_nil, Set.mem_empty_iff_false, false_or, Nat.zero_add, isBottom_same hsame', isTop_same hsame'] at a3 a4
  have conv : ∀ (P : Prop),
      (∃ (k : Nat) (walls : List (List LayerPart)), (perimetersOf lib o l0.parts)[k]? = some walls ∧ ∃ part ∈ walls.getLastD [], ∃ border,
        ((perimetersOf lib o l0.parts).map fun part => (part.getLastD []).flatMap fun p =>
          calculateOverlapPerimeter lib p o.print.infillOverlapPercent o.printer.extrusionWidth)[k]? = some border ∧
          (x ∈ region enclosedBy [part] ∧ P) ∧ x ∈ region enclosedBy border) ↔ x ∈ region enclosedBy l0.parts ∧ P := by
    intro P
    constructor
    · rintro ⟨k, walls, hk, p, hp, border, hb, ⟨hxp, hP⟩, hxb⟩
      simp only [perimetersOf, ClipperLib.insetLayer, List.getElem?_map, Option.map_eq_some_iff] at hk
      obtain ⟨part, hpart, rfl⟩ := hk
      have hpm := List.mem_of_getElem? hpart
      have hal := hin part hpm
      exact ⟨mem_region_of_atMostOne hone hpm (hal.region.1 (mem_region_of_atMostOne (hal.atMostOne (atMostOne_single part)) hp hxp)), hP⟩
    · rintro ⟨hxp, hP⟩
      obtain ⟨part, hpm, hxp⟩ := exists_of_mem_region hxp
      obtain ⟨q, hq, hxq⟩ := exists_of_mem_region ((hin part hpm).region.2 hxp)
      obtain ⟨k, hk⟩ := List.mem_iff_getElem?.1 hpm
      refine ⟨k, _, ?_, q, hq, infillBorder lib o part, ?_, ⟨hxq, hP⟩, (hbd part hpm).region.2 hxp⟩
      · simp [perimetersOf, ClipperLib.insetLayer, hk]
      · simp only [perimetersOf, ClipperLib.insetLayer, List.getElem?_map, hk, Option.map_some]
        rfl
  rw [conv] at a3 a4
  have hb2 : HasParts l2 "bottom" inf.1 := by
    rw [← hl2e]
    unfold HasParts
    rw [attr_setParts (extended_setParts (extended_extend _) _ _), if_neg (by simp), attr_setParts (extended_extend _)]
    by_cases hz : inf.1 = []
    · have : l1.attr "bottom" = none := by rw [hsame.2 _ (by decide), hnb.1]
      simp [hz, this]
    · simp [hz]
  have ht2 : HasParts l2 "top" top := by
    rw [← hl2e]
    unfold HasParts
    rw [attr_setParts (extended_setParts (extended_extend _) _ _), attr_setParts (extended_extend _)]
    by_cases hz : top = []
    · have : l1.attr "top" = none := by rw [hsame.2 _ (by decide), hnb.2.1]
      simp [hz, this]
    · simp [hz]
  have htop' : Clear (D + tol) top x ∧ (x ∈ region enclosedBy top ↔ x ∈ region enclosedBy inf.2 ∧ x ∉ region enclosedBy inf.1) := by
    unfold topWithoutBottom at htop
    split at htop
    · obtain ⟨b1, -, b3⟩ := clip_sides (x := x) hk (D := D + tol) (by linarith) (orErr_ok htop) (a2.mono (by linarith) (by linarith)) (a1.mono (by linarith) (by linarith))
      exact ⟨b1, b3⟩
    · next hn =>
      cases htop
      refine ⟨a2.mono (by linarith) (by linarith), ?_⟩
      by_cases hz : inf.2 = []
      · simp [hz]
      · have : inf.1 = [] := by
          by_contra hc
          exact hn ⟨List.length_pos_iff.2 hz, List.length_pos_iff.2 hc⟩
        simp [this]
  obtain ⟨t1, t2⟩ := htop'
  -- the internal infill
  have hs2' := C61_infill lib o _ _ h2
  have hovs : ∀ (i : Nat) (m2 : Layer), ls2[i]? = some m2 → ∃ m, ls[i]? = some m ∧ m2.overlapPerimeters = .ok (m.parts.map (infillBorder lib o)) := by
    intro i m2 hm2
    have hlt : i < ls1.length := by
      rw [hs2'.length_eq]
      by_contra hc
      rw [List.getElem?_eq_none (by omega)] at hm2
      cases hm2
    obtain ⟨m2', hm2', hsame⟩ := sameLayers_get hs2' (List.getElem?_eq_getElem hlt)
    rw [hm2] at hm2'
    cases hm2'
    obtain ⟨m, hm, _, _, _, hov⟩ := perimeterModifier_get lib o ls ls1 hi h1 i _ (List.getElem?_eq_getElem hlt)
    refine ⟨m, hm, ?_⟩
    have e : m2.overlapPerimeters = (ls1[i]).overlapPerimeters := by
      unfold Layer.overlapPerimeters
      rw [hsame.2 _ (by decide)]
    rw [e, hov]
    simp only [perimetersOf, ClipperLib.insetLayer, List.map_map]
    rfl
  obtain ⟨l3, hint, hl3⟩ := internalInfill_get lib o ls2 ls3 h3 j l2 hl2 fun i m2 hij hm2 => by
    obtain ⟨m, hm, hov⟩ := hovs i m2 hm2
    rw [hov]
    simpa using hparts i m hij hm
  have same3 := internalLayer_same lib o l2 l3 hint
  refine ⟨l3, inf.1, top, hl3, ?_, ?_, a1.mono hD (by linarith), t1.mono hD (by linarith), a3, ?_, fun hpercent => ?_⟩
  · unfold HasParts; rw [same3.2 _ (by decide)]; exact hb2
  · unfold HasParts; rw [same3.2 _ (by decide)]; exact ht2
  · rw [t2, a3, a4]; exact top_only _ _ _
  · obtain ⟨m, hm, hov2⟩ := hovs j l2 hl2
    have : m = l0 := by simpa [hj] using hm.symm
    subst this
    have hno' : l2.attr "infill" = none := by
      obtain ⟨l2', e1, e2⟩ := sameLayers_get hs2' hl1
      rw [hl2] at e1
      cases e1
      rw [e2.2 _ (by decide), hsame.2 _ (by decide), hnb.2.2]
    have hext : IsExtended l2 := by rw [← hl2e]; exact extended_setParts (extended_setParts (extended_extend _) _ _) _ _
    have hbt : x ∈ region enclosedBy (inf.1 ++ top) ↔ x ∈ region enclosedBy inf.1 ∨ x ∈ region enclosedBy inf.2 := by
      rw [mem_region_append, t2]; exact either_or _ _
    obtain ⟨internal, i1, i2, i3⟩ := internalLayer_sides hk hD hpercent hext hov2 hb2 ht2 hno' hint
      (fun p hp => ⟨(hbd p hp).1.mono (by linarith) (by linarith), (hbd p hp).2⟩) (a1.mono (by linarith) (by linarith)) t1
    refine ⟨internal, i1, i2, ?_⟩
    rw [i3, hbt, a3, a4]; exact the_rest _ _ _

end Verif
