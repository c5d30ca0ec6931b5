import Verif.Props.Support

/-! # C106: columns of support -/
namespace Verif
open Verif.Go Verif.Model Verif.Spec

section
variable {X : Type} (inside : List IntPoint → Set X)

/-- C106: there is support at a point of a layer exactly if it was detected at this point for the layer itself or for a layer above, and
the (enlarged) model is not in between. The layers below the topmost two are meant; nothing is subtracted for those two. -/
theorem C106_columns {lib : ClipperLib} (hl : Exact inside lib) (hf : NeverFails lib) (o : Options) (ls ls' : List Layer)
    (he : o.print.support.enabled = true) (h : supportGenerator lib o ls = .ok ls')
    (hno : ∀ l ∈ ls, l.attr "fullSupport" = none ∧ l.attr "supportInterface" = none) (m : Nat) (hm : m + 2 < ls.length) (x : X) :
    x ∈ attrArea inside ls' m "fullSupport" ↔
      ∃ k, m ≤ k ∧ k + 2 ≤ ls.length ∧ x ∈ attrArea inside ls k "support" ∧
        ∀ i layer, m ≤ i → i ≤ k → i + 2 < ls.length → ls[i]? = some layer → x ∉ region inside (biggerLayer lib o layer) := by
  obtain ⟨d, hd⟩ : ∃ d, m + 3 + d = ls.length := ⟨ls.length - (m + 3), by omega⟩
  induction d generalizing m with
  | zero =>
    obtain ⟨b, hb⟩ : ∃ b, ls[m]? = some b := ⟨_, List.getElem?_eq_getElem (by omega)⟩
    rw [(C67_areas inside hl hf o ls ls' he h hno m hm b hb x).1, if_pos (by omega)]
    constructor
    · rintro ⟨h1 | h1, h2⟩
      · refine ⟨m + 1, by omega, by omega, h1, fun i layer h3 h4 h5 h6 => ?_⟩
        obtain rfl : i = m := by omega
        rw [hb] at h6
        cases h6
        exact h2
      · refine ⟨m, le_rfl, by omega, h1, fun i layer h3 h4 h5 h6 => ?_⟩
        obtain rfl : i = m := by omega
        rw [hb] at h6
        cases h6
        exact h2
    · rintro ⟨k, h1, h2, h3, h4⟩
      refine ⟨?_, h4 m b le_rfl h1 hm hb⟩
      by_cases hk : k = m
      · subst hk; exact Or.inr h3
      · obtain rfl : k = m + 1 := by omega
        exact Or.inl h3
  | succ d ih =>
    obtain ⟨b, hb⟩ : ∃ b, ls[m]? = some b := ⟨_, List.getElem?_eq_getElem (by omega)⟩
    rw [(C67_areas inside hl hf o ls ls' he h hno m hm b hb x).1, if_neg (by omega), ih (m + 1) (by omega) (by omega)]
    constructor
    · rintro ⟨⟨k, h1, h2, h3, h4⟩ | h1, h2⟩
      · rename_i hbm
        refine ⟨k, by omega, h2, h3, fun i layer h5 h6 h7 h8 => ?_⟩
        by_cases hi : i = m
        · subst hi
          rw [hb] at h8
          cases h8
          exact hbm
        · exact h4 i layer (by omega) h6 h7 h8
      · refine ⟨m, le_rfl, by omega, h1, fun i layer h3 h4 h5 h6 => ?_⟩
        obtain rfl : i = m := by omega
        rw [hb] at h6
        cases h6
        exact h2
    · rintro ⟨k, h1, h2, h3, h4⟩
      refine ⟨?_, h4 m b le_rfl h1 hm hb⟩
      by_cases hk : k = m
      · subst hk; exact Or.inr h3
      · exact Or.inl ⟨k, by omega, h2, h3, fun i layer h5 h6 h7 h8 => h4 i layer (by omega) h6 h7 h8⟩

/-- C106: the support of a layer is printed as support or as interface, except on the brim. -/
theorem C106_printed {lib : ClipperLib} (hl : Exact inside lib) (hf : NeverFails lib) (o : Options) (ls ls' : List Layer)
    (he : o.print.support.enabled = true) (h : supportGenerator lib o ls = .ok ls')
    (hno : ∀ l ∈ ls, l.attr "fullSupport" = none ∧ l.attr "supportInterface" = none) (m : Nat) (hm : m + 2 < ls.length) (x : X)
    (hx : x ∈ attrArea inside ls' m "fullSupport") :
    x ∈ attrArea inside ls' m "support" ∨ x ∈ attrArea inside ls' m "supportInterface" ∨ x ∈ attrArea inside ls m "outerBrim" := by
  obtain ⟨b, hb⟩ : ∃ b, ls[m]? = some b := ⟨_, List.getElem?_eq_getElem (by omega)⟩
  have := C67_areas inside hl hf o ls ls' he h hno m hm b hb x
  tauto

theorem region_mem_part (parts : List LayerPart) (x : X) (h : x ∈ region inside parts) : ∃ p ∈ parts, x ∈ region inside [p] := by
  induction parts with
  | nil => simp at h
  | cons p ps ih =>
    by_cases hp : x ∈ region inside [p]
    · exact ⟨p, List.mem_cons_self, hp⟩
    · have e : p :: ps = [p] ++ ps := rfl
      rw [e, mem_region_append] at h
      obtain ⟨q, hq, hqx⟩ := ih (by tauto)
      exact ⟨q, List.mem_cons_of_mem _ hq, hqx⟩

/-- C106: with support enabled, every point of an overhang gets support in all layers below (the top gap left out) down to the first one
where the enlarged model is at this point: a column of support, printed as support or interface (except on the brim). An overhang is here what
is outside of the layer below enlarged by half of the distance for the threshold angle. The offsets of the library must contain the parts,
and the enlarged overhangs must not overlap. -/
theorem C106_overhang {lib : ClipperLib} (hl : Exact inside lib) (hf : NeverFails lib) (o : Options) (tan : ℚ)
    (hgrow : ∀ p d, 0 ≤ d → ∀ x ∈ region inside [p], ∃ q ∈ lib.inset1 p d, x ∈ region inside [q])
    (he : o.print.support.enabled = true) (g : Nat) (hg : o.print.support.topGapLayers = g)
    (hsp : 0 ≤ toMicrometer o.print.support.patternSpacing) (hd : |supportDistance tan o| ≤ 2 ^ 53)
    (ls ls1 ls2 : List Layer)
    (hno : ∀ l ∈ ls, l.attr "support" = none ∧ l.attr "fullSupport" = none ∧ l.attr "supportInterface" = none)
    (h1 : supportDetector lib tan o ls = .ok ls1) (h2 : supportGenerator lib o ls1 = .ok ls2)
    (j : Nat) (below above : Layer) (hb : ls[j + g]? = some below) (ha : ls[j + g + 1]? = some above)
    (hsep : ∀ support, detectSupport lib tan o below above = .ok support → Separate inside support)
    (x : X) (hx : x ∈ region inside above.parts)
    (hxo : x ∉ region inside (below.parts.flatMap fun p => lib.inset1 p (((supportDistance tan o).tdiv 2 : Int) : ℚ)))
    (m : Nat) (hm : m ≤ j) (hml : m + 2 < ls.length)
    (hfree : ∀ i layer, m ≤ i → i ≤ j → ls[i]? = some layer → x ∉ region inside (biggerLayer lib o layer)) :
    x ∈ attrArea inside ls2 m "support" ∨ x ∈ attrArea inside ls2 m "supportInterface" ∨ x ∈ attrArea inside ls m "outerBrim" := by
  have hsame := C61_detector lib tan o ls ls1 h1
  have hlen : ls1.length = ls.length := hsame.length_eq.symm
  have hat : ∀ (i : Nat) (l1 : Layer), ls1[i]? = some l1 → ∃ l, ls[i]? = some l ∧ SameBut ["support"] l l1 := by
    intro i l1 hi
    obtain ⟨hi', rfl⟩ := List.getElem?_eq_some_iff.1 hi
    have hi2 : i < ls.length := hlen ▸ hi'
    exact ⟨_, List.getElem?_eq_getElem hi2, List.forall₂_iff_get.1 hsame |>.2 i hi2 hi'⟩
  have hno1 : ∀ l ∈ ls1, l.attr "fullSupport" = none ∧ l.attr "supportInterface" = none := by
    intro l hl1
    obtain ⟨i, hi⟩ := List.mem_iff_getElem?.1 hl1
    obtain ⟨l0, h3, h4⟩ := hat i l hi
    have := hno l0 (List.mem_iff_getElem?.2 ⟨i, h3⟩)
    rw [h4.2 _ (by simp), h4.2 _ (by simp)]
    exact this.2
  have hjl : j + g + 1 < ls.length := (List.getElem?_eq_some_iff.1 ha).1
  obtain ⟨target, ht⟩ : ∃ t, ls[j]? = some t := ⟨_, List.getElem?_eq_getElem (by omega)⟩
  obtain ⟨support, l', h3, h4, h5⟩ := (C86_detected lib tan o g hg he ls ls1 h1 j).2 below above target hb ha ht
    (hno target (List.mem_iff_getElem?.2 ⟨j, ht⟩)).1
  obtain ⟨overhang, h6, h7⟩ := C82_threshold lib tan o below above support hd h3
  have hov : x ∈ region inside overhang := (C84_difference inside hl h6 x).2 ⟨hx, hxo⟩
  obtain ⟨p, hp, hpx⟩ := region_mem_part inside _ _ hov
  have hsupport : x ∈ region inside support := by
    rw [region_separate inside _ (hsep support h3)]
    obtain ⟨q, hq, hqx⟩ := hgrow p (r64 (((toMicrometer o.print.support.patternSpacing * 3).tdiv 2 : Int) : ℚ)) (by
      apply r64_nonneg
      have : 0 ≤ (toMicrometer o.print.support.patternSpacing * 3).tdiv 2 := Int.tdiv_nonneg (by omega) (by omega)
      exact_mod_cast this) x hpx
    exact ⟨q, h7 ▸ List.mem_flatMap.2 ⟨p, hp, hq⟩, hqx⟩
  have hat1 : x ∈ attrArea inside ls1 j "support" := by
    rcases h5 with h5 | ⟨h5, rfl⟩
    · exact ⟨l', support, h4, h5, hsupport⟩
    · simp at hsupport
  have hfull : x ∈ attrArea inside ls2 m "fullSupport" := by
    rw [C106_columns inside hl hf o ls1 ls2 he h2 hno1 m (by omega)]
    refine ⟨j, hm, by omega, hat1, fun i layer h8 h9 _ h10 => ?_⟩
    obtain ⟨l0, h11, h12⟩ := hat i layer h10
    have := hfree i l0 h8 h9 h11
    unfold biggerLayer at this ⊢
    rwa [h12.1]
  have := C106_printed inside hl hf o ls1 ls2 he h2 hno1 m (by omega) x hfull
  rcases this with h | h | ⟨l, ps, h8, h9, h10⟩
  · exact Or.inl h
  · exact Or.inr (Or.inl h)
  · obtain ⟨l0, h11, h12⟩ := hat m l h8
    exact Or.inr (Or.inr ⟨l0, ps, h11, by rw [← h12.2 _ (by simp)]; exact h9, h10⟩)

end

/-- C106: the topmost two layers stay as they are. -/
theorem C106_second (lib : ClipperLib) (o : Options) (ls ls' : List Layer) (h : supportGenerator lib o ls = .ok ls') (j : Nat)
    (hj : ls.length ≤ j + 2) : ls'[j]? = ls[j]? := by
  unfold supportGenerator at h
  split at h
  · exact generatorLoop_keeps lib o _ _ _ _ h j (by omega)
  · cases h; rfl

/-! ## Examples -/

theorem pixelLib_grow (p : LayerPart) (d : ℚ) (x : IntPoint) (hx : x ∈ region pixels [p]) :
    ∃ q ∈ pixelLib.inset1 p d, x ∈ region pixels [q] := by
  have hx' : x ∈ oddPixels (clipperPaths [p.outline] ++ clipperPaths p.holes) := by
    have := (mem_pixelsOf _ _).1 hx
    rw [pixelsOf, List.flatMap_singleton] at this
    exact this
  obtain ⟨ps, hps, hmem⟩ : ∃ ps, ps = (if d > 0 then neighbours (oddPixels (clipperPaths [p.outline] ++ clipperPaths p.holes))
      else oddPixels (clipperPaths [p.outline] ++ clipperPaths p.holes)) ∧ x ∈ ps := by
    refine ⟨_, rfl, ?_⟩
    split
    · simp [neighbours, hx']
    · exact hx'
  have hne : ps ≠ [] := fun h => by simp [h] at hmem
  have : pixelLib.inset1 p d = polyTreeToLayerParts [.node ps.dedup []] := by
    simp only [ClipperLib.inset1, pixelLib, ← hps, if_neg hne]
  rw [this]
  apply region_mem_part
  rw [region_polyTree]
  have hx : x ∈ pixels ps.dedup := List.mem_dedup.2 hmem
  simp [treesContours, treeContours, evenOdd, crossings, hx]

/-- Layers for the examples: an overhang on top of a thin column. -/
def column : List Layer := [⟨[pixelPart [10]], none⟩, ⟨[pixelPart [10]], none⟩, ⟨[pixelPart [10]], none⟩, ⟨[pixelPart [0, 10]], none⟩]

def column1 : List Layer := valueOf (supportDetector pixelLib 1 withSupport column)
def column2 : List Layer := valueOf (supportGenerator pixelLib withSupport column1)

theorem column1_ok : supportDetector pixelLib 1 withSupport column = .ok column1 := valueOf_ok (List.length_pos_iff.1 (by decide +kernel))
theorem column2_ok : supportGenerator pixelLib withSupport column1 = .ok column2 := valueOf_ok (List.length_pos_iff.1 (by decide +kernel))

example : (⟨0, 0⟩ : IntPoint) ∈ attrArea pixels column2 0 "support" ∨ ⟨0, 0⟩ ∈ attrArea pixels column2 0 "supportInterface" ∨
    ⟨0, 0⟩ ∈ attrArea pixels column 0 "outerBrim" := by
  refine C106_overhang pixels pixelLib_exact pixelLib_neverFails withSupport 1 (fun p d _ x => pixelLib_grow p d x) rfl 0 rfl (by decide +kernel)
    (by decide +kernel) column column1 column2 ?_ column1_ok column2_ok 2 _ _ rfl rfl ?_ _ ?_ ?_ 0 (by omega) (by decide +kernel) ?_
  · intro l hl
    simp only [column, List.mem_cons, List.not_mem_nil, or_false] at hl
    rcases hl with rfl | rfl | rfl | rfl <;> exact ⟨rfl, rfl, rfl⟩
  · intro support h
    have : (detectSupport pixelLib 1 withSupport ⟨[pixelPart [10]], none⟩ ⟨[pixelPart [0, 10]], none⟩).toOption.map List.length = some 1 := by
      decide +kernel
    rw [h] at this
    simp only [Except.toOption, Option.map_some, Option.some.injEq] at this
    obtain ⟨a, rfl⟩ := List.length_eq_one_iff.1 this
    exact List.pairwise_singleton _ _
  · exact (mem_pixelsOf _ _).2 (by decide +kernel)
  · exact fun h => absurd ((mem_pixelsOf _ _).1 h) (by decide +kernel)
  · intro i layer _ hi h
    have : layer.parts = [pixelPart [10]] := by
      obtain rfl | rfl | rfl : i = 0 ∨ i = 1 ∨ i = 2 := by omega
      all_goals
        simp only [column, List.getElem?_cons_zero, List.getElem?_cons_succ, Option.some.injEq] at h
        rw [← h]
    unfold biggerLayer
    rw [this]
    exact fun h => absurd ((mem_pixelsOf _ _).1 h) (by decide +kernel)

/-- Layers for the violation: the topmost layer is larger than those below. -/
def mushroom : List Layer := [⟨[pixelPart [1]], none⟩, ⟨[pixelPart [1]], none⟩, ⟨[pixelPart [0, 1]], none⟩]

def mushroom1 : List Layer := valueOf (supportDetector pixelLib 0 withSupport mushroom)
def mushroom2 : List Layer := valueOf (supportGenerator pixelLib withSupport mushroom1)

theorem mushroom1_ok : supportDetector pixelLib 0 withSupport mushroom = .ok mushroom1 := valueOf_ok (List.length_pos_iff.1 (by decide +kernel))
theorem mushroom2_ok : supportGenerator pixelLib withSupport mushroom1 = .ok mushroom2 := valueOf_ok (List.length_pos_iff.1 (by decide +kernel))

/-- C106 (violation): without a top gap the support of the second layer from the top is inside of the model (the enlarged overhang, from which
nothing is subtracted), although all parts are single and contained in their offsets. -/
theorem C106_top : ∃ (lib : ClipperLib) (tan : ℚ) (o : Options) (ls ls1 ls2 : List Layer) (k : Nat) (l : Layer) (x : IntPoint),
    Exact pixels lib ∧ NeverFails lib ∧ (∀ p d, ∀ x ∈ region pixels [p], ∃ q ∈ lib.inset1 p d, x ∈ region pixels [q]) ∧
    (∀ l ∈ ls, l.parts.length = 1) ∧ supportDetector lib tan o ls = .ok ls1 ∧ supportGenerator lib o ls1 = .ok ls2 ∧
    k + 2 = ls.length ∧ ls[k]? = some l ∧ x ∈ region pixels l.parts ∧ x ∈ attrArea pixels ls2 k "support" :=
  ⟨pixelLib, 0, withSupport, mushroom, mushroom1, mushroom2, 1, _, ⟨1, 0⟩, pixelLib_exact, pixelLib_neverFails, pixelLib_grow,
    by decide +kernel, mushroom1_ok, mushroom2_ok, rfl, rfl, (mem_pixelsOf _ _).2 (by decide +kernel),
    mem_attrPixels _ _ _ _ (by decide +kernel)⟩

end Verif
