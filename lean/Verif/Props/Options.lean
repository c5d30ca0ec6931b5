import Verif.Spec.Blank
import Verif.Model.Option
import Verif.Lemmas.Groups

/-! # C12 - C17, C75: command line option types -/
namespace Verif
open Verif.Go Verif.Model Verif.Spec

theorem join_eq_intercalate (sep : Char) (l : List Str) : join sep l = List.intercalate [sep] l := by
  induction l with
  | nil => rfl
  | cons a l ih =>
    cases l with
    | nil => simp [join, List.intercalate]
    | cons b l => simp only [join, ih]; simp [List.intercalate, List.intersperse]

/-! ## C12 -/

/-- **C12** `Set(String(m))` succeeds and yields `m`, for every int64. -/
theorem C12_round_trip (m : Int) (h1 : -2 ^ 63 ≤ m) (h2 : m < 2 ^ 63) : micrometerSet (micrometerString m) = (m, none) :=
  parseInt_formatInt true m h1 h2

/-- **C12** Which texts are accepted, and as which value. -/
theorem C12_all (s : Str) (v : Int) : micrometerSet s = (v, none) ↔ IntText s v := intText_iff s v

example : IntText "-1_000".toList (-1000) ∧ IntText "0x_1F_4".toList 500 ∧ IntText "0_17".toList 15 ∧ (∀ v, ¬ IntText "1__0".toList v) ∧
    (∀ v, ¬ IntText "_10".toList v) ∧ (∀ v, ¬ IntText "10_".toList v) := by
  simp only [← C12_all]
  refine ⟨by decide +kernel, by decide +kernel, by decide +kernel, fun v h => ?_, fun v h => ?_, fun v h => ?_⟩
  · rw [show micrometerSet "1__0".toList = (0, some .syntaxError) by decide +kernel] at h; simp at h
  · rw [show micrometerSet "_10".toList = (0, some .syntaxError) by decide +kernel] at h; simp at h
  · rw [show micrometerSet "10_".toList = (0, some .syntaxError) by decide +kernel] at h; simp at h

/-- **C12** Which texts without underscore are accepted, and as which value. -/
theorem C12_accepts (s : Str) (hs : '_' ∉ s) (v : Int) : micrometerSet s = (v, none) ↔ IntLit s v := intLit_iff s hs v

example : micrometerSet "0x1F4".toList = (500, none) ∧ micrometerSet "-200".toList = (-200, none) ∧
    micrometerSet "0.2".toList = (0, some .syntaxError) ∧ micrometerSet "1_000".toList = (1000, none) := by decide +kernel

/-- **C12** What a failed call leaves as value: 0 for a text which is no number, and the nearest value of 64 bits for a number which is too large. -/
theorem C12_failed (s : Str) (v : Int) (e : NumError) (h : micrometerSet s = (v, some e)) :
    (e = .syntaxError ∧ v = 0) ∨ (e = .range ∧ s.head? = some '-' ∧ v = -2 ^ 63) ∨ (e = .range ∧ s.head? ≠ some '-' ∧ v = 2 ^ 63 - 1) := by
  unfold micrometerSet parseInt at h
  cases s with
  | nil => cases h; exact .inl ⟨rfl, rfl⟩
  | cons c cs =>
    simp only [List.head?_cons, Option.some.injEq]
    dsimp only at h
    split at h
    · cases h; exact .inl ⟨rfl, rfl⟩
    · split at h
      · rename_i hc
        cases h
        exact .inr (.inl ⟨rfl, by simpa using hc, rfl⟩)
      · rename_i hc
        cases h
        exact .inr (.inr ⟨rfl, by simpa using hc, rfl⟩)
    · split at h
      · rename_i hc
        cases h
        exact .inr (.inr ⟨rfl, by simpa using hc.1, rfl⟩)
      · split at h
        · rename_i hc
          cases h
          exact .inr (.inl ⟨rfl, by simpa using hc.1, rfl⟩)
        · cases h

example : micrometerSet "-9223372036854775809".toList = (-2 ^ 63, some .range) ∧ micrometerSet "0xfffffffffffffffff".toList = (2 ^ 63 - 1, some .range) ∧ micrometerSet "1mm".toList = (0, some .syntaxError) := by
  decide +kernel

/-! ## C13 -/

theorem minus_ne_underscore_digits (m : Int) : '_' ∉ formatInt m := by
  intro h
  rcases formatInt_chars m _ h with h | h
  · exact absurd h (by decide)
  · exact h.ne_underscore rfl

theorem vec3Set_iff (v : Vec3) (s : Str) : (∃ a b c x y z, split '_' s = [a, b, c] ∧ micrometerSet a = (x, none) ∧
    micrometerSet b = (y, none) ∧ micrometerSet c = (z, none) ∧ vec3Set v s = (⟨x, y, z⟩, false)) ∨ vec3Set v s = (v, true) := by
  by_cases h : ∃ a b c, split '_' s = [a, b, c]
  · obtain ⟨a, b, c, h⟩ := h
    cases ha : micrometerSet a with
    | mk x ex =>
      cases hb : micrometerSet b with
      | mk y ey =>
        cases hc : micrometerSet c with
        | mk z ez =>
          cases ex with
          | some e => right; simp [vec3Set, h, ha]
          | none =>
            cases ey with
            | some e => right; simp [vec3Set, h, ha, hb]
            | none =>
              cases ez with
              | some e => right; simp [vec3Set, h, ha, hb, hc]
              | none => left; exact ⟨a, b, c, x, y, z, h, ha, hb, hc, by simp [vec3Set, h, ha, hb, hc]⟩
  · right
    unfold vec3Set
    simp only
    split
    · rename_i a b c h'; exact absurd ⟨a, b, c, h'⟩ h
    · rfl

/-- Specification: the text is three integers separated by `_`. -/
def VecText (s : Str) (x y z : Int) : Prop :=
  ∃ a b c, s = a ++ '_' :: b ++ '_' :: c ∧ '_' ∉ a ∧ '_' ∉ b ∧ '_' ∉ c ∧ IntLit a x ∧ IntLit b y ∧ IntLit c z

/-- **C13** `Set` accepts exactly three integers separated by `_` and stores them. -/
theorem C13_accepts (v : Vec3) (s : Str) (x y z : Int) : VecText s x y z ↔ vec3Set v s = (⟨x, y, z⟩, false) := by
  constructor
  · rintro ⟨a, b, c, rfl, h1, h2, h3, h4, h5, h6⟩
    have hs : split '_' (a ++ '_' :: b ++ '_' :: c) = [a, b, c] := by
      rw [List.append_assoc, List.cons_append, split_append h1, split_append h2, split_eq_singleton h3]
    rw [← C12_accepts _ h1] at h4
    rw [← C12_accepts _ h2] at h5
    rw [← C12_accepts _ h3] at h6
    unfold vec3Set
    simp [-List.append_assoc, hs, h4, h5, h6]
  · intro h
    rcases vec3Set_iff v s with ⟨a, b, c, x', y', z', h1, h2, h3, h4, h5⟩ | h'
    · rw [h5] at h
      injection h with h _
      injection h with hx hy hz
      subst hx hy hz
      have ha : '_' ∉ a := sep_not_mem_split (s := s) (by rw [h1]; simp)
      have hb : '_' ∉ b := sep_not_mem_split (s := s) (by rw [h1]; simp)
      have hc : '_' ∉ c := sep_not_mem_split (s := s) (by rw [h1]; simp)
      refine ⟨a, b, c, ?_, ha, hb, hc, (C12_accepts _ ha _).1 h2, (C12_accepts _ hb _).1 h3, (C12_accepts _ hc _).1 h4⟩
      have := join_split '_' s
      rw [h1] at this
      simp [join] at this
      simp [← this]
    · rw [h'] at h; simp at h

/-- **C13** On every other text `Set` reports an error and the vector stays completely unchanged. -/
theorem C13_error (v : Vec3) (s : Str) (h : ¬ ∃ x y z, VecText s x y z) : vec3Set v s = (v, true) := by
  rcases vec3Set_iff v s with ⟨a, b, c, x, y, z, _, _, _, _, h5⟩ | h'
  · exact absurd ⟨x, y, z, (C13_accepts v s x y z).2 h5⟩ h
  · exact h'

/-- **C13** `Set(String(w))` yields `w`, whatever the vector was before. -/
theorem C13_round_trip (v w : Vec3) (hx : -2 ^ 63 ≤ w.x ∧ w.x < 2 ^ 63) (hy : -2 ^ 63 ≤ w.y ∧ w.y < 2 ^ 63)
    (hz : -2 ^ 63 ≤ w.z ∧ w.z < 2 ^ 63) : vec3Set v (vec3String w) = (w, false) := by
  apply (C13_accepts v _ w.x w.y w.z).1
  refine ⟨_, _, _, rfl, ?_, ?_, ?_, ?_, ?_, ?_⟩
  · exact minus_ne_underscore_digits _
  · exact minus_ne_underscore_digits _
  · exact minus_ne_underscore_digits _
  · exact (C12_accepts _ (minus_ne_underscore_digits _) _).1 (C12_round_trip _ hx.1 hx.2)
  · exact (C12_accepts _ (minus_ne_underscore_digits _) _).1 (C12_round_trip _ hy.1 hy.2)
  · exact (C12_accepts _ (minus_ne_underscore_digits _) _).1 (C12_round_trip _ hz.1 hz.2)

example : vec3Set ⟨1, 2, 3⟩ "10_x_30".toList = (⟨1, 2, 3⟩, true) ∧ vec3Set ⟨1, 2, 3⟩ "10_-20_0".toList = (⟨10, -20, 0⟩, false) := by
  decide +kernel

/-! ## C14 -/

/-- Specification: one item `layer=speed` of the fan option. -/
def FanItem (item : Str) (kv : Int × Int) : Prop :=
  ∃ a b, item = a ++ '=' :: b ∧ DecInt a kv.1 ∧ DecInt b kv.2 ∧ 0 ≤ kv.1 ∧ 0 ≤ kv.2 ∧ kv.2 ≤ 255

/-- Specification: a comma separated list of items. -/
def FanText (s : Str) (kvs : List (Int × Int)) : Prop :=
  ∃ items : List Str, items ≠ [] ∧ s = List.intercalate [','] items ∧ List.Forall₂ FanItem items kvs

/-- Specification: the speed of the last item with layer `k`. -/
def lastMention (kvs : List (Int × Int)) (k : Int) : Option Int := (kvs.reverse.find? (fun kv => kv.1 = k)).map Prod.snd

theorem decInt_chars {s : Str} {v : Int} (h : DecInt s v) : ∀ c ∈ s, c = '+' ∨ c = '-' ∨ (numeral c).isSome = true := by
  have hu : ∀ t n, UDec t n → ∀ c ∈ t, (numeral c).isSome = true := by
    rintro t n ⟨_, ds, h, _⟩ c hc
    have : numeral c ∈ t.map numeral := List.mem_map_of_mem hc
    rw [h] at this
    obtain ⟨d, _, hd⟩ := List.mem_map.1 this
    rw [← hd]; rfl
  intro c hc
  rcases h with ⟨t, n, h | h, h1, _⟩ | ⟨t, n, h, h1, _⟩
  · subst h; exact Or.inr (Or.inr (hu _ n h1 c hc))
  · subst h
    rcases List.mem_cons.1 hc with h | h
    · exact Or.inl h
    · exact Or.inr (Or.inr (hu _ n h1 c h))
  · subst h
    rcases List.mem_cons.1 hc with h | h
    · exact Or.inr (Or.inl h)
    · exact Or.inr (Or.inr (hu _ n h1 c h))

theorem decInt_not_mem {s : Str} {v : Int} (h : DecInt s v) {c : Char} (h1 : c ≠ '+') (h2 : c ≠ '-') (h3 : numeral c = none) : c ∉ s := by
  intro hc
  rcases decInt_chars h c hc with h | h | h
  · exact h1 h
  · exact h2 h
  · rw [h3] at h; simp at h

theorem fanItem_split {item : Str} {kv : Int × Int} (h : FanItem item kv) :
    ∃ a b, split '=' item = [a, b] ∧ atoi a = (kv.1, none) ∧ atoi b = (kv.2, none) ∧ 0 ≤ kv.1 ∧ 0 ≤ kv.2 ∧ kv.2 ≤ 255 ∧ ',' ∉ item := by
  obtain ⟨a, b, rfl, h1, h2, h3, h4, h5⟩ := h
  have e1 : '=' ∉ a := decInt_not_mem h1 (by decide) (by decide) (by decide)
  have e2 : '=' ∉ b := decInt_not_mem h2 (by decide) (by decide) (by decide)
  have e3 : ',' ∉ a := decInt_not_mem h1 (by decide) (by decide) (by decide)
  have e4 : ',' ∉ b := decInt_not_mem h2 (by decide) (by decide) (by decide)
  refine ⟨a, b, ?_, (atoi_iff ..).2 h1, (atoi_iff ..).2 h2, h3, h4, h5, ?_⟩
  · rw [split_append e1, split_eq_singleton e2]
  · simp [e3, e4]

theorem fanLoop_some {items : List Str} {kvs : List (Int × Int)} (h : List.Forall₂ FanItem items kvs) (lut : Lut) :
    fanLoop items lut = some (fun k => (lastMention kvs k).or (lut k)) := by
  induction h generalizing lut with
  | nil => simp [fanLoop, lastMention]
  | cons h _ ih =>
    rename_i item kv items kvs _
    obtain ⟨a, b, h1, h2, h3, h4, h5, h6, _⟩ := fanItem_split h
    simp only [fanLoop, h1, h2, h3]
    rw [if_neg (by simp; omega), ih]
    congr 1
    funext k
    unfold lastMention Lut.insert
    rw [List.reverse_cons, List.find?_append]
    cases hf : kvs.reverse.find? (fun kv => kv.1 = k) with
    | some x => simp
    | none =>
      simp only [Option.map_none, Option.none_or, List.find?_cons, List.find?_nil]
      by_cases hk : kv.1 = k
      · simp [hk]
      · rw [if_neg (fun h => hk h.symm)]; simp [hk]

theorem fanLoop_items {items : List Str} {lut r : Lut} (h : fanLoop items lut = some r) : ∃ kvs, List.Forall₂ FanItem items kvs := by
  induction items generalizing lut with
  | nil => exact ⟨[], .nil⟩
  | cons item items ih =>
    simp only [fanLoop] at h
    split at h
    · rename_i a b hs
      split at h
      · simp at h
      · rename_i hc
        obtain ⟨kvs, hk⟩ := ih h
        simp only [not_or, not_lt, Bool.not_eq_true, Option.isSome_eq_false_iff, Option.isNone_iff_eq_none] at hc
        obtain ⟨c1, c2, c3, c4, c5⟩ := hc
        refine ⟨((atoi a).1, (atoi b).1) :: kvs, .cons ⟨a, b, ?_, ?_, ?_, c3, c4, by simpa using c5⟩ hk⟩
        · have := join_split '=' item
          rw [hs] at this; exact this.symm
        · rw [← atoi_iff]; exact Prod.ext rfl c1
        · rw [← atoi_iff]; exact Prod.ext rfl c2
    · simp at h

/-- **C14** A text of the documented format is accepted, and the table is then exactly the last mention of each layer. -/
theorem C14_table (f : Lut) (s : Str) (kvs : List (Int × Int)) (h : FanText s kvs) : fanSet f s = (lastMention kvs, false) := by
  obtain ⟨items, hne, rfl, hf⟩ := h
  have hcomma : ∀ i ∈ items, ',' ∉ i := by
    intro i hi
    obtain ⟨n, hn, rfl⟩ := List.mem_iff_getElem.1 hi
    have := List.Forall₂.length_eq hf
    have hit := (List.forall₂_iff_get.1 hf).2 n hn (by omega)
    obtain ⟨_, _, _, _, _, _, _, _, h⟩ := fanItem_split hit
    exact h
  unfold fanSet
  rw [← join_eq_intercalate, split_join hne hcomma, fanLoop_some hf]
  simp

/-- **C14** Nothing else is accepted. -/
theorem C14_accepts_only (f : Lut) (s : Str) (h : (fanSet f s).2 = false) : ∃ kvs, FanText s kvs := by
  unfold fanSet at h
  split at h
  · rename_i lut hl
    obtain ⟨kvs, hk⟩ := fanLoop_items hl
    refine ⟨kvs, split ',' s, split_ne_nil _ _, ?_, hk⟩
    rw [← join_eq_intercalate, join_split]
  · simp at h

/-- **C14** On an error the table is unchanged. -/
theorem C14_error (f : Lut) (s : Str) (h : (fanSet f s).2 = true) : (fanSet f s).1 = f := by
  unfold fanSet at *
  split at h
  · simp at h
  · rfl

/-- A concrete text: the later mention of layer 2 wins. -/
example : FanText "2=100,5=255,2=7".toList [(2, 100), (5, 255), (2, 7)] ∧ lastMention [(2, 100), (5, 255), (2, 7)] 2 = some 7 := by
  refine ⟨⟨["2=100".toList, "5=255".toList, "2=7".toList], by simp, by decide, ?_⟩, by decide⟩
  have h : ∀ (a b : Str) (k v : Int), parseInt false a = (k, none) → parseInt false b = (v, none) → 0 ≤ k → 0 ≤ v → v ≤ 255 →
      FanItem (a ++ '=' :: b) (k, v) := fun a b k v h1 h2 h3 h4 h5 => ⟨a, b, rfl, (atoi_iff ..).1 h1, (atoi_iff ..).1 h2, h3, h4, h5⟩
  exact .cons (h "2".toList "100".toList 2 100 (by decide +kernel) (by decide +kernel) (by decide) (by decide) (by decide))
    (.cons (h "5".toList "255".toList 5 255 (by decide +kernel) (by decide +kernel) (by decide) (by decide) (by decide))
    (.cons (h "2".toList "7".toList 2 7 (by decide +kernel) (by decide +kernel) (by decide) (by decide) (by decide)) .nil))

/-! ## C15 -/

/-- Specification: `order` is one of the orders in which iterating over the map `t` can yield its entries. -/
def IterationOrder (order : List (Int × Int)) (t : Lut) : Prop :=
  (order.map Prod.fst).Nodup ∧ ∀ k v, (k, v) ∈ order ↔ t k = some v

theorem lastMention_nodup {order : List (Int × Int)} (h : (order.map Prod.fst).Nodup) (k v : Int) :
    lastMention order k = some v ↔ (k, v) ∈ order := by
  unfold lastMention
  rw [Option.map_eq_some_iff]
  constructor
  · rintro ⟨kv, h1, rfl⟩
    have h2 := List.find?_some h1
    have h3 := List.mem_of_find?_eq_some h1
    simp only [decide_eq_true_eq] at h2
    subst h2
    simpa using h3
  · intro hm
    have hex : (order.reverse.find? (fun kv => kv.1 = k)).isSome = true := by
      rw [List.find?_isSome]; exact ⟨(k, v), by simpa using hm, by simp⟩
    obtain ⟨kv, hkv⟩ := Option.isSome_iff_exists.1 hex
    have h2 := List.find?_some hkv
    have h3 : kv ∈ order := by simpa using List.mem_of_find?_eq_some hkv
    simp only [decide_eq_true_eq] at h2
    have : kv = (k, v) := List.inj_on_of_nodup_map h h3 hm (by simpa using h2)
    exact ⟨kv, hkv, by rw [this]⟩

/-- **C15** `Set(String(t))` restores a non-empty table with valid entries, whatever order the map iteration produces. -/
theorem C15_round_trip (f t : Lut) (order : List (Int × Int)) (ho : IterationOrder order t) (hne : order ≠ [])
    (hvalid : ∀ k v, t k = some v → 0 ≤ k ∧ k < 2 ^ 63 ∧ 0 ≤ v ∧ v ≤ 255) : fanSet f (fanString order) = (t, false) := by
  have htext : FanText (fanString order) order := by
    refine ⟨order.map fun kv : Int × Int => formatInt kv.1 ++ '=' :: formatInt kv.2, by simpa using hne, (join_eq_intercalate ..), ?_⟩
    rw [List.forall₂_map_left_iff, List.forall₂_same]
    rintro ⟨k, v⟩ hkv
    obtain ⟨h1, h2, h3, h4⟩ := hvalid k v ((ho.2 k v).1 hkv)
    exact ⟨_, _, rfl, (atoi_iff ..).1 (parseInt_formatInt false k (by omega) h2),
      (atoi_iff ..).1 (parseInt_formatInt false v (by omega) (by omega)), h1, h3, h4⟩
  rw [C14_table f _ _ htext]
  congr 1
  funext k
  cases ht : t k with
  | some v => exact (lastMention_nodup ho.1 k v).2 ((ho.2 k v).2 ht)
  | none =>
    cases hl : lastMention order k with
    | none => rfl
    | some v =>
      have := (ho.2 k v).1 ((lastMention_nodup ho.1 k v).1 hl)
      rw [ht] at this; simp at this

/-- **C15** The hypothesis is necessary: the empty table is written as the empty text, which `Set` rejects. -/
theorem C15_empty (f : Lut) : fanSet f (fanString []) = (f, true) := rfl

example : IterationOrder [(7, 255), (2, 100)] (fun k => if k = 2 then some 100 else if k = 7 then some 255 else none) := by
  constructor
  · decide
  · intro k v
    simp only [List.mem_cons, Prod.mk.injEq, List.not_mem_nil, or_false]
    split
    · rename_i h; subst h; simp; omega
    · split
      · rename_i h; subst h; simp; omega
      · simp; omega

/-! ## C16 -/

/-- **C16** `Set` fails exactly when there is no newline, and leaves the hunk unchanged then. -/
theorem C16_fails (h : List Str) (s : Str) : (hunkSet h s).2 = true ↔ '\n' ∉ s := by
  unfold hunkSet
  by_cases hc : '\n' ∈ s
  · have := (contains_char s '\n').2 hc
    simp [this, hc]
  · have : contains s ['\n'] = false := by
      rw [Bool.eq_false_iff]; intro h'; exact hc ((contains_char s '\n').1 h')
    simp [this, hc]

theorem C16_fail_unchanged (h : List Str) (s : Str) (he : (hunkSet h s).2 = true) : (hunkSet h s).1 = h := by
  unfold hunkSet at *
  split at he
  · rename_i hc; simp [hc]
  · simp at he

theorem isSpace_iff (c : Char) : isSpace c = true ↔ WhiteSpace c := by
  have hc : ∀ d : Char, c.toNat = d.toNat → c = d := fun d h => Char.toNat_inj.1 h
  constructor
  · intro h
    unfold isSpace at h
    rw [Bool.or_eq_true, Bool.and_eq_true, decide_eq_true_iff, decide_eq_true_iff, decide_eq_true_iff] at h
    rcases h with h | ⟨h1, h2⟩
    · simp only [List.mem_cons, List.not_mem_nil, or_false] at h
      rcases h with h | h | h | h | h | h | h | h | h | h | h | h | h | h
      · rw [hc '\t' h]; exact .tab
      · rw [hc '\n' h]; exact .newLine
      · rw [hc '\x0b' h]; exact .verticalTab
      · rw [hc '\x0c' h]; exact .formFeed
      · rw [hc '\r' h]; exact .carriageReturn
      · rw [hc ' ' h]; exact .space
      · rw [hc '\u0085' h]; exact .nextLine
      · rw [hc '\u00a0' h]; exact .noBreak
      · rw [hc '\u1680' h]; exact .ogham
      · rw [hc '\u2028' h]; exact .line
      · rw [hc '\u2029' h]; exact .paragraph
      · rw [hc '\u202f' h]; exact .narrow
      · rw [hc '\u205f' h]; exact .mathematical
      · rw [hc '\u3000' h]; exact .ideographic
    · exact .general h1 h2
  · intro h
    cases h with
    | general h1 h2 =>
      unfold isSpace
      rw [Bool.or_eq_true, Bool.and_eq_true, decide_eq_true_iff, decide_eq_true_iff, decide_eq_true_iff]
      exact .inr ⟨h1, h2⟩
    | _ => decide

/-- **C16**, **C17** A line is blank exactly if it consists of white space only. -/
theorem C17_blank (l : Str) : Blank l ↔ ∀ c ∈ l, WhiteSpace c := by
  unfold Blank
  simp only [isSpace_iff]

instance (s : Str) : Decidable (Blank s) := by unfold Blank; infer_instance

/-- **C16** On success the lines are the non-blank rows of the text, in order and unmodified. -/
theorem C16_lines (h : List Str) (rows : List Str) (hr : ∀ r ∈ rows, '\n' ∉ r) (hl : 2 ≤ rows.length) :
    hunkSet h (List.intercalate ['\n'] rows) = (rows.filter (fun r => ¬ Blank r), false) := by
  have hne : rows ≠ [] := by rintro rfl; simp at hl
  unfold hunkSet
  rw [← join_eq_intercalate]
  have hn : '\n' ∈ join '\n' rows := by
    match rows, hl with
    | a :: b :: l, _ => simp [join]
  rw [(contains_char _ _).2 hn, split_join hne hr]
  simp only [Bool.not_true, Bool.false_eq_true, if_false, Prod.mk.injEq, and_true]
  apply List.filter_congr
  intro r _
  rw [decide_eq_decide, ← trimSpace_eq_nil]
  exact List.length_pos_iff

/-- Every text with a newline has such rows. -/
theorem C16_rows (s : Str) (hs : '\n' ∈ s) :
    ∃ rows : List Str, s = List.intercalate ['\n'] rows ∧ (∀ r ∈ rows, '\n' ∉ r) ∧ 2 ≤ rows.length := by
  refine ⟨split '\n' s, ?_, fun r hr => sep_not_mem_split hr, ?_⟩
  · rw [← join_eq_intercalate, join_split]
  · obtain ⟨a, b, rfl, ha⟩ : ∃ a b, s = a ++ '\n' :: b ∧ '\n' ∉ a := by
      induction s with
      | nil => simp at hs
      | cons c s ih =>
        by_cases hc : c = '\n'
        · exact ⟨[], s, by simp [hc], by simp⟩
        · have hs' : '\n' ∈ s := by
            rcases List.mem_cons.1 hs with h | h
            · exact absurd h.symm hc
            · exact h
          obtain ⟨x, y, h4, h5⟩ := ih hs'
          exact ⟨c :: x, y, by rw [h4]; rfl, by simp [h5]; exact fun h => hc h.symm⟩
    rw [split_append ha]
    have := split_ne_nil '\n' b
    simp only [List.length_cons]
    have := List.length_pos_iff.2 this
    omega

/-- **C16** `Set(String(h))` restores a hunk of at least two non-blank lines without newlines. -/
theorem C16_round_trip (h h0 : List Str) (hr : ∀ r ∈ h, '\n' ∉ r ∧ ¬ Blank r) (hl : 2 ≤ h.length) :
    hunkSet h0 (hunkString h) = (h, false) := by
  unfold hunkString
  rw [join_eq_intercalate, C16_lines h0 h (fun r hh => (hr r hh).1) hl]
  rw [List.filter_eq_self.2]
  intro r hh
  simpa using (hr r hh).2

/-- A hunk of one line does not survive. -/
theorem C16_one_line (l : Str) (hl : '\n' ∉ l) (h0 : List Str) : hunkSet h0 (hunkString [l]) = (h0, true) :=
  Prod.ext (C16_fail_unchanged _ _ ((C16_fails _ _).2 hl)) ((C16_fails _ _).2 hl)

example : hunkSet [] "G28\n  \n G1 X5 \n".toList = (["G28".toList, " G1 X5 ".toList], false) := by decide +kernel

/-! ## C17 -/

/-- The first word of a line: what remains after dropping leading white space, up to the next space or the end (spec). -/
theorem firstWord_ok (l : Str) : ∃ w, firstWord l = .ok w ∧ (w = [] ↔ Blank l) := by
  unfold firstWord
  obtain ⟨w, t, hw⟩ := List.exists_cons_of_ne_nil (split_ne_nil ' ' (trimSpace l))
  refine ⟨w, by rw [hw]; rfl, ?_⟩
  rw [← trimSpace_eq_nil]
  constructor
  · rintro rfl
    cases hts : trimSpace l with
    | nil => rfl
    | cons c r =>
      exfalso
      rw [hts] at hw
      have hc := trimSpace_head hts
      simp only [split] at hw
      split at hw
      · rename_i h; subst h; revert hc; decide
      · split at hw <;> simp at hw
  · intro h; rw [h] at hw; simp [split] at hw; exact hw.1

/-- **C17** `GetInstructionCode` panics if and only if some line is blank; it never reports an error. -/
theorem C17_panics_iff (h : List Str) : (∃ m, getInstructionCode h = .error (.panic m)) ↔ ∃ l ∈ h, Blank l := by
  induction h with
  | nil => simp [getInstructionCode]
  | cons l h ih =>
    obtain ⟨w, hw, hb⟩ := firstWord_ok l
    simp only [getInstructionCode, hw, bind, Except.bind]
    cases w with
    | nil =>
      have : Blank l := hb.1 rfl
      simp only [index]
      constructor
      · intro _; exact ⟨l, by simp, this⟩
      · intro _; exact ⟨_, rfl⟩
    | cons c w =>
      have hnb : ¬ Blank l := fun h => by have := hb.2 h; simp at this
      have : index (c :: w) 0 = .ok c := rfl
      simp only [this]
      constructor
      · rintro ⟨m, hm⟩
        obtain ⟨l', hl', hb'⟩ := ih.1 ⟨m, by
          cases hg : getInstructionCode h with
          | error e => rw [hg] at hm; simp at hm; rw [hm]
          | ok r => rw [hg] at hm; simp [pure, Except.pure] at hm⟩
        exact ⟨l', List.mem_cons_of_mem _ hl', hb'⟩
      · rintro ⟨l', hl', hb'⟩
        rcases List.mem_cons.1 hl' with rfl | hl'
        · exact absurd hb' hnb
        · obtain ⟨m, hm⟩ := ih.2 ⟨l', hl', hb'⟩
          exact ⟨m, by rw [hm]⟩

/-- There is no other failure. -/
theorem C17_no_error (h : List Str) (m : String) : getInstructionCode h ≠ .error (.err m) := by
  induction h with
  | nil => simp [getInstructionCode]
  | cons l h ih =>
    obtain ⟨w, hw, _⟩ := firstWord_ok l
    simp only [getInstructionCode, hw, bind, Except.bind]
    cases w with
    | nil => simp [index]
    | cons c w =>
      have : index (c :: w) 0 = .ok c := rfl
      simp only [this]
      cases hg : getInstructionCode h with
      | error e => simp only [ne_eq, Except.error.injEq]; intro he; exact ih (by rw [hg, he])
      | ok r => simp [pure, Except.pure]

/-- **C17** A hunk which was set by the option never makes it panic. -/
theorem C17_after_set (h0 : List Str) (s : Str) (hs : (hunkSet h0 s).2 = false) : ∃ codes, getInstructionCode (hunkSet h0 s).1 = .ok codes := by
  cases hg : getInstructionCode (hunkSet h0 s).1 with
  | ok r => exact ⟨r, rfl⟩
  | error e =>
    cases e with
    | err m => exact absurd hg (C17_no_error _ m)
    | panic m =>
      obtain ⟨l, hl, hb⟩ := (C17_panics_iff _).1 ⟨m, hg⟩
      have hn : '\n' ∈ s := by
        by_contra h; rw [(C16_fails h0 s).2 h] at hs; simp at hs
      obtain ⟨rows, rfl, h1, h2⟩ := C16_rows s hn
      rw [C16_lines h0 rows h1 h2] at hl
      simp only [List.mem_filter] at hl
      exact absurd hb (by simpa using hl.2)

example : getInstructionCode ["G28 X".toList, ";M1".toList, " M104 S0".toList] = .ok ["G28".toList, "M104".toList] := by decide +kernel

/-! ## C75: which lines suppress the automatic temperature commands -/

/-- Specification: the first word of a line is what follows leading white space, up to the next space. -/
def wordOf (l : Str) : Str := (l.dropWhile isSpace).takeWhile (· ≠ ' ')

theorem split_head (sep : Char) (s : Str) : ∃ t, split sep s = s.takeWhile (· ≠ sep) :: t := by
  induction s with
  | nil => exact ⟨[], rfl⟩
  | cons c s ih =>
    obtain ⟨t, ht⟩ := ih
    simp only [split]
    split
    · rename_i h; exact ⟨_, by simp [h]; rfl⟩
    · rename_i h
      rw [ht]
      exact ⟨t, by rw [List.takeWhile_cons_of_pos (by simpa using h)]⟩

theorem firstWord_wordOf (l : Str) : ∃ w b, firstWord l = .ok w ∧ wordOf l = w ++ b ∧ Blank b := by
  unfold firstWord wordOf
  obtain ⟨t, ht⟩ := split_head ' ' (trimSpace l)
  have hd : ∃ b, l.dropWhile isSpace = trimSpace l ++ b ∧ Blank b := by
    refine ⟨((l.dropWhile isSpace).reverse.takeWhile isSpace).reverse, ?_, ?_⟩
    · unfold trimSpace
      rw [← List.reverse_append, List.takeWhile_append_dropWhile, List.reverse_reverse]
    · intro c hc
      exact takeWhile_all isSpace _ c (List.mem_reverse.1 hc)
  obtain ⟨b, hb, hblank⟩ := hd
  refine ⟨_, (if ' ' ∈ trimSpace l then [] else b.takeWhile (· ≠ ' ')), by rw [ht]; rfl, ?_, ?_⟩
  · rw [hb]
    generalize trimSpace l = u
    induction u with
    | nil => simp
    | cons c u ih =>
      by_cases hc : c = ' '
      · subst hc; simp
      · rw [List.cons_append, List.takeWhile_cons_of_pos (by simpa using hc), List.takeWhile_cons_of_pos (by simpa using hc), ih]
        have : ' ' ∈ c :: u ↔ ' ' ∈ u := by
          rw [List.mem_cons]
          constructor
          · rintro (h | h)
            · exact absurd h.symm hc
            · exact h
          · exact Or.inr
        simp only [this, List.cons_append]
  · intro c hc
    split at hc
    · simp at hc
    · exact hblank c (List.takeWhile_sublist _ |>.subset hc)

theorem infix_append_blank {c w b : Str} (hc : ∀ x ∈ c, isSpace x = false) (hb : Blank b) (h : c <:+: w ++ b) : c <:+: w := by
  obtain ⟨p, q, hpq⟩ := h
  rcases List.append_eq_append_iff.1 hpq with ⟨a, h1, h2⟩ | ⟨a, h1, h2⟩
  · exact ⟨p, a, by rw [h1]⟩
  · -- `p ++ c = w ++ a` with blank `a`: then `a` lies in `p` or `c` is empty
    rcases List.append_eq_append_iff.1 h1 with ⟨a', h3, h4⟩ | ⟨a', h3, h4⟩
    · -- w = p ++ a', c = a' ++ a
      have : a = [] := by
        cases a with
        | nil => rfl
        | cons x a =>
          have e1 := hc x (by rw [h4]; simp)
          have e2 := hb x (by rw [h2]; simp)
          rw [e1] at e2; simp at e2
      subst this
      exact ⟨p, [], by rw [h3, h4]; simp⟩
    · -- p = w ++ a', a = a' ++ c
      have : c = [] := by
        cases c with
        | nil => rfl
        | cons x c =>
          have e1 := hc x (by simp)
          have e2 := hb x (by rw [h2, h4]; simp)
          rw [e1] at e2; simp at e2
      subst this
      exact List.nil_infix

/-- **C75** `DoesInstructionContainCodes` never fails; for codes without white space it is true exactly if the first word of some line
contains one of the codes as a substring - also inside a comment or a longer code. -/
theorem C75_contains_iff (codes lines : List Str) (hcodes : ∀ c ∈ codes, ∀ x ∈ c, isSpace x = false) :
    ∃ b, doesInstructionContainCodes codes lines = .ok b ∧ (b = true ↔ ∃ l ∈ lines, ∃ c ∈ codes, c <:+: wordOf l) := by
  induction lines with
  | nil => exact ⟨false, rfl, by simp⟩
  | cons l lines ih =>
    obtain ⟨w, bl, hw, hwo, hbl⟩ := firstWord_wordOf l
    obtain ⟨b, hb, hb'⟩ := ih
    by_cases hany : codes.any (fun c => contains w c) = true
    · refine ⟨true, by simp only [doesInstructionContainCodes, hw, bind, Except.bind, hany]; rfl, ?_⟩
      simp only [true_iff]
      obtain ⟨c, hc, hcc⟩ := List.any_eq_true.1 hany
      exact ⟨l, by simp, c, hc, by rw [hwo]; exact ((contains_iff _ _).1 hcc).trans (List.infix_append [] w bl)⟩
    · refine ⟨b, by simp only [doesInstructionContainCodes, hw, bind, Except.bind, hany, hb]; rfl, ?_⟩
      rw [hb']
      constructor
      · rintro ⟨l', hl', h⟩; exact ⟨l', List.mem_cons_of_mem _ hl', h⟩
      · rintro ⟨l', hl', c, hc, hcw⟩
        rcases List.mem_cons.1 hl' with rfl | hl'
        · rw [hwo] at hcw
          exact absurd (List.any_eq_true.2 ⟨c, hc, (contains_iff _ _).2 (infix_append_blank (hcodes c hc) hbl hcw)⟩) hany
        · exact ⟨l', hl', c, hc, hcw⟩

/-- **C75** A comment or another code that merely contains the digits counts. -/
theorem C75_false_positives :
    doesInstructionContainCodes ["M104".toList, "M109".toList] [";M104".toList] = .ok true ∧
    doesInstructionContainCodes ["M104".toList, "M109".toList] ["M1040 S5".toList] = .ok true ∧
    doesInstructionContainCodes ["M104".toList, "M109".toList] ["; M104".toList] = .ok false := by decide +kernel

end Verif
