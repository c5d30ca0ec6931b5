import Verif.Props.Millimeter
import Verif.Spec.FloatText

/-! # C151: infinity and NaN as lengths in the options -/
namespace Verif
open Go Model Spec

/-- The small letter of a character, as computed by `strconv`. -/
theorem lower_iff (c d : Char) (hd : d ∈ "infinitya".toList) : smallLetter c = d ↔ c = d ∨ c = d.toUpper := by
  unfold smallLetter
  split
  · rename_i h
    have h1 : 65 ≤ c.toNat := h.1
    have h2 : c.toNat ≤ 90 := h.2
    have hc : ∃ n : Nat, 65 ≤ n ∧ n ≤ 90 ∧ c = Char.ofNat n := ⟨c.toNat, h1, h2, (Char.ofNat_toNat c).symm⟩
    obtain ⟨n, h1', h2', rfl⟩ := hc
    clear h
    have key : ∀ n < 91, 65 ≤ n → ∀ d ∈ "infinitya".toList, Char.ofNat ((Char.ofNat n).toNat + 32) = d ↔ Char.ofNat n = d ∨ Char.ofNat n = d.toUpper := by decide
    exact key n (by omega) h1' d hd
  · rename_i h
    constructor
    · exact .inl
    · rintro (rfl | rfl)
      · rfl
      · exfalso
        revert d
        decide

theorem prefix_le (s t : Str) : commonPrefixLen s t ≤ s.length ∧ commonPrefixLen s t ≤ t.length := by
  induction s generalizing t with
  | nil => simp [commonPrefixLen]
  | cons c s ih =>
    cases t with
    | nil => simp [commonPrefixLen]
    | cons d t =>
      simp only [commonPrefixLen]
      split
      · simpa using ih t
      · simp

/-- The whole text is read exactly if it is the beginning of the word, in any case. -/
theorem prefix_iff (s t : Str) (ht : ∀ d ∈ t, d ∈ "infinitya".toList) (n : Nat) (hn : n ≤ t.length) :
    (commonPrefixLen s t = n ∧ s.length = n) → List.Forall₂ (fun c d => c = d ∨ c = d.toUpper) s (t.take n) := by
  induction s generalizing t n with
  | nil =>
    rintro ⟨-, rfl⟩
    simp
  | cons c s ih =>
    rintro ⟨h1, h2⟩
    cases t with
    | nil => simp at h2 hn; omega
    | cons d t =>
      obtain _ | n := n
      · simp at h2
      · simp only [commonPrefixLen] at h1
        split at h1
        · rename_i hc
          refine .cons ((lower_iff _ _ (ht d List.mem_cons_self)).1 hc) (ih t (fun d hd => ht d (List.mem_cons_of_mem _ hd)) n (by simpa using hn) ⟨by omega, by simpa using h2⟩)
        · omega

theorem prefix_of (s t : Str) (ht : ∀ d ∈ t, d ∈ "infinitya".toList) (n : Nat) (hn : n ≤ t.length) (h : List.Forall₂ (fun c d => c = d ∨ c = d.toUpper) s (t.take n)) :
    commonPrefixLen s t = n ∧ s.length = n := by
  induction s generalizing t n with
  | nil =>
    have := h.length_eq
    simp only [List.length_nil, List.length_take] at this
    have h0 : n = 0 := by omega
    subst h0
    simp [commonPrefixLen]
  | cons c s ih =>
    cases t with
    | nil => simp at h
    | cons d t =>
      obtain _ | n := n
      · simp at h
      · rw [List.take_succ_cons] at h
        obtain ⟨h1, h2⟩ := List.forall₂_cons.1 h
        obtain ⟨e1, e2⟩ := ih t (fun d hd => ht d (List.mem_cons_of_mem _ hd)) n (by simpa using hn) h2
        simp only [commonPrefixLen, List.length_cons]
        rw [if_pos ((lower_iff _ _ (ht d List.mem_cons_self)).2 h1), e1, e2]
        exact ⟨rfl, rfl⟩

theorem specialInf_iff (neg : Bool) (k : Nat) (s : Str) (v : F32) : specialInf neg k s = some (v, k + s.length) ↔ (AnyCase "inf" s ∨ AnyCase "infinity" s) ∧ v = .inf neg := by
  have ht : ∀ d ∈ "infinity".toList, d ∈ "infinitya".toList := by decide
  have e3 : AnyCase "inf" s ↔ commonPrefixLen s "infinity".toList = 3 ∧ s.length = 3 :=
    ⟨fun h => prefix_of s _ ht 3 (by decide) h, fun h => prefix_iff s _ ht 3 (by decide) h⟩
  have e8 : AnyCase "infinity" s ↔ commonPrefixLen s "infinity".toList = 8 ∧ s.length = 8 :=
    ⟨fun h => prefix_of s _ ht 8 (by decide) h, fun h => prefix_iff s _ ht 8 (by decide) h⟩
  have hle := prefix_le s "infinity".toList
  have h8 : ("infinity".toList).length = 8 := rfl
  rw [e3, e8]
  unfold specialInf
  simp only
  generalize commonPrefixLen s "infinity".toList = n at *
  constructor
  · intro h
    by_cases hn : 3 < n ∧ n < 8
    · rw [if_pos hn, if_pos (.inl rfl)] at h
      obtain ⟨-, h⟩ := Prod.mk.inj (Option.some.inj h)
      omega
    · rw [if_neg hn] at h
      by_cases hn' : n = 3 ∨ n = 8
      · rw [if_pos hn'] at h
        obtain ⟨rfl, h⟩ := Prod.mk.inj (Option.some.inj h)
        exact ⟨by omega, rfl⟩
      · rw [if_neg hn'] at h
        cases h
  · rintro ⟨(⟨rfl, h⟩ | ⟨rfl, h⟩), rfl⟩ <;> simp [h]

theorem anyCase_head {w : String} {s : Str} (h : AnyCase w s) {d : Char} {t : Str} (hw : w.toList = d :: t) : ∃ c r, s = c :: r ∧ (c = d ∨ c = d.toUpper) := by
  unfold AnyCase at h
  rw [hw] at h
  cases h with
  | cons h1 h2 => exact ⟨_, _, rfl, h1⟩

/-- `special` reads the whole text exactly if it is one of the words. -/
theorem special_iff (s : Str) (v : F32) : special s = some (v, s.length) ↔ SpecialLit s v := by
  have hinf : ∀ {w : Str}, AnyCase "inf" w ∨ AnyCase "infinity" w → ∃ c r, w = c :: r ∧ (c = 'i' ∨ c = 'I') := by
    intro w h
    rcases h with h | h
    · exact anyCase_head h rfl
    · exact anyCase_head h rfl
  have hnan : AnyCase "nan" s ↔ commonPrefixLen s "nan".toList = 3 ∧ s.length = 3 :=
    ⟨fun h => prefix_of s _ (by decide) 3 (by decide) h, fun h => prefix_iff s _ (by decide) 3 (by decide) h⟩
  constructor
  · intro h
    cases s with
    | nil => cases h
    | cons c s =>
      simp only [special] at h
      split at h
      · rename_i hc
        subst hc
        rw [List.length_cons, Nat.add_comm] at h
        obtain ⟨h1, rfl⟩ := (specialInf_iff _ _ _ _).1 h
        exact .inl ⟨['+'], false, s, .inr (.inl ⟨rfl, rfl⟩), rfl, h1, rfl⟩
      · split at h
        · rename_i hc
          subst hc
          rw [List.length_cons, Nat.add_comm] at h
          obtain ⟨h1, rfl⟩ := (specialInf_iff _ _ _ _).1 h
          exact .inl ⟨['-'], true, s, .inr (.inr ⟨rfl, rfl⟩), rfl, h1, rfl⟩
        · split at h
          · have h' : specialInf false 0 (c :: s) = some (v, 0 + (c :: s).length) := by rw [h, Nat.zero_add]
            obtain ⟨h1, rfl⟩ := (specialInf_iff _ _ _ _).1 h'
            exact .inl ⟨[], false, c :: s, .inl ⟨rfl, rfl⟩, rfl, h1, rfl⟩
          · split at h
            · split at h
              · rename_i h3
                obtain ⟨e1, e2⟩ := Prod.mk.inj (Option.some.inj h)
                exact .inr ⟨hnan.2 ⟨h3, e2.symm⟩, e1.symm⟩
              · cases h
            · cases h
  · rintro (⟨sign, neg, w, hs, rfl, hw, rfl⟩ | ⟨hw, rfl⟩)
    · have := (specialInf_iff neg sign.length w _).2 ⟨hw, rfl⟩
      obtain ⟨c, r, rfl, hc⟩ := hinf hw
      rw [List.length_append, ← this]
      rcases hs with ⟨rfl, rfl⟩ | ⟨rfl, rfl⟩ | ⟨rfl, rfl⟩
      · rcases hc with rfl | rfl <;> simp [special]
      · rfl
      · rfl
    · obtain ⟨h3, h4⟩ := hnan.1 hw
      obtain ⟨c, r, rfl, hc⟩ := anyCase_head hw (d := 'n') rfl
      rw [h4]
      rcases hc with rfl | rfl
      · simp [special]
        exact h3
      · rw [show Char.toUpper 'n' = 'N' from rfl] at h3 ⊢
        simp [special]
        exact h3

/-- Numbers are none of the words. -/
theorem special_number {s : Str} {x : ℚ} (h : FloatLit s x) : special s = none := by
  have hinf : ∀ neg k t, (∀ c r, t = c :: r → c ≠ 'i' ∧ c ≠ 'I') → specialInf neg k t = none := by
    intro neg k t ht
    have : commonPrefixLen t "infinity".toList = 0 := by
      cases t with
      | nil => rfl
      | cons c r =>
        show commonPrefixLen (c :: r) ('i' :: "nfinity".toList) = 0
        simp only [commonPrefixLen]
        rw [if_neg]
        rw [lower_iff c 'i' (by decide)]
        rintro (h | h)
        · exact (ht c r rfl).1 h
        · exact (ht c r rfl).2 h
    unfold specialInf
    rw [this]
    rfl
  have hchar : ∀ c ∈ ['i', 'I', 'n', 'N'], ∀ {s' : Str} {y : ℚ}, DecLit s' y → c ∉ s' := by
    intro c hc s' y hd hm
    have := decLit_chars hd c hm
    revert this
    simp only [List.mem_cons, List.not_mem_nil, or_false] at hc
    rcases hc with rfl | rfl | rfl | rfl <;> unfold IsDigit <;> decide
  have hfirst : ∀ c ∈ ['i', 'I', 'n', 'N'], ∀ r, s ≠ c :: r ∧ s ≠ '+' :: c :: r ∧ s ≠ '-' :: c :: r := by
    intro c hc r
    rcases h with ⟨-, hd⟩ | ⟨sign, σ, p, t, y, hs, rfl, -⟩
    · have hn := hchar c hc hd
      have hu : c ≠ '_' := by
        simp only [List.mem_cons, List.not_mem_nil, or_false] at hc
        rcases hc with rfl | rfl | rfl | rfl <;> decide
      refine ⟨?_, ?_, ?_⟩ <;> rintro rfl <;> exact hn (List.mem_filter.2 ⟨by simp, by simpa using hu⟩)
    · simp only [List.mem_cons, List.not_mem_nil, or_false] at hc
      rcases hs with ⟨rfl, -⟩ | ⟨rfl, -⟩ | ⟨rfl, -⟩ <;> rcases hc with rfl | rfl | rfl | rfl <;> simp
  cases s with
  | nil => rfl
  | cons c s =>
    simp only [special]
    split
    · rename_i hc
      subst hc
      exact hinf _ _ _ fun d r hd => ⟨fun hi => (hfirst 'i' (by simp) r).2.1 (by rw [hd, hi]), fun hi => (hfirst 'I' (by simp) r).2.1 (by rw [hd, hi])⟩
    · split
      · rename_i hc
        subst hc
        exact hinf _ _ _ fun d r hd => ⟨fun hi => (hfirst 'i' (by simp) r).2.2 (by rw [hd, hi]), fun hi => (hfirst 'I' (by simp) r).2.2 (by rw [hd, hi])⟩
      · rw [if_neg, if_neg]
        · rintro (rfl | rfl)
          · exact (hfirst 'n' (by simp) s).1 rfl
          · exact (hfirst 'N' (by simp) s).1 rfl
        · rintro (rfl | rfl)
          · exact (hfirst 'i' (by simp) s).1 rfl
          · exact (hfirst 'I' (by simp) s).1 rfl

/-- **C151** Which texts are accepted for lengths, and with which value: numbers, and the words for infinity and NaN. -/
theorem C151_accepts (s : Str) (v : F32) : millimeterSetFull s = (v, none) ↔ (∃ x, FloatLit s x ∧ v = .finite (r32 x) ∧ |r32 x| < 2 ^ 128) ∨ SpecialLit s v := by
  unfold millimeterSetFull parseFloat32Full
  rw [← special_iff]
  cases hs : special s with
  | some p =>
    obtain ⟨v', n⟩ := p
    have hno : ∀ x, ¬ FloatLit s x := fun x hx => by rw [special_number hx] at hs; cases hs
    dsimp only
    split
    · rename_i hn
      subst hn
      simp [hno, eq_comm]
    · rename_i hn
      simp [hno, hn]
  | none =>
    simp only [← readFloat_iff, reduceCtorEq, or_false]
    cases readFloat s with
    | none => simp
    | some x =>
      dsimp only
      split
      · rename_i h
        simp [h, eq_comm]
      · rename_i h
        simp [h]

/-- **C151** What a failed call leaves as value: infinity with the sign of the number if it is too large, and 0 for all other texts. -/
theorem C151_failed (s : Str) (v : F32) (e : NumError) : millimeterSetFull s = (v, some e) ↔
    (e = .range ∧ ∃ x, FloatLit s x ∧ 2 ^ 128 ≤ |r32 x| ∧ v = .inf (decide (x < 0))) ∨ (e = .syntaxError ∧ v = .finite 0 ∧ (∀ x, ¬ FloatLit s x) ∧ ∀ v', ¬ SpecialLit s v') := by
  unfold millimeterSetFull parseFloat32Full
  simp only [← special_iff]
  cases hs : special s with
  | some p =>
    obtain ⟨v', n⟩ := p
    have hno : ∀ x, ¬ FloatLit s x := fun x hx => by rw [special_number hx] at hs; cases hs
    dsimp only
    split
    · rename_i hn
      subst hn
      simp [hno]
    · rename_i hn
      simp [hno, hn, eq_comm, and_comm]
  | none =>
    simp only [← readFloat_iff, reduceCtorEq, not_false_eq_true, implies_true, and_true]
    cases readFloat s with
    | none => simp [eq_comm, and_comm]
    | some x =>
      dsimp only
      split
      · rename_i h
        simp [not_le.2 h]
      · rename_i h
        simp [not_lt.1 h, eq_comm, and_comm]

/-- **C151** For finite values this is the parser of the model (C94), which refuses all other texts. -/
theorem C151_finite (s : Str) (x : Millimeter) : millimeterSetFull s = (.finite x, none) ↔ millimeterSet s = (x, none) := by
  rw [C151_accepts, C94_accepts]
  constructor
  · rintro (⟨y, h1, h2, h3⟩ | h)
    · cases h2
      exact ⟨y, h1, rfl, h3⟩
    · rcases h with ⟨_, _, _, _, _, _, h⟩ | ⟨_, h⟩ <;> cases h
  · rintro ⟨y, h1, rfl, h3⟩
    exact .inl ⟨y, h1, rfl, h3⟩

/-- **C151** Every accepted text is shown as a text which is accepted; infinity and NaN keep their value. -/
theorem C151_round_trip (v : F32) (h : ∀ x, v ≠ .finite x) : millimeterSetFull (millimeterStringFull v) = (v, none) := by
  rw [C151_accepts]
  refine .inr ?_
  match v, h with
  | .finite x, h => exact absurd rfl (h x)
  | .inf false, _ => exact .inl ⟨['+'], false, "Inf".toList, .inr (.inl ⟨rfl, rfl⟩), rfl, .inl (by unfold AnyCase; decide), rfl⟩
  | .inf true, _ => exact .inl ⟨['-'], true, "Inf".toList, .inr (.inr ⟨rfl, rfl⟩), rfl, .inl (by unfold AnyCase; decide), rfl⟩
  | .nan, _ => exact .inr ⟨by unfold AnyCase; decide, rfl⟩

/-- Violation: a length need not be a number. Non-vacuity of `C151_accepts`. -/
example : millimeterSetFull "-iNfinity".toList = (.inf true, none) ∧ millimeterSetFull "nAn".toList = (.nan, none) ∧ (∃ e, millimeterSetFull "+nan".toList = (.finite 0, some e)) ∧
    (∃ e, millimeterSetFull "infin".toList = (.finite 0, some e)) ∧ millimeterSetFull "-1e39".toList = (.inf true, some .range) := by
  refine ⟨(C151_accepts _ _).2 (.inr (.inl ⟨['-'], true, "iNfinity".toList, .inr (.inr ⟨rfl, rfl⟩), rfl, .inr (by unfold AnyCase; decide), rfl⟩)), by decide +kernel, ⟨.syntaxError, by decide +kernel⟩,
    ⟨.syntaxError, by decide +kernel⟩, by decide +kernel⟩

end Verif
