import Verif.Go.Strconv
import Verif.Spec.Number
import Mathlib.Tactic.IntervalCases

/-! # The number parsers meet their specification -/
namespace Verif.Go
open Verif.Spec

theorem char_eq_iff {a b : Char} : a = b ↔ a.toNat = b.toNat :=
  ⟨fun h => by rw [h], fun h => Char.ext (UInt32.toNat_inj.1 h)⟩

theorem digitVal_eq_numeral (c : Char) : digitVal c = numeral c := by
  by_cases h : c.toNat < 128
  · obtain ⟨n, hn⟩ : ∃ n, n = c.toNat := ⟨_, rfl⟩
    have hc : c = Char.ofNat n := by rw [hn, Char.ofNat_toNat]
    rw [← hn] at h
    rw [hc]
    clear hc hn
    revert n
    decide +kernel
  · have h' : 128 ≤ c.toNat := not_lt.1 h
    have ne : ∀ d : Char, d.toNat < 128 → c ≠ d := by rintro d hd rfl; omega
    have l1 : numeral c = none := by
      unfold numeral
      simp only
      rw [if_neg, if_neg]
      · intro hm
        have : ∀ d ∈ "0123456789ABCDEFGHIJKLMNOPQRSTUVWXYZ".toList, d.toNat < 128 := by decide +kernel
        exact h (this c hm)
      · intro hm
        have : ∀ d ∈ "0123456789abcdefghijklmnopqrstuvwxyz".toList, d.toNat < 128 := by decide +kernel
        exact h (this c hm)
    have l2 : ∀ d : Char, d.toNat < 128 → ¬ c ≤ d := by
      intro d hd hle
      have : c.toNat ≤ d.toNat := Char.le_def.1 hle
      omega
    unfold digitVal
    rw [if_neg (fun h => l2 '9' (by decide) h.2), if_neg (fun h => l2 'z' (by decide) h.2),
      if_neg (fun h => l2 'Z' (by decide) h.2), l1]

theorem isNumeral_nil (b v : Nat) : IsNumeral b [] v ↔ v = 0 := by
  unfold IsNumeral
  constructor
  · rintro ⟨ds, h1, _, h3⟩
    have : ds = [] := by simpa using h1.symm
    subst this; simpa using h3
  · rintro rfl; exact ⟨[], by simp⟩

/-- `s` are numerals that continue a number with value `n`. -/
def NumeralFrom (b n : Nat) (s : Str) (v : Nat) : Prop :=
  ∃ ds : List Nat, s.map numeral = ds.map some ∧ (∀ d ∈ ds, d < b) ∧ v = ds.foldl (fun n d => n * b + d) n

theorem ofDigits_reverse (b : Nat) (ds : List Nat) : Nat.ofDigits b ds.reverse = ds.foldl (fun n d => n * b + d) 0 := by
  induction ds using List.reverseRecOn with
  | nil => simp
  | append_singleton ds d ih =>
    rw [List.reverse_append, List.foldl_append]
    simp only [List.reverse_cons, List.reverse_nil, List.nil_append, List.singleton_append, List.foldl_cons, List.foldl_nil,
      Nat.ofDigits_cons, ih]
    ring

theorem isNumeral_iff (b : Nat) (s : Str) (v : Nat) : IsNumeral b s v ↔ NumeralFrom b 0 s v := by
  unfold IsNumeral NumeralFrom
  simp only [ofDigits_reverse]

theorem numeralFrom_nil (b n v : Nat) : NumeralFrom b n [] v ↔ v = n := by
  unfold NumeralFrom
  constructor
  · rintro ⟨ds, h1, _, h3⟩
    have : ds = [] := by simpa using h1.symm
    subst this; simpa using h3
  · rintro rfl; exact ⟨[], by simp⟩

theorem numeralFrom_cons (b n : Nat) (c : Char) (s : Str) (v : Nat) :
    NumeralFrom b n (c :: s) v ↔ ∃ d, numeral c = some d ∧ d < b ∧ NumeralFrom b (n * b + d) s v := by
  unfold NumeralFrom
  constructor
  · rintro ⟨ds, h1, h2, h3⟩
    cases ds with
    | nil => simp at h1
    | cons d ds =>
      simp only [List.map_cons, List.cons.injEq] at h1
      exact ⟨d, h1.1, h2 d (by simp), ds, h1.2, fun x hx => h2 x (List.mem_cons_of_mem _ hx), by simpa using h3⟩
  · rintro ⟨d, h1, h2, ds, h3, h4, h5⟩
    exact ⟨d :: ds, by simp [h1, h3], by simpa using ⟨h2, h4⟩, by simpa using h5⟩

theorem numeralFrom_ge {b n : Nat} (hb : 1 ≤ b) {s : Str} {v : Nat} (h : NumeralFrom b n s v) : n ≤ v := by
  induction s generalizing n with
  | nil => rw [numeralFrom_nil] at h; omega
  | cons c s ih =>
    rw [numeralFrom_cons] at h
    obtain ⟨d, _, _, h⟩ := h
    have := ih h
    nlinarith

theorem parseDigits_iff (b : Nat) (hb : 1 ≤ b) (base0 : Bool) (s : Str) (hs : base0 = true → '_' ∉ s) (n v : Nat) (us us' : Bool) (hn : n < 2 ^ 64) :
    parseDigits b base0 s n us = .ok (v, us') ↔ NumeralFrom b n s v ∧ v < 2 ^ 64 ∧ us' = us := by
  induction s generalizing n with
  | nil =>
    rw [parseDigits, numeralFrom_nil]
    constructor
    · intro h; injection h with h; injection h with h1 h2; subst h1; subst h2; exact ⟨rfl, hn, rfl⟩
    · rintro ⟨rfl, _, rfl⟩; rfl
  | cons c s ih =>
    have hs1 : ¬ (c = '_' ∧ base0 = true) := fun h => hs h.2 (by rw [h.1]; simp)
    have hs2 : base0 = true → '_' ∉ s := fun h h' => hs h (List.mem_cons_of_mem _ h')
    rw [parseDigits, if_neg hs1, digitVal_eq_numeral, numeralFrom_cons]
    cases hnum : numeral c with
    | none => simp
    | some d =>
      simp only [Option.some.injEq, exists_eq_left']
      by_cases hd : d ≥ b
      · rw [if_pos hd]
        constructor
        · intro h; simp at h
        · rintro ⟨⟨h, _⟩, _⟩; omega
      · rw [if_neg hd]
        by_cases h1 : n ≥ (2 ^ 64 - 1) / b + 1
        · rw [if_pos h1]
          constructor
          · intro h; simp at h
          · rintro ⟨⟨_, h⟩, h2, _⟩
            have := numeralFrom_ge hb h
            have h3 : (2 ^ 64 - 1) < n * b := by
              have h4 := Nat.lt_mul_div_succ (2 ^ 64 - 1) hb
              calc (2 ^ 64 - 1) < b * ((2 ^ 64 - 1) / b + 1) := h4
                _ ≤ b * n := Nat.mul_le_mul_left _ h1
                _ = n * b := mul_comm _ _
            omega
        · rw [if_neg h1]
          by_cases h2 : n * b + d > 2 ^ 64 - 1
          · rw [if_pos h2]
            constructor
            · intro h; simp at h
            · rintro ⟨⟨_, h⟩, h3, _⟩
              have := numeralFrom_ge hb h
              omega
          · rw [if_neg h2, ih hs2 _ (by omega)]
            constructor
            · rintro ⟨h3, h4, h5⟩; exact ⟨⟨by omega, h3⟩, h4, h5⟩
            · rintro ⟨⟨_, h3⟩, h4, h5⟩; exact ⟨h3, h4, h5⟩

theorem parseUint_dec_iff (s : Str) (v : Nat) : parseUint false s = .ok v ↔ UDec s v ∧ v < 2 ^ 64 := by
  unfold parseUint UDec
  by_cases h0 : s = []
  · simp [h0]
  · rw [if_neg h0]
    simp only [Bool.false_eq_true, if_false]
    have key := fun v us => parseDigits_iff 10 (by norm_num) false s (by simp) 0 v false us (by norm_num)
    rw [isNumeral_iff]
    cases hp : parseDigits 10 false s 0 false with
    | error e =>
      simp only [hp] at key
      constructor
      · intro h; simp at h
      · rintro ⟨⟨_, h1⟩, h2⟩; have := (key v false).2 ⟨h1, h2, rfl⟩; simp at this
    | ok r =>
      obtain ⟨n, us⟩ := r
      have h1 := (key n us).1 hp
      obtain ⟨h1, h2, rfl⟩ := h1
      simp only [Bool.false_eq_true, false_and, if_false, Except.ok.injEq]
      constructor
      · rintro rfl; exact ⟨⟨h0, h1⟩, h2⟩
      · rintro ⟨⟨_, h3⟩, h4⟩
        have := (key v false).2 ⟨h3, h4, rfl⟩
        rw [hp] at this; injection this with this; injection this

/-- Also for the digit sequences which underscores may interrupt: without one there is no check. -/
theorem parseUint_base0 (s : Str) (h0 : s ≠ []) (b : Nat) (hb : 1 ≤ b) (t : Str) (ht : '_' ∉ t) (hbp : basePrefix s = (b, t)) (v : Nat) :
    parseUint true s = .ok v ↔ NumeralFrom b 0 t v ∧ v < 2 ^ 64 := by
  unfold parseUint
  rw [if_neg h0]
  simp only [if_true, hbp]
  have key := fun v us => parseDigits_iff b hb true t (fun _ => ht) 0 v false us (by norm_num)
  cases hp : parseDigits b true t 0 false with
  | error e =>
    simp only [hp] at key
    constructor
    · intro h; simp at h
    · rintro ⟨h1, h2⟩; have := (key v false).2 ⟨h1, h2, rfl⟩; simp at this
  | ok r =>
    obtain ⟨n, us⟩ := r
    have h1 := (key n us).1 hp
    obtain ⟨h1, h2, rfl⟩ := h1
    simp only [Bool.false_eq_true, false_and, if_false, Except.ok.injEq]
    constructor
    · rintro rfl; exact ⟨h1, h2⟩
    · rintro ⟨h3, h4⟩
      have := (key v false).2 ⟨h3, h4, rfl⟩
      rw [hp] at this; injection this with this; injection this

theorem not_numeral8 {p : Char} (hp : p = 'b' ∨ p = 'B' ∨ p = 'o' ∨ p = 'O' ∨ p = 'x' ∨ p = 'X') {n : Nat} {t : Str} {v : Nat} :
    ¬ NumeralFrom 8 n (p :: t) v := by
  rw [numeralFrom_cons]
  rintro ⟨d, h1, h2, _⟩
  rcases hp with rfl | rfl | rfl | rfl | rfl | rfl <;>
    (revert h1; simp [numeral]; intro h; revert h2; subst h; decide)

theorem parseUint_lit_iff (s : Str) (hs : '_' ∉ s) (v : Nat) : parseUint true s = .ok v ↔ UIntLit s v ∧ v < 2 ^ 64 := by
  cases s with
  | nil =>
    constructor
    · intro h; simp [parseUint] at h
    · rintro ⟨h, _⟩; cases h
  | cons c t =>
    have ht : '_' ∉ t := fun h => hs (List.mem_cons_of_mem _ h)
    by_cases hc : c = '0'
    · subst hc
      cases t with
      | nil =>
        rw [parseUint_base0 _ (by simp) 8 (by norm_num) [] (by simp) rfl]
        constructor
        · rintro ⟨h1, h2⟩; exact ⟨.oct _ _ ((isNumeral_iff ..).2 h1), h2⟩
        · rintro ⟨h1, h2⟩
          cases h1 with
          | dec _ _ _ h _ => exact absurd rfl h
          | oct _ _ h => exact ⟨(isNumeral_iff ..).1 h, h2⟩
      | cons p t =>
        have ht' : '_' ∉ t := fun h => ht (List.mem_cons_of_mem _ h)
        cases t with
        | nil =>
          rw [parseUint_base0 _ (by simp) 8 (by norm_num) [p] ht rfl]
          constructor
          · rintro ⟨h1, h2⟩; exact ⟨.oct _ _ ((isNumeral_iff ..).2 h1), h2⟩
          · rintro ⟨h1, h2⟩
            cases h1 with
            | dec _ _ _ h _ => exact absurd rfl h
            | oct _ _ h => exact ⟨(isNumeral_iff ..).1 h, h2⟩
            | bin _ _ _ _ h => exact absurd rfl h
            | octo _ _ _ _ h => exact absurd rfl h
            | hex _ _ _ _ h => exact absurd rfl h
        | cons q t =>
          by_cases hb : p = 'b' ∨ p = 'B'
          · rw [parseUint_base0 _ (by simp) 2 (by norm_num) (q :: t) ht' (by simp [basePrefix, hb])]
            constructor
            · rintro ⟨h1, h2⟩; exact ⟨.bin _ _ _ hb (by simp) ((isNumeral_iff ..).2 h1), h2⟩
            · rintro ⟨h1, h2⟩
              cases h1 with
              | dec _ _ _ h _ => exact absurd rfl h
              | oct _ _ h => exact absurd ((isNumeral_iff ..).1 h) (not_numeral8 (by tauto))
              | bin _ _ _ _ _ h => exact ⟨(isNumeral_iff ..).1 h, h2⟩
              | octo _ _ _ h _ _ => rcases hb with rfl | rfl <;> simp at h
              | hex _ _ _ h _ _ => rcases hb with rfl | rfl <;> simp at h
          · by_cases ho : p = 'o' ∨ p = 'O'
            · rw [parseUint_base0 _ (by simp) 8 (by norm_num) (q :: t) ht' (by simp only [basePrefix]; rw [if_neg hb, if_pos ho])]
              constructor
              · rintro ⟨h1, h2⟩; exact ⟨.octo _ _ _ ho (by simp) ((isNumeral_iff ..).2 h1), h2⟩
              · rintro ⟨h1, h2⟩
                cases h1 with
                | dec _ _ _ h _ => exact absurd rfl h
                | oct _ _ h => exact absurd ((isNumeral_iff ..).1 h) (not_numeral8 (by tauto))
                | octo _ _ _ _ _ h => exact ⟨(isNumeral_iff ..).1 h, h2⟩
                | bin _ _ _ h _ _ => exact absurd h hb
                | hex _ _ _ h _ _ => rcases ho with rfl | rfl <;> simp at h
            · by_cases hx : p = 'x' ∨ p = 'X'
              · rw [parseUint_base0 _ (by simp) 16 (by norm_num) (q :: t) ht'
                  (by simp only [basePrefix]; rw [if_neg hb, if_neg ho, if_pos hx])]
                constructor
                · rintro ⟨h1, h2⟩; exact ⟨.hex _ _ _ hx (by simp) ((isNumeral_iff ..).2 h1), h2⟩
                · rintro ⟨h1, h2⟩
                  cases h1 with
                  | dec _ _ _ h _ => exact absurd rfl h
                  | oct _ _ h => exact absurd ((isNumeral_iff ..).1 h) (not_numeral8 (by tauto))
                  | hex _ _ _ _ _ h => exact ⟨(isNumeral_iff ..).1 h, h2⟩
                  | bin _ _ _ h _ _ => exact absurd h hb
                  | octo _ _ _ h _ _ => exact absurd h ho
              · rw [parseUint_base0 _ (by simp) 8 (by norm_num) (p :: q :: t) ht
                  (by simp only [basePrefix]; rw [if_neg hb, if_neg ho, if_neg hx])]
                constructor
                · rintro ⟨h1, h2⟩; exact ⟨.oct _ _ ((isNumeral_iff ..).2 h1), h2⟩
                · rintro ⟨h1, h2⟩
                  cases h1 with
                  | dec _ _ _ h _ => exact absurd rfl h
                  | oct _ _ h => exact ⟨(isNumeral_iff ..).1 h, h2⟩
                  | hex _ _ _ h _ _ => exact absurd h hx
                  | bin _ _ _ h _ _ => exact absurd h hb
                  | octo _ _ _ h _ _ => exact absurd h ho
    · have hbp : basePrefix (c :: t) = (10, c :: t) := by
        unfold basePrefix
        split
        · rename_i heq; injection heq with h _; exact absurd h hc
        · rename_i heq; injection heq with h _; exact absurd h hc
        · rfl
      rw [parseUint_base0 _ (by simp) 10 (by norm_num) (c :: t) hs hbp]
      constructor
      · rintro ⟨h1, h2⟩; exact ⟨.dec _ _ _ hc ((isNumeral_iff ..).2 h1), h2⟩
      · rintro ⟨h1, h2⟩
        cases h1 with
        | dec _ _ _ _ h => exact ⟨(isNumeral_iff ..).1 h, h2⟩
        | oct _ _ _ => exact absurd rfl hc
        | bin _ _ _ _ _ _ => exact absurd rfl hc
        | octo _ _ _ _ _ _ => exact absurd rfl hc
        | hex _ _ _ _ _ _ => exact absurd rfl hc

theorem parseInt_iff (base0 : Bool) (A : Str → Prop) (hA : ∀ c t, A (c :: t) → A t) (U : Str → Nat → Prop)
    (hU : ∀ t n, A t → (parseUint base0 t = .ok n ↔ U t n ∧ n < 2 ^ 64))
    (hne : ∀ n, ¬ U [] n) (hsign : ∀ c t n, c = '+' ∨ c = '-' → ¬ U (c :: t) n) (s : Str) (hs : A s) (v : Int) :
    parseInt base0 s = (v, none) ↔ Signed U s v := by
  unfold Signed
  cases s with
  | nil =>
    simp only [parseInt]
    constructor
    · intro h; simp at h
    · rintro (⟨t, n, h | h, h', _⟩ | ⟨t, n, h, _⟩)
      · subst h; exact absurd h' (hne n)
      · simp at h
      · simp at h
  | cons c t =>
    have ht : A t := hA c t hs
    simp only [parseInt]
    by_cases hm : c = '-'
    · subst hm
      rw [if_pos (Or.inr rfl)]
      have key := fun n => hU t n ht
      constructor
      · intro h
        right
        cases hp : parseUint base0 t with
        | error e => rw [hp] at h; cases e <;> simp at h
        | ok n =>
          rw [hp] at h
          simp at h
          split at h
          · simp at h
          · rename_i hn
            simp at h
            exact ⟨t, n, rfl, ((key n).1 hp).1, h.symm, by omega⟩
      · rintro (⟨t', n, h | h, h', _⟩ | ⟨t', n, h, h1, h2, h3⟩)
        · subst h; exact absurd h' (hsign _ _ _ (Or.inr rfl))
        · simp at h
        · injection h with _ h; subst h
          rw [(key n).2 ⟨h1, by omega⟩]
          simp
          rw [if_neg (by omega), h2]
    · have hd : ∀ t', A t' → (∀ n, parseUint base0 t' = .ok n ↔ U t' n ∧ n < 2 ^ 64) := fun t' h n => hU t' n h
      by_cases hp : c = '+'
      · subst hp
        rw [if_pos (Or.inl rfl)]
        have key := hd t ht
        constructor
        · intro h
          left
          cases hp : parseUint base0 t with
          | error e => rw [hp] at h; cases e <;> simp at h
          | ok n =>
            rw [hp] at h
            simp at h
            split at h
            · simp at h
            · rename_i hn
              simp at h
              exact ⟨t, n, Or.inr rfl, ((key n).1 hp).1, h.symm, by omega⟩
        · rintro (⟨t', n, h | h, h1, h2, h3⟩ | ⟨t', n, h, _⟩)
          · subst h; exact absurd h1 (hsign _ _ _ (Or.inl rfl))
          · injection h with _ h; subst h
            rw [(key n).2 ⟨h1, by omega⟩]
            simp
            rw [if_neg (by omega), h2]
          · simp at h
      · rw [if_neg (by tauto)]
        have key := hd _ hs
        constructor
        · intro h
          left
          cases hp : parseUint base0 (c :: t) with
          | error e => rw [hp] at h; cases e <;> simp [hm] at h
          | ok n =>
            rw [hp] at h
            simp [hm] at h
            split at h
            · simp at h
            · rename_i hn
              simp at h
              exact ⟨c :: t, n, Or.inl rfl, ((key n).1 hp).1, h.symm, by omega⟩
        · rintro (⟨t', n, h | h, h1, h2, h3⟩ | ⟨t', n, h, _⟩)
          · subst h
            rw [(key n).2 ⟨h1, by omega⟩]
            simp [hm]
            rw [if_neg (by omega), h2]
          · injection h with h _; exact absurd h hp
          · injection h with h _; exact absurd h hm

theorem atoi_iff (s : Str) (v : Int) : parseInt false s = (v, none) ↔ DecInt s v := by
  refine parseInt_iff false (fun _ => True) (fun _ _ _ => trivial) UDec (fun t n _ => parseUint_dec_iff t n) (fun n h => h.1 rfl) ?_ s trivial v
  rintro c t n hc ⟨_, h⟩
  rw [isNumeral_iff, numeralFrom_cons] at h
  obtain ⟨d, h, _⟩ := h
  rcases hc with rfl | rfl <;> simp [numeral] at h

theorem intLit_iff (s : Str) (hs : '_' ∉ s) (v : Int) : parseInt true s = (v, none) ↔ IntLit s v := by
  refine parseInt_iff true ('_' ∉ ·) (fun _ _ h h' => h (List.mem_cons_of_mem _ h')) UIntLit (fun t n ht => parseUint_lit_iff t ht n) (fun n h => by cases h) ?_ s hs v
  intro c t n hc h
  cases h with
  | dec _ _ _ _ h =>
    rw [isNumeral_iff, numeralFrom_cons] at h
    obtain ⟨d, h, _⟩ := h
    rcases hc with rfl | rfl <;> simp [numeral] at h
  | oct => simp at hc
  | bin => simp at hc
  | octo => simp at hc
  | hex => simp at hc

end Verif.Go
