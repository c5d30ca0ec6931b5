import Verif.Props.FloatText
import Verif.Lemmas.Float

/-! # C151: the limit for exponents -/
namespace Verif
open Verif.Go Verif.Model Verif.Spec

theorem readFloatBy_digitsVal (s : Str) : readFloatBy digitsVal s = readFloat s := rfl

/-- Exponents which are equal or both very large. -/
def SameExp (e e' : Int) : Prop := e = e' ∨ (10000 ≤ e ∧ 10000 ≤ e') ∨ (e ≤ -10000 ∧ e' ≤ -10000)

theorem expVal_cases (s : Str) : expVal s = digitsVal s ∨ (10000 ≤ expVal s ∧ 10000 ≤ digitsVal s) := by
  unfold expVal digitsVal
  have h : ∀ (s : Str) (e n : Nat), (e = n ∨ (10000 ≤ e ∧ 10000 ≤ n)) →
      (s.foldl (fun e c => if e < 10000 then e * 10 + dval c else e) e = digitsFrom n s ∨
        (10000 ≤ s.foldl (fun e c => if e < 10000 then e * 10 + dval c else e) e ∧ 10000 ≤ digitsFrom n s)) := by
    intro s
    induction s with
    | nil => exact fun e n h => h
    | cons c s ih =>
      intro e n h
      rw [List.foldl_cons, digitsFrom]
      refine ih _ _ ?_
      split <;> omega
  exact h s 0 0 (.inl rfl)

/-- Values which are equal, both too large with the same sign, or both rounded to 0. -/
def SameFloat (x y : ℚ) : Prop := x = y ∨ (2 ^ 128 ≤ |r32 x| ∧ 2 ^ 128 ≤ |r32 y| ∧ (x < 0 ↔ y < 0)) ∨ (r32 x = 0 ∧ r32 y = 0)

theorem r32_huge {x : ℚ} (h : 2 ^ 250 ≤ |x|) : 2 ^ 128 ≤ |r32 x| := by
  have h1 := r32_rel x (le_trans (by norm_num) h)
  have h2 := abs_sub_abs_le_abs_sub x (r32 x)
  rw [abs_sub_comm] at h2
  have h3 : (2 : ℚ) ^ 128 ≤ 2 ^ 250 * (1 - 1 / 2 ^ 24) := by norm_num
  have h4 : (2 : ℚ) ^ 250 * (1 - 1 / 2 ^ 24) ≤ |x| * (1 - 1 / 2 ^ 24) := mul_le_mul_of_nonneg_right h (by norm_num)
  have h5 : |x| * (1 - 1 / 2 ^ 24) = |x| - |x| / 2 ^ 24 := by ring
  linarith

theorem r32_tiny {x : ℚ} (h : |x| ≤ 1 / 2 ^ 250) : r32 x = 0 := by
  have h0 : r32 (1 / 2 ^ 250 : ℚ) = 0 := by decide +kernel
  obtain ⟨h1, h2⟩ := abs_le.1 h
  have h3 := r32_mono h1
  have h4 := r32_mono h2
  rw [r32_neg] at h3
  linarith

theorem sameFloat_of {σ b B : ℚ} {n : Nat} {e e' : Int} (hσ : σ = 1 ∨ σ = -1) (hb : 2 ≤ b) (hB : 1 / 2 ^ 9750 ≤ B) (hB' : B ≤ 1) (hn : (n : ℚ) ≤ 2 ^ 9750) (h : SameExp e e') :
    SameFloat (σ * n * (b ^ e * B)) (σ * n * (b ^ e' * B)) := by
  have hB0 : (0 : ℚ) < B := lt_of_lt_of_le (by positivity) hB
  have habs : ∀ e : Int, |σ * n * (b ^ e * B)| = n * (b ^ e * B) := by
    intro e
    have h1 : 0 ≤ b ^ e * B := mul_nonneg (zpow_nonneg (by linarith) _) hB0.le
    rw [abs_mul, abs_mul, abs_of_nonneg h1, Nat.abs_cast]
    rcases hσ with rfl | rfl <;> norm_num
  rcases h with rfl | ⟨h1, h2⟩ | ⟨h1, h2⟩
  · exact .inl rfl
  · rcases Nat.eq_zero_or_pos n with rfl | hn0
    · left; simp
    · have hn1 : (1 : ℚ) ≤ n := by exact_mod_cast hn0
      have hbig : ∀ e : Int, 10000 ≤ e → (2 : ℚ) ^ 250 ≤ b ^ e * B := by
        intro e he
        have h3 : (b : ℚ) ^ (10000 : Int) ≤ b ^ e := zpow_le_zpow_right₀ (by linarith) he
        have h4 : (2 : ℚ) ^ 10000 ≤ b ^ (10000 : Int) := by
          rw [show (10000 : Int) = ((10000 : Nat) : Int) from rfl, zpow_natCast]
          exact pow_le_pow_left₀ (by norm_num) hb _
        calc (2 : ℚ) ^ 250 = 2 ^ 10000 * (1 / 2 ^ 9750) := by
              rw [show (10000 : Nat) = 250 + 9750 from rfl, pow_add, mul_assoc, mul_one_div_cancel (by positivity), mul_one]
          _ ≤ b ^ e * B := mul_le_mul (h4.trans h3) hB (by positivity) (zpow_nonneg (by linarith) _)
      have hpos : ∀ e : Int, 0 < (n : ℚ) * (b ^ e * B) := fun e => mul_pos (by linarith) (mul_pos (zpow_pos (by linarith) _) hB0)
      have hh : ∀ e : Int, 10000 ≤ e → (2 : ℚ) ^ 128 ≤ |r32 (σ * n * (b ^ e * B))| := by
        intro e he
        refine r32_huge ?_
        rw [habs]
        have h3 := hbig e he
        exact h3.trans (le_mul_of_one_le_left (le_trans (by positivity) h3) hn1)
      refine .inr (.inl ⟨hh e h1, hh e' h2, ?_⟩)
      have p1 := hpos e
      have p2 := hpos e'
      rcases hσ with rfl | rfl
      · rw [one_mul]
        constructor <;> intro h <;> linarith
      · rw [neg_one_mul, neg_mul, neg_mul]
        constructor <;> intro _ <;> linarith
  · have ht : ∀ e : Int, e ≤ -10000 → r32 (σ * n * (b ^ e * B)) = 0 := by
      intro e he
      refine r32_tiny ?_
      rw [habs]
      have h3 : (b : ℚ) ^ e ≤ b ^ (-10000 : Int) := zpow_le_zpow_right₀ (by linarith) he
      have h4 : (b : ℚ) ^ (-10000 : Int) ≤ 1 / 2 ^ 10000 := by
        rw [zpow_neg, show (10000 : Int) = ((10000 : Nat) : Int) from rfl, zpow_natCast, one_div]
        exact inv_anti₀ (by positivity) (pow_le_pow_left₀ (by norm_num) hb _)
      have h5 : (0 : ℚ) < b ^ e := zpow_pos (by linarith) _
      calc (n : ℚ) * (b ^ e * B) ≤ 2 ^ 9750 * (1 / 2 ^ 10000 * 1) :=
            mul_le_mul hn (mul_le_mul (h3.trans h4) hB' hB0.le (by positivity)) (by positivity) (by positivity)
        _ = 1 / 2 ^ 250 := by
            rw [mul_one, show (10000 : Nat) = 9750 + 250 from rfl, pow_add, one_div, one_div, mul_inv, ← mul_assoc, mul_inv_cancel₀ (by positivity), one_mul]
    exact .inr (.inr ⟨ht e h1, ht e' h2⟩)

theorem digitsVal_lt (s : Str) (h : ∀ c ∈ s, IsDigit c) : digitsVal s < 10 ^ s.length := by
  induction s using List.reverseRecOn with
  | nil => simp [digitsVal, digitsFrom]
  | append_singleton s c ih =>
    have h1 := ih fun d hd => h d (List.mem_append_left _ hd)
    have h2 : dval c ≤ 9 := by
      have := h c (by simp)
      rw [dval_def]
      have h3 : c.toNat ≤ 57 := this.2
      omega
    rw [digitsVal_append, List.length_append, List.length_singleton, pow_succ]
    omega

theorem hexVal_le (s : Str) : hexVal s + 3 ≤ 3 * 16 ^ s.length := by
  unfold hexVal
  induction s using List.reverseRecOn with
  | nil => simp
  | append_singleton s c ih =>
    have h2 : (digitVal c).getD 0 ≤ 35 := by
      unfold digitVal
      split
      · rename_i h
        have : c.toNat ≤ 57 := h.2
        simp only [Option.getD_some]
        omega
      · split
        · rename_i h
          have : c.toNat ≤ 122 := h.2
          simp only [Option.getD_some]
          omega
        · split
          · rename_i h
            have : c.toNat ≤ 90 := h.2
            simp only [Option.getD_some]
            omega
          · simp
    rw [List.foldl_append, List.foldl_cons, List.foldl_nil, List.length_append, List.length_singleton, pow_succ]
    omega

theorem readExponentBy_rel (s : Str) : Option.Rel SameExp (readExponentBy expVal s) (readExponentBy digitsVal s) := by
  cases s with
  | nil => exact .some (.inl rfl)
  | cons c s =>
    unfold readExponentBy
    dsimp only
    by_cases hc : c = 'e' ∨ c = 'E'
    · rw [if_pos hc, if_pos hc]
      split
      · exact .none
      · refine .some ?_
        rcases expVal_cases (readSign s).2 with h | ⟨h1, h2⟩
        · rw [h]; exact .inl rfl
        · unfold SameExp
          split <;> omega
    · rw [if_neg hc, if_neg hc]
      exact .none

theorem rel_map {α β γ δ : Type} {R : α → β → Prop} {S : γ → δ → Prop} {f : α → γ} {g : β → δ} {a : Option α} {b : Option β} (h : Option.Rel R a b) (hfg : ∀ x y, R x y → S (f x) (g y)) :
    Option.Rel S (a.map f) (b.map g) := by
  cases h with
  | none => exact .none
  | some h => exact .some (hfg _ _ h)

theorem readSign_length (s : Str) : (readSign s).2.length ≤ s.length := by
  unfold readSign
  split <;> simp

theorem readDecimalBy_rel (s : Str) (h : s.length ≤ 2400) : Option.Rel SameFloat (readDecimalBy expVal s) (readDecimalBy digitsVal s) := by
  unfold readDecimalBy
  dsimp only
  split
  · exact .none
  · refine rel_map (readExponentBy_rel _) fun e e' he => ?_
    obtain ⟨h1, h2, -⟩ := leadingDigits_spec (readSign s).2
    have hf : ∀ t : Str, (∀ c ∈ (readFraction t).1, IsDigit c) ∧ (readFraction t).1.length ≤ t.length := by
      intro t
      unfold readFraction
      split
      · rename_i t
        obtain ⟨g1, g2, -⟩ := leadingDigits_spec t
        refine ⟨g2, ?_⟩
        have := congrArg List.length g1
        rw [List.length_append] at this
        rw [List.length_cons]
        omega
      · simp
    obtain ⟨h3, h4⟩ := hf (leadingDigits (readSign s).2).2
    have hl : (leadingDigits (readSign s).2).1.length + (readFraction (leadingDigits (readSign s).2).2).1.length ≤ 2400 := by
      have := congrArg List.length h1
      rw [List.length_append] at this
      have := readSign_length s
      omega
    generalize (leadingDigits (readSign s).2).1 = a at *
    generalize (readFraction (leadingDigits (readSign s).2).2).1 = b at *
    have hv := digitsVal_lt (a ++ b) fun c hc => (List.mem_append.1 hc).elim (h2 c) (h3 c)
    rw [List.length_append] at hv
    have h16 : ∀ k : Nat, k ≤ 2400 → (10 : ℚ) ^ k ≤ 2 ^ 9750 := by
      intro k hk
      calc (10 : ℚ) ^ k ≤ (2 ^ 4) ^ k := pow_le_pow_left₀ (by norm_num) (by norm_num) _
        _ = 2 ^ (4 * k) := (pow_mul _ _ _).symm
        _ ≤ 2 ^ 9750 := pow_le_pow_right₀ (by norm_num) (by omega)
    have hsplit : ∀ e : Int, (10 : ℚ) ^ (e - (b.length : Int)) = 10 ^ e * (1 / 10 ^ b.length) := by
      intro e
      rw [zpow_sub₀ (by norm_num), zpow_natCast]
      ring
    rw [hsplit, hsplit]
    refine sameFloat_of ?_ (by norm_num) (one_div_le_one_div_of_le (by positivity) (h16 _ (by omega))) ?_ ?_ he
    · split
      · exact .inr rfl
      · exact .inl rfl
    · rw [div_le_one (by positivity)]
      exact one_le_pow₀ (by norm_num)
    · refine le_trans ?_ (h16 _ hl)
      exact_mod_cast hv.le

theorem readHexExponentBy_rel (s : Str) : Option.Rel SameExp (readHexExponentBy expVal s) (readHexExponentBy digitsVal s) := by
  cases s with
  | nil => exact .none
  | cons c s =>
    unfold readHexExponentBy
    dsimp only
    by_cases hc : c = 'p' ∨ c = 'P'
    · rw [if_pos hc, if_pos hc]
      exact readExponentBy_rel _
    · rw [if_neg hc, if_neg hc]
      exact .none

theorem leadingHex_length (s : Str) : (leadingHex s).1.length + (leadingHex s).2.length = s.length := by
  unfold leadingHex
  rw [List.span_eq_takeWhile_dropWhile, ← List.length_append, List.takeWhile_append_dropWhile]

theorem readHexBy_rel {σ : ℚ} (hσ : σ = 1 ∨ σ = -1) (s : Str) (h : s.length ≤ 2399) : Option.Rel SameFloat ((readHexBy expVal s).map fun x => σ * x) ((readHexBy digitsVal s).map fun x => σ * x) := by
  unfold readHexBy
  dsimp only
  split
  · exact .none
  · rw [Option.map_map, Option.map_map]
    refine rel_map (readHexExponentBy_rel _) fun e e' he => ?_
    have hf : ∀ t : Str, (readHexFraction t).1.length ≤ t.length := by
      intro t
      unfold readHexFraction
      split
      · rename_i t
        have := leadingHex_length t
        rw [List.length_cons]
        omega
      · simp
    have h4 := hf (leadingHex s).2
    have hl : (leadingHex s).1.length + (readHexFraction (leadingHex s).2).1.length ≤ 2399 := by
      have := leadingHex_length s
      omega
    generalize (leadingHex s).1 = a at *
    generalize (readHexFraction (leadingHex s).2).1 = b at *
    have hv := hexVal_le (a ++ b)
    rw [List.length_append] at hv
    have hsplit : ∀ e : Int, (2 : ℚ) ^ (e - 4 * (b.length : Int)) = 2 ^ e * (1 / 2 ^ (4 * b.length)) := by
      intro e
      rw [zpow_sub₀ (by norm_num), show (4 * (b.length : Int)) = ((4 * b.length : Nat) : Int) by push_cast; rfl, zpow_natCast]
      ring
    simp only [Function.comp_apply]
    rw [hsplit, hsplit, ← mul_assoc σ, ← mul_assoc σ]
    refine sameFloat_of hσ le_rfl (one_div_le_one_div_of_le (by positivity) (pow_le_pow_right₀ (by norm_num) (show 4 * b.length ≤ 9750 by omega))) ?_ ?_ he
    · rw [div_le_one (by positivity)]
      exact one_le_pow₀ (by norm_num)
    · have h5 : hexVal (a ++ b) ≤ 16 * 16 ^ (a.length + b.length) := by omega
      calc ((hexVal (a ++ b) : Nat) : ℚ) ≤ ((16 * 16 ^ (a.length + b.length) : Nat) : ℚ) := by exact_mod_cast h5
        _ = 2 ^ (4 * (a.length + b.length + 1)) := by
            push_cast
            rw [pow_mul, pow_succ]
            norm_num
            ring
        _ ≤ 2 ^ 9750 := pow_le_pow_right₀ (by norm_num) (by omega)

theorem readFloatBy_rel (s : Str) (h : s.length ≤ 2400) : Option.Rel SameFloat (readFloatBy expVal s) (readFloatBy digitsVal s) := by
  have hfil : (s.filter (· ≠ '_')).length ≤ 2400 := (List.length_filter_le _ _).trans h
  have hs := readSign_length s
  unfold readFloatBy
  dsimp only
  split
  · exact .none
  · split
    · rename_i c d t hst
      split
      · refine readHexBy_rel ?_ _ ?_
        · split
          · exact .inr rfl
          · exact .inl rfl
        · have := List.length_filter_le (fun x => decide (x ≠ '_')) (d :: t)
          rw [hst] at hs
          simp only [List.length_cons] at hs this ⊢
          omega
      · exact readDecimalBy_rel _ hfil
    · exact readDecimalBy_rel _ hfil

/-- **C151** The limit for exponents in Go has no effect for texts of at most 2400 characters. -/
theorem C151_limit (s : Str) (h : s.length ≤ 2400) : millimeterSetLimit s = millimeterSetFull s := by
  unfold millimeterSetLimit millimeterSetFull parseFloat32Limit parseFloat32Full
  cases special s with
  | some p => rfl
  | none =>
    dsimp only
    rw [← readFloatBy_digitsVal]
    have := readFloatBy_rel s h
    cases h1 : readFloatBy expVal s with
    | none =>
      rw [h1] at this
      cases h2 : readFloatBy digitsVal s with
      | none => rfl
      | some y => rw [h2] at this; cases this
    | some x =>
      rw [h1] at this
      cases h2 : readFloatBy digitsVal s with
      | none => rw [h2] at this; cases this
      | some y =>
        rw [h2] at this
        cases this with
        | some this =>
          rcases this with rfl | ⟨g1, g2, g3⟩ | ⟨g1, g2⟩
          · rfl
          · dsimp only
            rw [if_neg (not_lt.2 g1), if_neg (not_lt.2 g2)]
            simp only [g3]
          · dsimp only
            simp only [g1, g2]
            norm_num

/-- Non-vacuity: an exponent of six digits. -/
example : millimeterSetLimit "-2.5e100000".toList = millimeterSetFull "-2.5e100000".toList ∧ expVal "100000".toList = 10000 :=
  ⟨C151_limit _ (by decide), by decide +kernel⟩

end Verif
