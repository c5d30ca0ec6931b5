import Verif.Go.Float
import Mathlib.Analysis.Real.Sqrt

/-! # The modelled square root is the IEEE rounding of the real square root -/
namespace Verif.Go

variable {K : Type} [Field K] [LinearOrder K] [IsStrictOrderedRing K] [FloorRing K]
variable {K' : Type} [Field K'] [LinearOrder K'] [IsStrictOrderedRing K'] [FloorRing K']

omit [FloorRing K] in
theorem int_le_of_between {z : K} {s N : Int} (h1 : (s : K) < z) (h2 : z < s + 1) : (N : K) ≤ z ↔ N ≤ s := by
  constructor
  · intro h
    have : (N : K) < ((s + 1 : Int) : K) := by push_cast; exact h.trans_lt h2
    have : N < s + 1 := by exact_mod_cast this
    omega
  · intro h
    have : (N : K) ≤ (s : K) := by exact_mod_cast h
    exact this.trans h1.le

omit [FloorRing K] in
theorem zpow_le_between {y : K} {s e : Int} {k : Nat} (hs : 1 ≤ s) (h1 : (s : K) < y * 2 ^ k) (h2 : y * 2 ^ k < s + 1) :
    (2 : K) ^ e ≤ y ↔ (e + k < 0 ∨ (2 : Int) ^ (e + k).toNat ≤ s) := by
  have hk : (0 : K) < 2 ^ k := by positivity
  rw [← mul_le_mul_iff_left₀ hk, ← zpow_natCast (2 : K) k, ← zpow_add₀ (by norm_num)]
  rw [← zpow_natCast (2 : K) k] at h1 h2
  by_cases h : e + k < 0
  · simp only [h, true_or, iff_true]
    have : (2 : K) ^ (e + (k : Int)) ≤ 1 := zpow_le_one_of_nonpos₀ (by norm_num) h.le
    have h3 : (1 : K) ≤ s := by exact_mod_cast hs
    linarith
  · simp only [h, false_or]
    obtain ⟨n, hn⟩ : ∃ n : Nat, e + k = n := ⟨(e + k).toNat, by omega⟩
    rw [hn, zpow_natCast, ← int_le_of_between h1 h2]
    simp

theorem log_between {y : K} {y' : K'} {s : Int} {k : Nat} (hs : 1 ≤ s)
    (h1 : (s : K) < y * 2 ^ k) (h2 : y * 2 ^ k < s + 1)
    (h1' : (s : K') < y' * 2 ^ k) (h2' : y' * 2 ^ k < s + 1) (hy : 0 < y) (hy' : 0 < y') :
    Int.log 2 y = Int.log 2 y' := by
  apply le_antisymm
  · rw [← log_le_iff hy', zpow_le_between hs h1' h2', ← zpow_le_between hs h1 h2, log_le_iff hy]
  · rw [← log_le_iff hy, zpow_le_between hs h1 h2, ← zpow_le_between hs h1' h2', log_le_iff hy']

theorem floor_between {z : K} {s : Int} {j : Nat} (h1 : (s : K) < z) (h2 : z < s + 1) :
    ⌊z / 2 ^ j⌋ = s / 2 ^ j := by
  have hj : (0 : K) < 2 ^ j := by positivity
  have hjz : (0 : Int) < 2 ^ j := by positivity
  have e1 := Int.mul_ediv_add_emod s (2 ^ j)
  have e2 := Int.emod_nonneg s hjz.ne'
  have e3 := Int.emod_lt_of_pos s hjz
  rw [Int.floor_eq_iff]
  constructor
  · rw [le_div_iff₀ hj]
    have h3 : s / 2 ^ j * 2 ^ j ≤ s := by linarith
    have : ((s / 2 ^ j * 2 ^ j : Int) : K) ≤ (s : K) := Int.cast_le.2 h3
    push_cast at this ⊢
    linarith
  · rw [div_lt_iff₀ hj]
    have : (s : Int) + 1 ≤ (s / 2 ^ j + 1) * 2 ^ j := by linarith
    have : ((s + 1 : Int) : K) ≤ (((s / 2 ^ j + 1) * 2 ^ j : Int) : K) := by exact_mod_cast this
    push_cast at this
    linarith

omit [FloorRing K] in
theorem frac_lt_between {z : K} {s f : Int} {j : Nat} (h1 : (s : K) < z) (h2 : z < s + 1) :
    (z / 2 ^ (j + 1) - f < 1 / 2 ↔ ¬ (2 * f + 1) * 2 ^ j ≤ s) ∧ (1 / 2 < z / 2 ^ (j + 1) - f ↔ (2 * f + 1) * 2 ^ j ≤ s) := by
  have hj : (0 : K) < 2 ^ j := by positivity
  have hj' : (0 : K) < 2 ^ (j + 1) := by positivity
  have hb := int_le_of_between (N := (2 * f + 1) * 2 ^ j) h1 h2
  have hne : z ≠ (((2 * f + 1) * 2 ^ j : Int) : K) := by
    intro h
    rw [h] at h1 h2
    have a : s < (2 * f + 1) * 2 ^ j := by exact_mod_cast h1
    have b : (2 * f + 1) * 2 ^ j < s + 1 := by exact_mod_cast h2
    omega
  rw [← hb]
  push_cast at hne ⊢
  have key : z / 2 ^ (j + 1) - f = (z - 2 * f * 2 ^ j) / 2 ^ (j + 1) := by
    field_simp; ring
  rw [key, div_lt_iff₀ hj', lt_div_iff₀ hj', pow_succ]
  constructor
  · constructor
    · intro h h'; linarith
    · intro h
      have h := not_le.1 h
      linarith
  · constructor
    · intro h; linarith
    · intro h
      have := lt_of_le_of_ne h (Ne.symm hne)
      linarith

/-- Two numbers strictly between the same two neighbouring multiples of `2^-k` have the same rounding,
if `2^-k` is smaller than a unit in the last place. -/
theorem rnd_between {y : K} {y' : K'} (p : Nat) (qmin : Int) {s : Int} {k : Nat} (hs : 1 ≤ s)
    (h1 : (s : K) < y * 2 ^ k) (h2 : y * 2 ^ k < s + 1)
    (h1' : (s : K') < y' * 2 ^ k) (h2' : y' * 2 ^ k < s + 1)
    (hu : 1 ≤ ulpExp p qmin y + k) : rnd p qmin y = rnd p qmin y' := by
  have hk : (0 : K) < 2 ^ k := by positivity
  have hk' : (0 : K') < 2 ^ k := by positivity
  have hsK : (1 : K) ≤ s := by exact_mod_cast hs
  have hsK' : (1 : K') ≤ s := by exact_mod_cast hs
  have hy : 0 < y := by
    by_contra h
    have := mul_nonpos_of_nonpos_of_nonneg (not_lt.1 h) hk.le
    linarith
  have hy' : 0 < y' := by
    by_contra h
    have := mul_nonpos_of_nonpos_of_nonneg (not_lt.1 h) hk'.le
    linarith
  have hue : ulpExp p qmin y = ulpExp p qmin y' := by
    unfold ulpExp; rw [abs_of_pos hy, abs_of_pos hy', log_between hs h1 h2 h1' h2' hy hy']
  unfold rnd
  rw [← hue]
  congr 2
  obtain ⟨j, hj⟩ : ∃ j : Nat, ulpExp p qmin y + k = ((j + 1 : Nat) : Int) :=
    ⟨(ulpExp p qmin y + k - 1).toNat, by omega⟩
  have hz : y / 2 ^ ulpExp p qmin y = (y * 2 ^ k) / 2 ^ (j + 1) := by
    rw [← zpow_natCast _ (j + 1), ← hj, zpow_add₀ (by norm_num), zpow_natCast]; field_simp
  have hz' : y' / 2 ^ ulpExp p qmin y = (y' * 2 ^ k) / 2 ^ (j + 1) := by
    rw [← zpow_natCast _ (j + 1), ← hj, zpow_add₀ (by norm_num), zpow_natCast]; field_simp
  rw [hz, hz']
  unfold roundEven
  rw [floor_between h1 h2, floor_between h1' h2']
  simp only [(frac_lt_between h1 h2).1, (frac_lt_between h1 h2).2,
    (frac_lt_between h1' h2').1, (frac_lt_between h1' h2').2]

/-- The modelled `math.Sqrt` is the IEEE rounding of the real square root. -/
theorem fsqrt64_eq (x : ℚ) : fsqrt64 x = r64 (Real.sqrt (x : ℝ)) := by
  unfold fsqrt64
  split
  · rename_i h
    rw [Real.sqrt_eq_zero_of_nonpos (by exact_mod_cast h)]; simp [r64]
  rename_i hx
  have hx : 0 < x := not_le.1 hx
  have hxR : (0 : ℝ) < x := by exact_mod_cast hx
  simp only []
  set k : Nat := 57 + Nat.log 2 x.den with hk
  set n : ℚ := x * 4 ^ k with hn
  have hn0 : 0 < n := by positivity
  have hfl : (0 : Int) ≤ ⌊n⌋ := Int.floor_nonneg.2 hn0.le
  set N : Nat := ⌊n⌋.toNat with hN
  have hNc : ((N : Int)) = ⌊n⌋ := Int.toNat_of_nonneg hfl
  set s : Nat := Nat.sqrt N with hs
  have hNle : (N : ℚ) ≤ n := by
    have := Int.floor_le n; rw [← hNc] at this; exact_mod_cast this
  have hNlt : n < N + 1 := by
    have := Int.lt_floor_add_one n; rw [← hNc] at this; exact_mod_cast this
  have hs1 : s * s ≤ N := Nat.sqrt_le N
  have hs2 : N < (s + 1) * (s + 1) := Nat.lt_succ_sqrt N
  have hsn1 : (s * s : ℚ) ≤ n := le_trans (by exact_mod_cast hs1) hNle
  have hsn2 : n < (s + 1) * (s + 1) := by
    have : (N : ℚ) + 1 ≤ (s + 1) * (s + 1) := by exact_mod_cast hs2
    linarith
  -- root of n
  have hroot : Real.sqrt (x : ℝ) * 2 ^ k = Real.sqrt (n : ℝ) := by
    rw [hn]; push_cast
    rw [Real.sqrt_mul hxR.le, show (4 : ℝ) ^ k = (2 ^ k) ^ 2 by rw [← pow_mul, mul_comm, pow_mul]; norm_num,
      Real.sqrt_sq (by positivity)]
  have hk2 : (0 : ℝ) < 2 ^ k := by positivity
  by_cases he : (s * s : ℚ) = n
  · rw [if_pos he]
    have : Real.sqrt (x : ℝ) = (((s : ℚ) / 2 ^ k : ℚ) : ℝ) := by
      have h1 : Real.sqrt (n : ℝ) = s := by
        rw [← he]; push_cast; exact Real.sqrt_mul_self (by positivity)
      rw [h1] at hroot
      push_cast
      rw [eq_div_iff hk2.ne']; exact hroot
    rw [this]; unfold r64; rw [rnd_ratCast]
  · rw [if_neg he]
    have hlt : (s * s : ℚ) < n := lt_of_le_of_ne hsn1 he
    have hR1 : ((s : Int) : ℝ) < Real.sqrt (x : ℝ) * 2 ^ k := by
      rw [hroot]
      apply Real.lt_sqrt_of_sq_lt
      have : ((s * s : ℚ) : ℝ) < (n : ℝ) := by exact_mod_cast hlt
      push_cast at this ⊢
      nlinarith
    have hR2 : Real.sqrt (x : ℝ) * 2 ^ k < ((s : Int) : ℝ) + 1 := by
      rw [hroot, Real.sqrt_lt' (by positivity)]
      have : (n : ℝ) < (((s + 1) * (s + 1) : ℚ) : ℝ) := by exact_mod_cast hsn2
      push_cast at this ⊢
      nlinarith
    -- size of s
    have hden : x.den < 2 ^ (Nat.log 2 x.den + 1) := Nat.lt_pow_succ_log_self (by norm_num) _
    have hxd : (1 : ℚ) / x.den ≤ x := by
      have h1 : (1 : ℚ) ≤ x.num := by
        have : 0 < x.num := Rat.num_pos.2 hx
        exact_mod_cast this
      have h2 : (0 : ℚ) < x.den := by exact_mod_cast x.den_pos
      conv_rhs => rw [← Rat.num_div_den x]
      gcongr
    have hbig : ((2 : ℚ) ^ 56) * 2 ^ 56 ≤ n := by
      have h2 : (0 : ℚ) < x.den := by exact_mod_cast x.den_pos
      have h3 : (x.den : ℚ) ≤ 2 ^ (Nat.log 2 x.den + 1) := by exact_mod_cast hden.le
      have h4 : (1 : ℚ) / 2 ^ (Nat.log 2 x.den + 1) ≤ x := by
        refine le_trans ?_ hxd
        exact one_div_le_one_div_of_le h2 h3
      rw [hn, hk]
      set l := Nat.log 2 x.den
      have hl : (0 : ℚ) < 2 ^ (l + 1) := by positivity
      rw [div_le_iff₀ hl] at h4
      have h5 : (4 : ℚ) ^ (57 + l) = 4 ^ 56 * 2 ^ (l + 1) * (2 ^ (l + 1)) := by
        rw [show (4 : ℚ) = 2 ^ 2 by norm_num, ← pow_mul, ← pow_mul, ← pow_add, ← pow_add]; congr 1; ring
      have h6 : (1 : ℚ) ≤ 2 ^ (l + 1) := one_le_pow₀ (by norm_num)
      rw [h5]
      have : (2 : ℚ) ^ 56 * 2 ^ 56 = 4 ^ 56 := by norm_num
      rw [this]
      calc (4 : ℚ) ^ 56 = 4 ^ 56 * 1 * 1 := by ring
        _ ≤ 4 ^ 56 * (x * 2 ^ (l + 1)) * 2 ^ (l + 1) := by gcongr
        _ = _ := by ring
    have hsbig : 2 ^ 56 ≤ s := by
      by_contra h
      have h := not_le.1 h
      have h7 : (s : ℚ) + 1 ≤ 2 ^ 56 := by exact_mod_cast h
      have h8 : ((s : ℚ) + 1) * (s + 1) ≤ 2 ^ 56 * 2 ^ 56 := by gcongr
      linarith
    have hq1 : ((s : Int) : ℚ) < ((s : ℚ) + 1 / 2) / 2 ^ k * 2 ^ k := by
      rw [div_mul_cancel₀ _ (by positivity)]; push_cast; linarith
    have hq2 : ((s : ℚ) + 1 / 2) / 2 ^ k * 2 ^ k < ((s : Int) : ℚ) + 1 := by
      rw [div_mul_cancel₀ _ (by positivity)]; push_cast; linarith
    refine rnd_between 53 (-1074) (s := (s : Int)) (k := k) ?_ hq1 hq2 hR1 hR2 ?_
    · have : (1 : Nat) ≤ s := le_trans (by norm_num) hsbig
      exact_mod_cast this
    · have hpos : (0 : ℚ) < ((s : ℚ) + 1 / 2) / 2 ^ k := by positivity
      have : (56 : Int) - k ≤ Int.log 2 (((s : ℚ) + 1 / 2) / 2 ^ k) := by
        rw [← log_le_iff hpos, zpow_sub₀ (by norm_num), zpow_natCast]
        apply div_le_div_of_nonneg_right _ (by positivity)
        have : ((2 : ℚ) ^ 56) ≤ s := by exact_mod_cast hsbig
        have h9 : (2 : ℚ) ^ (56 : Int) = 2 ^ 56 := by norm_num
        rw [h9]; linarith
      unfold ulpExp
      rw [abs_of_pos hpos]
      have := le_max_left (Int.log 2 (((s : ℚ) + 1 / 2) / 2 ^ k) - (((53 : Nat) : Int) - 1)) (-1074)
      push_cast at this ⊢
      omega

end Verif.Go
