import Verif.Model.Micrometer
import Verif.Lemmas.Float
import Verif.Lemmas.Sqrt
import Verif.Spec.Length

/-! # C01 (unit conversion), C02 (length tests) and the length function -/
namespace Verif
open Verif.Go Verif.Model Verif.Spec

/-- The float32 millimetre value of `m` is accurate to a relative error slightly above `2^-24`. -/
theorem toMillimeter_err (m : Int) (hm : |m| ≤ 2 ^ 53) :
    |toMillimeter m - m / 1000| ≤ |(m : ℚ)| / 1000 * (1 / 2 ^ 24 + 1 / 2 ^ 52) := by
  rcases eq_or_ne m 0 with h0 | h0
  · subst h0; simp [toMillimeter]
  have h1 : (1 : ℚ) ≤ |(m : ℚ)| := by
    have : (1 : Int) ≤ |m| := Int.one_le_abs h0
    exact_mod_cast this
  unfold toMillimeter
  rw [r64_intCast hm]
  have ha : |(m : ℚ) / 1000| = |(m : ℚ)| / 1000 := by rw [abs_div]; norm_num
  have e1 := r64_rel' (x := (m : ℚ) / 1000) (e := 1 / 1000) (by norm_num) (by rw [ha]; linarith)
  rw [ha] at e1
  set y := r64 ((m : ℚ) / 1000)
  have hy : |y| ≤ |(m : ℚ)| / 1000 * (1 + 1 / 2 ^ 53) := by
    have := abs_sub_abs_le_abs_sub y ((m : ℚ) / 1000)
    rw [ha] at this; linarith
  have hy' : |(m : ℚ)| / 1000 * (1 - 1 / 2 ^ 53) ≤ |y| := by
    have := abs_sub_abs_le_abs_sub ((m : ℚ) / 1000) y
    rw [ha, abs_sub_comm] at this; linarith
  have e2 := r32_rel' (x := y) (e := 1 / 2000) (by norm_num) (by
    refine le_trans ?_ hy'; norm_num; linarith)
  have := abs_add_le (r32 y - y) (y - (m : ℚ) / 1000)
  rw [show r32 y - y + (y - (m : ℚ) / 1000) = r32 y - (m : ℚ) / 1000 by ring] at this
  linarith

/-- **C01** Converting micrometres to millimetres (float32) and back is the identity up to about 4.19 m. -/
theorem C01_unit_round_trip (m : Int) (hm : |m| < 2 ^ 22) : toMicrometer (toMillimeter m) = m := by
  rcases eq_or_ne m 0 with h0 | h0
  · subst h0; simp [toMillimeter, toMicrometer]
  have hmq : |(m : ℚ)| ≤ 2 ^ 22 - 1 := by
    have : |m| ≤ 2 ^ 22 - 1 := by omega
    have : ((|m| : Int) : ℚ) ≤ ((2 ^ 22 - 1 : Int) : ℚ) := by exact_mod_cast this
    push_cast at this; linarith
  have h1 : (1 : ℚ) ≤ |(m : ℚ)| := by
    have : (1 : Int) ≤ |m| := Int.one_le_abs h0
    exact_mod_cast this
  have e1 := toMillimeter_err m (by omega)
  set a := toMillimeter m
  unfold toMicrometer
  apply roundEven_eq_of_lt
  have e1' : |a * 1000 - m| ≤ |(m : ℚ)| * (1 / 2 ^ 24 + 1 / 2 ^ 52) := by
    rw [show a * 1000 - (m : ℚ) = 1000 * (a - m / 1000) by ring, abs_mul, abs_of_pos (by norm_num : (0 : ℚ) < 1000)]
    linarith
  have hb : |a * 1000| ≤ |(m : ℚ)| * (1 + 1 / 2 ^ 24 + 1 / 2 ^ 52) := by
    have := abs_sub_abs_le_abs_sub (a * 1000) (m : ℚ)
    linarith
  have hb' : |(m : ℚ)| * (1 - 1 / 2 ^ 24 - 1 / 2 ^ 52) ≤ |a * 1000| := by
    have := abs_sub_abs_le_abs_sub (m : ℚ) (a * 1000)
    rw [abs_sub_comm] at this; linarith
  have e2 := r32_rel' (x := a * 1000) (e := 1 / 2) (by norm_num) (by
    refine le_trans ?_ hb'; norm_num; linarith)
  have := abs_add_le (r32 (a * 1000) - a * 1000) (a * 1000 - m)
  rw [show r32 (a * 1000) - a * 1000 + (a * 1000 - m) = r32 (a * 1000) - m by ring] at this
  norm_num at *
  linarith

example : |(1234567 : Int)| < 2 ^ 22 := by norm_num

/-- Larger lengths are really lost: 16777217 µm does not survive the conversion. -/
theorem C01_limit : toMicrometer (toMillimeter 16777217) ≠ 16777217 := by
  decide +kernel

/-! ## C02 -/

/-- **C02** `MicroPoint.ShorterThanOrEqual` is the Euclidean length test, for every limit (it is false for negative limits). -/
theorem C02_point (p : Pt) (l : Int) : p.shorterThanOrEqual l = true ↔ euclid2 p.x p.y ≤ l := by
  have key : 0 ≤ l → (euclid2 p.x p.y ≤ l ↔ p.x * p.x + p.y * p.y ≤ l * l) := by
    intro hl
    unfold euclid2
    rw [Real.sqrt_le_left (by exact_mod_cast hl)]
    constructor
    · intro h; have : ((p.x * p.x + p.y * p.y : Int) : ℝ) ≤ ((l * l : Int) : ℝ) := by push_cast; nlinarith
      exact_mod_cast this
    · intro h; have : ((p.x * p.x + p.y * p.y : Int) : ℝ) ≤ ((l * l : Int) : ℝ) := by exact_mod_cast h
      push_cast at this; nlinarith
  by_cases hl : 0 ≤ l
  · rw [key hl]
    unfold Pt.shorterThanOrEqual Pt.size2
    split
    · rename_i h
      simp only [Bool.false_eq_true, false_iff, not_le]
      rcases h with h | h | h | h <;> nlinarith [mul_self_nonneg p.x, mul_self_nonneg p.y]
    · simp
  · have : p.shorterThanOrEqual l = false := by
      unfold Pt.shorterThanOrEqual
      rw [if_pos]
      by_cases h : p.x > l
      · exact Or.inl h
      · exact Or.inr (Or.inl (by linarith))
    rw [this]
    simp only [Bool.false_eq_true, false_iff, not_le]
    have h1 : (l : ℝ) < 0 := by exact_mod_cast not_le.1 hl
    exact h1.trans_le (Real.sqrt_nonneg _)

/-- **C02** `MicroVec3.ShorterThanOrEqual` is the Euclidean length test for non-negative limits ... -/
theorem C02_vec3 (v : Vec3) (l : Int) (hl : 0 ≤ l) : v.shorterThanOrEqual l = true ↔ euclid3 v.x v.y v.z ≤ l := by
  unfold euclid3 Vec3.shorterThanOrEqual Vec3.size2
  rw [Real.sqrt_le_left (by exact_mod_cast hl), decide_eq_true_eq]
  constructor
  · intro h; have : ((v.x * v.x + v.y * v.y + v.z * v.z : Int) : ℝ) ≤ ((l * l : Int) : ℝ) := by exact_mod_cast h
    push_cast at this; nlinarith
  · intro h; have : ((v.x * v.x + v.y * v.y + v.z * v.z : Int) : ℝ) ≤ ((l * l : Int) : ℝ) := by push_cast; nlinarith
    exact_mod_cast this

/-- ... but a negative limit is treated like its absolute value (unlike for points). -/
theorem C02_vec3_negative_limit (v : Vec3) (l : Int) : v.shorterThanOrEqual (-l) = v.shorterThanOrEqual l := by
  unfold Vec3.shorterThanOrEqual; rw [neg_mul_neg]

example : (0 : Int) ≤ 5 ∧ (⟨3, 4⟩ : Pt).shorterThanOrEqual 5 = true ∧ (⟨3, 4⟩ : Pt).shorterThanOrEqual 4 = false := by decide

/-! ## `Size` -/

theorem floor_r64_sqrt (n : Nat) (hn : n < 2 ^ 52) : truncZ (fsqrt64 (r64 (n : ℚ))) = Nat.sqrt n := by
  have h0 : r64 (n : ℚ) = n := by
    have := r64_intCast (n := n) (by rw [abs_of_nonneg (by positivity)]; norm_cast; omega)
    exact_mod_cast this
  rw [h0, fsqrt64_eq]
  set s := Nat.sqrt n with hs
  have hs1 : s * s ≤ n := Nat.sqrt_le n
  have hs2 : n < (s + 1) * (s + 1) := Nat.lt_succ_sqrt n
  have hsb : s < 2 ^ 26 := by
    rw [hs, Nat.sqrt_lt]; omega
  have hR1 : (s : ℝ) ≤ Real.sqrt n := by
    apply Real.le_sqrt_of_sq_le; rw [pow_two]; exact_mod_cast hs1
  have hlow : (s : ℚ) ≤ r64 (Real.sqrt ((n : ℚ) : ℝ)) := by
    have h := rnd_mono (K := ℝ) 53 (by norm_num) (-1074) hR1
    have h2 := r64_intCast (n := s) (by rw [abs_of_nonneg (by positivity)]; norm_cast; omega)
    have h3 : rnd 53 (-1074) (s : ℝ) = s := by
      have := rnd_ratCast (K := ℝ) 53 (-1074) (s : ℚ)
      push_cast at this
      rw [this]; exact_mod_cast h2
    rw [h3] at h
    simpa [r64] using h
  have hhigh : r64 (Real.sqrt ((n : ℚ) : ℝ)) < (s : ℚ) + 1 := by
    rcases Nat.eq_zero_or_pos n with hz | hpos
    · have : s = 0 := by rw [hs, hz]; rfl
      rw [hz, this]; simp [r64]
    have hRpos : (0 : ℝ) < Real.sqrt n := Real.sqrt_pos.2 (by exact_mod_cast hpos)
    have hsq : Real.sqrt n * Real.sqrt n = n := Real.mul_self_sqrt (by positivity)
    have hgap : Real.sqrt n + 1 / 2 ^ 27 ≤ (s : ℝ) + 1 := by
      by_contra hc
      have hc := not_le.1 hc
      have hn1 : (n : ℝ) ≤ (s + 1) * (s + 1) - 1 := by
        have : n + 1 ≤ (s + 1) * (s + 1) := hs2
        have : ((n + 1 : Nat) : ℝ) ≤ (((s + 1) * (s + 1) : Nat) : ℝ) := by exact_mod_cast this
        push_cast at this; linarith
      have hs27 : (s : ℝ) + 1 ≤ 2 ^ 26 := by exact_mod_cast hsb
      have h1 : (s : ℝ) + 1 - 1 / 2 ^ 27 < Real.sqrt n := by linarith
      have h2 : (0 : ℝ) ≤ (s : ℝ) + 1 - 1 / 2 ^ 27 := by
        have : (0 : ℝ) ≤ s := by positivity
        norm_num; linarith
      have h3 := mul_self_lt_mul_self h2 h1
      rw [hsq] at h3
      norm_num at *
      nlinarith
    have herr := rnd_abs_err (K := ℝ) 53 (-1074) (Real.sqrt n)
    have hlog : Int.log 2 |Real.sqrt n| < 26 := by
      rw [abs_of_pos hRpos, ← lt_log_iff hRpos]
      have hs27 : (s : ℝ) + 1 ≤ 2 ^ 26 := by exact_mod_cast hsb
      have : (2 : ℝ) ^ (26 : Int) = 2 ^ 26 := by norm_num
      rw [this]; norm_num at *; linarith
    have hu : ulpExp 53 (-1074) (Real.sqrt n) ≤ -27 := by
      unfold ulpExp; push_cast; omega
    have hz : (2 : ℝ) ^ ulpExp 53 (-1074) (Real.sqrt n) ≤ 1 / 2 ^ 27 := by
      refine (zpow_le_zpow_right₀ (by norm_num) hu).trans (le_of_eq ?_)
      norm_num
    have hfin : ((rnd 53 (-1074) (Real.sqrt n) : ℚ) : ℝ) < (s : ℝ) + 1 := by
      have := (abs_le.1 herr).2
      have hzp : (0 : ℝ) < 2 ^ ulpExp 53 (-1074) (Real.sqrt n) := zpow2_pos _
      linarith
    have : rnd 53 (-1074) (Real.sqrt n) < ((s : ℚ) + 1) := by exact_mod_cast hfin
    simpa [r64] using this
  unfold truncZ
  rw [if_pos (le_trans (by positivity) hlow), Int.floor_eq_iff]
  exact ⟨by exact_mod_cast hlow, by exact_mod_cast hhigh⟩

/-- **C73** `MicroPoint.Size` is exactly the Euclidean length rounded down, for lengths below `2^26` µm (67 m). -/
theorem C73_point_size (p : Pt) (h : p.size2 < 2 ^ 52) : p.size = ⌊euclid2 p.x p.y⌋ := by
  have h0 : 0 ≤ p.size2 := by unfold Pt.size2; nlinarith [mul_self_nonneg p.x, mul_self_nonneg p.y]
  obtain ⟨n, hn⟩ := Int.eq_ofNat_of_zero_le h0
  unfold Pt.size
  rw [hn]
  have := floor_r64_sqrt n (by rw [hn] at h; exact_mod_cast h)
  push_cast
  rw [this]
  have he : euclid2 p.x p.y = Real.sqrt n := by
    unfold euclid2; congr 1
    have : ((p.size2 : Int) : ℝ) = ((n : Int) : ℝ) := by rw [hn]
    unfold Pt.size2 at this; push_cast at this; rw [← this]; ring
  rw [he, Real.floor_real_sqrt_eq_nat_sqrt]

/-- **C73** for vectors in space. -/
theorem C73_vec3_size (v : Vec3) (h : v.size2 < 2 ^ 52) : v.size = ⌊euclid3 v.x v.y v.z⌋ := by
  have h0 : 0 ≤ v.size2 := by
    unfold Vec3.size2; nlinarith [mul_self_nonneg v.x, mul_self_nonneg v.y, mul_self_nonneg v.z]
  obtain ⟨n, hn⟩ := Int.eq_ofNat_of_zero_le h0
  unfold Vec3.size
  rw [hn]
  have := floor_r64_sqrt n (by rw [hn] at h; exact_mod_cast h)
  push_cast
  rw [this]
  have he : euclid3 v.x v.y v.z = Real.sqrt n := by
    unfold euclid3; congr 1
    have : ((v.size2 : Int) : ℝ) = ((n : Int) : ℝ) := by rw [hn]
    unfold Vec3.size2 at this; push_cast at this; rw [← this]; ring
  rw [he, Real.floor_real_sqrt_eq_nat_sqrt]

example : (⟨3000000, -4000000⟩ : Pt).size2 < 2 ^ 52 := by decide

/-- Above that limit `Size` can be one micrometre too large, because the root is rounded up to an integer. -/
theorem C73_limit : (⟨2 ^ 26, 2 ^ 13, 2 ^ 13⟩ : Vec3).size = 2 ^ 26 + 1 ∧
    (⟨2 ^ 26, 2 ^ 13, 2 ^ 13⟩ : Vec3).size2 < (2 ^ 26 + 1) * (2 ^ 26 + 1) := by
  constructor <;> decide +kernel


end Verif
