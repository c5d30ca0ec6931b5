import Verif.Spec.Calls
import Verif.Props.Builder
import Verif.Spec.Filament
import Verif.Props.Units
import Mathlib.Analysis.Real.Pi.Bounds

/-! # The extruded volume (C28) -/
namespace Verif
open Go Model Spec

/-- Both numbers are not negative and differ at most by a factor of `(1 + 2^-23)^k`. -/
def Near (k : Nat) (x y : ℝ) : Prop := 0 ≤ x ∧ 0 ≤ y ∧ x ≤ y * (1 + 1 / 2 ^ 23) ^ k ∧ y ≤ x * (1 + 1 / 2 ^ 23) ^ k

theorem Near.mul {j k : Nat} {a b c d : ℝ} (h1 : Near j a b) (h2 : Near k c d) : Near (j + k) (a * c) (b * d) := by
  obtain ⟨p1, p2, p3, p4⟩ := h1
  obtain ⟨q1, q2, q3, q4⟩ := h2
  refine ⟨mul_nonneg p1 q1, mul_nonneg p2 q2, ?_, ?_⟩
  · have := mul_le_mul p3 q3 q1 (p1.trans p3)
    calc _ ≤ _ := this
      _ = _ := by rw [pow_add]; ring
  · have := mul_le_mul p4 q4 q2 (p2.trans p4)
    calc _ ≤ _ := this
      _ = _ := by rw [pow_add]; ring

theorem Near.inv {k : Nat} {a b : ℝ} (h : Near k a b) (ha : 0 < a) (hb : 0 < b) : Near k a⁻¹ b⁻¹ := by
  obtain ⟨_, _, p3, p4⟩ := h
  refine ⟨by positivity, by positivity, ?_, ?_⟩
  · rw [inv_eq_one_div, inv_eq_one_div, div_mul_eq_mul_div, one_mul, div_le_div_iff₀ ha hb]; linarith
  · rw [inv_eq_one_div, inv_eq_one_div, div_mul_eq_mul_div, one_mul, div_le_div_iff₀ hb ha]; linarith

theorem Near.div {j k : Nat} {a b c d : ℝ} (h1 : Near j a b) (h2 : Near k c d) (hc : 0 < c) (hd : 0 < d) : Near (j + k) (a / c) (b / d) := by
  rw [div_eq_mul_inv, div_eq_mul_inv]; exact h1.mul (h2.inv hc hd)

theorem Near.add {k : Nat} {a b c d : ℝ} (h1 : Near k a b) (h2 : Near k c d) : Near k (a + c) (b + d) := by
  obtain ⟨p1, p2, p3, p4⟩ := h1
  obtain ⟨q1, q2, q3, q4⟩ := h2
  exact ⟨by linarith, by linarith, by linarith, by linarith⟩

theorem Near.refl {a : ℝ} (h : 0 ≤ a) : Near 0 a a := ⟨h, h, by simp, by simp⟩

theorem one_le_pow_c (k : Nat) : (1 : ℝ) ≤ (1 + 1 / 2 ^ 23) ^ k := one_le_pow₀ (by norm_num)

theorem Near.mono {j k : Nat} {a b : ℝ} (h : Near j a b) (hjk : j ≤ k) : Near k a b := by
  obtain ⟨p1, p2, p3, p4⟩ := h
  have := pow_le_pow_right₀ (a := (1 + 1 / 2 ^ 23 : ℝ)) (by norm_num) hjk
  exact ⟨p1, p2, p3.trans (mul_le_mul_of_nonneg_left this p2), p4.trans (mul_le_mul_of_nonneg_left this p1)⟩

theorem Near.trans {j k : Nat} {a b c : ℝ} (h1 : Near j a b) (h2 : Near k b c) : Near (k + j) a c := by
  obtain ⟨p1, p2, p3, p4⟩ := h1
  obtain ⟨q1, q2, q3, q4⟩ := h2
  refine ⟨p1, q2, ?_, ?_⟩
  · calc a ≤ _ := p3
      _ ≤ _ := mul_le_mul_of_nonneg_right q3 (by positivity)
      _ = _ := by rw [pow_add]; ring
  · calc c ≤ _ := q4
      _ ≤ _ := mul_le_mul_of_nonneg_right p4 (by positivity)
      _ = _ := by rw [pow_add]; ring

theorem Near.sqrt {k : Nat} {a b : ℝ} (h : Near (2 * k) a b) : Near k (Real.sqrt a) (Real.sqrt b) := by
  obtain ⟨p1, p2, p3, p4⟩ := h
  have hs : ∀ x : ℝ, Real.sqrt (x * (1 + 1 / 2 ^ 23) ^ (2 * k)) = Real.sqrt x * (1 + 1 / 2 ^ 23) ^ k := by
    intro x
    rw [Real.sqrt_mul' _ (by positivity), mul_comm 2 k, pow_mul, Real.sqrt_sq (by positivity)]
  refine ⟨Real.sqrt_nonneg _, Real.sqrt_nonneg _, ?_, ?_⟩
  · rw [← hs]; exact Real.sqrt_le_sqrt p3
  · rw [← hs]; exact Real.sqrt_le_sqrt p4

theorem near_of_rel {x y δ : ℝ} (hy : 0 ≤ y) (hδ : δ ≤ 1 / 2 ^ 24 + 1 / 2 ^ 52) (h : |x - y| ≤ y * δ) : Near 1 x y := by
  obtain ⟨h1, h2⟩ := abs_le.1 h
  have : y * δ ≤ y * (1 / 2 ^ 24 + 1 / 2 ^ 52) := mul_le_mul_of_nonneg_left hδ hy
  have h3 : y * (1 - (1 / 2 ^ 24 + 1 / 2 ^ 52)) ≤ x := by linarith
  have h0 : 0 ≤ x := le_trans (mul_nonneg hy (by norm_num)) h3
  refine ⟨h0, hy, ?_, ?_⟩
  · rw [pow_one]; norm_num at this ⊢; linarith
  · rw [pow_one]; norm_num at h3 ⊢; linarith

theorem pow_c_40 {k : Nat} (hk : k ≤ 40) : (1 + 1 / 2 ^ 23 : ℝ) ^ k ≤ 2 :=
  (pow_le_pow_right₀ (by norm_num) hk).trans (by norm_num)

/-- Rounding to float32 costs one factor, if the exact value is zero or not tiny. -/
theorem Near.r32 {k : Nat} {x : ℚ} {y : ℝ} (h : Near k (x : ℝ) y) (hy : y = 0 ∨ 1 / 2 ^ 120 ≤ y) (hk : k ≤ 40) : Near (k + 1) ((r32 x : ℚ) : ℝ) y := by
  rcases hy with hy | hy
  · have : (x : ℝ) = 0 := by
      have h3 := h.2.2.1; rw [hy, zero_mul] at h3; exact le_antisymm h3 h.1
    have hx : x = 0 := by exact_mod_cast this
    rw [hx, r32_zero, hy]; exact (Near.refl le_rfl).mono (by simp) |> fun h => by simpa using h
  · have hx0 : (0 : ℚ) ≤ x := by exact_mod_cast h.1
    have hlow : (1 / 2 ^ 121 : ℝ) ≤ x := by
      have h4 := h.2.2.2
      have : (x : ℝ) * (1 + 1 / 2 ^ 23) ^ k ≤ x * 2 := mul_le_mul_of_nonneg_left (pow_c_40 hk) h.1
      have h5 : (1 / 2 ^ 120 : ℝ) = 2 * (1 / 2 ^ 121) := by norm_num
      rw [h5] at hy; linarith
    have hlow' : (1 / 2 ^ 121 : ℚ) ≤ x := by
      have : (((1 / 2 ^ 121 : ℚ)) : ℝ) ≤ (x : ℝ) := by push_cast; exact hlow
      exact_mod_cast this
    have hr := r32_rel' (x := x) (e := 1 / 2 ^ 121) (by norm_num) (by rwa [abs_of_nonneg hx0])
    rw [abs_of_nonneg hx0] at hr
    have hr' : |((Go.r32 x : ℚ) : ℝ) - x| ≤ (x : ℝ) * (1 / 2 ^ 24) := by
      have : (((|Go.r32 x - x| : ℚ)) : ℝ) ≤ (((x / 2 ^ 24 : ℚ)) : ℝ) := by exact_mod_cast hr
      push_cast at this; rw [← div_eq_mul_one_div]; exact this
    exact (near_of_rel h.1 (by norm_num) hr').trans h

theorem near_toMillimeter {m : Int} (h0 : 0 ≤ m) (hm : m ≤ 2 ^ 53) : Near 1 (toMillimeter m : ℝ) ((m : ℝ) / 1000) := by
  have h := toMillimeter_err m (by rw [abs_of_nonneg h0]; exact hm)
  have hq : (0 : ℚ) ≤ m := by exact_mod_cast h0
  have hr : (0 : ℝ) ≤ m := by exact_mod_cast h0
  rw [abs_of_nonneg hq] at h
  apply near_of_rel (δ := 1 / 2 ^ 24 + 1 / 2 ^ 52) (by positivity) le_rfl
  have : (((|toMillimeter m - m / 1000| : ℚ)) : ℝ) ≤ (((m / 1000 * (1 / 2 ^ 24 + 1 / 2 ^ 52) : ℚ)) : ℝ) := by exact_mod_cast h
  push_cast at this
  exact this

theorem toMillimeter_neg (m : Int) : toMillimeter (-m) = -toMillimeter m := by
  unfold toMillimeter
  have n64 : ∀ x : ℚ, r64 (-x) = -r64 x := fun x => rnd_neg _ _ x
  push_cast
  rw [n64, neg_div, n64, r32_neg]

/-- The float32 square of a coordinate. -/
theorem near_sq {m : Int} (hm : |m| ≤ 2 ^ 53) : Near 3 ((r32 (toMillimeter m * toMillimeter m) : ℚ) : ℝ) (((m : ℝ) / 1000) ^ 2) := by
  wlog h0 : 0 ≤ m with H
  · have := H (m := -m) (by rwa [abs_neg]) (by omega)
    rw [toMillimeter_neg, neg_mul_neg] at this
    push_cast at this
    rwa [neg_div, neg_sq] at this
  · have h1 := near_toMillimeter h0 (by rwa [abs_of_nonneg h0] at hm)
    have h2 : Near 2 ((toMillimeter m * toMillimeter m : ℚ) : ℝ) (((m : ℝ) / 1000) ^ 2) := by
      push_cast; rw [pow_two]; exact h1.mul h1
    apply h2.r32 _ (by norm_num)
    rcases h0.eq_or_lt with h | h
    · left; rw [← h]; simp
    · right
      have : (1 : ℝ) ≤ m := by exact_mod_cast h
      have h3 : (1 / 1000 : ℝ) ≤ (m : ℝ) / 1000 := by linarith
      calc (1 / 2 ^ 120 : ℝ) ≤ (1 / 1000) ^ 2 := by norm_num
        _ ≤ _ := pow_le_pow_left₀ (by norm_num) h3 2

/-- The length of a line in millimetres is computed up to four roundings. -/
theorem near_sizeMM {p : Pt} (hx : |p.x| ≤ 2 ^ 53) (hy : |p.y| ≤ 2 ^ 53) (hne : ¬ (p.x = 0 ∧ p.y = 0)) :
    Near 4 (p.sizeMM : ℝ) (euclid2 p.x p.y / 1000) := by
  have hs := (near_sq hx).add (near_sq hy)
  have hpos : (1 / 1000 : ℝ) ^ 2 ≤ ((p.x : ℝ) / 1000) ^ 2 + ((p.y : ℝ) / 1000) ^ 2 := by
    have : (1 : Int) ≤ p.x ^ 2 + p.y ^ 2 := by
      by_contra hc
      have h1 := sq_nonneg p.x
      have h2 := sq_nonneg p.y
      have h3 : p.x ^ 2 = 0 := by omega
      have h4 : p.y ^ 2 = 0 := by omega
      exact hne ⟨pow_eq_zero_iff (by norm_num) |>.1 h3, pow_eq_zero_iff (by norm_num) |>.1 h4⟩
    have : (1 : ℝ) ≤ (p.x : ℝ) ^ 2 + (p.y : ℝ) ^ 2 := by exact_mod_cast this
    calc (1 / 1000 : ℝ) ^ 2 = 1 / 1000000 := by norm_num
      _ ≤ ((p.x : ℝ) ^ 2 + (p.y : ℝ) ^ 2) / 1000000 := by linarith
      _ = _ := by ring
  have hs' : Near 3 ((r32 (toMillimeter p.x * toMillimeter p.x) + r32 (toMillimeter p.y * toMillimeter p.y) : ℚ) : ℝ)
      (((p.x : ℝ) / 1000) ^ 2 + ((p.y : ℝ) / 1000) ^ 2) := by push_cast; exact hs
  have h4 := hs'.r32 (Or.inr (le_trans (by norm_num) hpos)) (by norm_num)
  have h2 := Near.sqrt (k := 2) h4
  set q : ℚ := r32 (r32 (toMillimeter p.x * toMillimeter p.x) + r32 (toMillimeter p.y * toMillimeter p.y)) with hq
  have he : Real.sqrt (((p.x : ℝ) / 1000) ^ 2 + ((p.y : ℝ) / 1000) ^ 2) = euclid2 p.x p.y / 1000 := by
    unfold euclid2
    rw [show ((p.x : ℝ) / 1000) ^ 2 + ((p.y : ℝ) / 1000) ^ 2 = ((p.x : ℝ) ^ 2 + (p.y : ℝ) ^ 2) / 1000 ^ 2 by ring, Real.sqrt_div' _ (by positivity),
      Real.sqrt_sq (by norm_num)]
  rw [he] at h2
  have hlow : (1 / 1000 : ℝ) ≤ euclid2 p.x p.y / 1000 := by
    rw [← he]; exact Real.le_sqrt_of_sq_le hpos
  -- the float64 root
  have hsq : (1 / 2000 : ℝ) ≤ Real.sqrt q := by
    have h5 := h2.2.2.2
    have : Real.sqrt q * (1 + 1 / 2 ^ 23) ^ 2 ≤ Real.sqrt q * 2 := mul_le_mul_of_nonneg_left (pow_c_40 (by norm_num)) h2.1
    linarith
  have h64 : |((rnd 53 (-1074) (Real.sqrt q) : ℚ) : ℝ) - Real.sqrt q| ≤ Real.sqrt q / 2 ^ 53 := by
    have := rnd_rel_err (K := ℝ) 53 (-1074) (Real.sqrt q) (by
      rw [abs_of_nonneg h2.1]
      refine le_trans ?_ hsq
      have : (2 : ℝ) ^ (-1074 + ((53 : Nat) : Int) - 1) ≤ 2 ^ (-11 : Int) := zpow_le_zpow_right₀ (by norm_num) (by norm_num)
      refine this.trans (by norm_num))
    rwa [abs_of_nonneg h2.1, zpow_neg, zpow_natCast, ← div_eq_inv_mul] at this
  have h5 : Near 1 ((fsqrt64 q : ℚ) : ℝ) (Real.sqrt q) := by
    rw [fsqrt64_eq]
    exact near_of_rel (δ := 1 / 2 ^ 53) h2.1 (by norm_num) (by rw [← div_eq_mul_one_div]; exact h64)
  have h6 := h5.trans h2
  have h7 := h6.r32 (Or.inr (le_trans (by norm_num) hlow)) (by norm_num)
  exact h7

theorem near_pi : Near 1 (pi32 : ℝ) Real.pi := by
  have h1 := Real.pi_gt_d20
  have h2 := Real.pi_lt_d20
  apply near_of_rel (δ := 1 / 2 ^ 24) Real.pi_pos.le (by norm_num)
  have h3 : (3 : ℝ) * (1 / 2 ^ 24) ≤ Real.pi * (1 / 2 ^ 24) := mul_le_mul_of_nonneg_right (by linarith) (by norm_num)
  refine le_trans ?_ h3
  unfold pi32
  push_cast
  rw [abs_le]
  constructor <;> norm_num <;> linarith

/-- Filament per millimetre: thickness times width times multiplier by cross section, up to 14 roundings. -/
theorem near_flow {fd em t w : Int} (hfd : 1 ≤ fd ∧ fd ≤ 10 ^ 6) (hem : 1 ≤ em) (ht : 1 ≤ t ∧ t ≤ 2 ^ 53) (hw : 1 ≤ w ∧ w ≤ 2 ^ 53) :
    Near 14 (flowOf fd em t w : ℝ) ((t : ℝ) / 1000 * ((w : ℝ) / 1000) / crossSection fd * ((em : ℝ) / 100)) ∧
    (1 / 10 ^ 15 : ℝ) ≤ (t : ℝ) / 1000 * ((w : ℝ) / 1000) / crossSection fd * ((em : ℝ) / 100) := by
  have hp1 := Real.pi_gt_three
  have hp2 := Real.pi_lt_four
  have fd1 : (1 : ℝ) ≤ fd := by exact_mod_cast hfd.1
  have fd2 : (fd : ℝ) ≤ 10 ^ 6 := by exact_mod_cast hfd.2
  have t1 : (1 : ℝ) ≤ t := by exact_mod_cast ht.1
  have w1 : (1 : ℝ) ≤ w := by exact_mod_cast hw.1
  have em1 : (1 : ℝ) ≤ em := by exact_mod_cast hem
  have nfd := near_toMillimeter (m := fd) (by omega) (by omega)
  have hhalf : Near 2 ((r32 (toMillimeter fd / 2) : ℚ) : ℝ) ((fd : ℝ) / 1000 / 2) := by
    have h2 : Near 1 ((toMillimeter fd / 2 : ℚ) : ℝ) ((fd : ℝ) / 1000 / 2) := by
      push_cast; exact nfd.div (Near.refl (by norm_num)) (by norm_num) (by norm_num)
    exact h2.r32 (Or.inr (by norm_num; linarith)) (by norm_num)
  set half : ℚ := r32 (toMillimeter fd / 2)
  have hb : (1 / 2000 : ℝ) ≤ (fd : ℝ) / 1000 / 2 := by linarith
  have hb2 : (fd : ℝ) / 1000 / 2 ≤ 500 := by linarith
  have ha1 : Near 4 ((r32 (pi32 * half) : ℚ) : ℝ) (Real.pi * ((fd : ℝ) / 1000 / 2)) := by
    have h2 : Near 3 ((pi32 * half : ℚ) : ℝ) (Real.pi * ((fd : ℝ) / 1000 / 2)) := by push_cast; exact near_pi.mul hhalf
    refine h2.r32 (Or.inr ?_) (by norm_num)
    calc (1 / 2 ^ 120 : ℝ) ≤ 3 * (1 / 2000) := by norm_num
      _ ≤ _ := mul_le_mul hp1.le hb (by norm_num) Real.pi_pos.le
  have hcs : Real.pi * ((fd : ℝ) / 1000 / 2) * ((fd : ℝ) / 1000 / 2) = crossSection fd := by unfold crossSection; ring
  have hc1 : (1 / 2000000 : ℝ) ≤ crossSection fd := by
    unfold crossSection
    calc (1 / 2000000 : ℝ) ≤ 3 * (1 / 2000) ^ 2 := by norm_num
      _ ≤ _ := mul_le_mul hp1.le (pow_le_pow_left₀ (by norm_num) hb 2) (by norm_num) Real.pi_pos.le
  have hc2 : crossSection fd ≤ 10 ^ 6 := by
    unfold crossSection
    calc _ ≤ (4 : ℝ) * 500 ^ 2 := mul_le_mul hp2.le (pow_le_pow_left₀ (by linarith) hb2 2) (by positivity) (by norm_num)
      _ = 10 ^ 6 := by norm_num
  have ha2 : Near 7 ((r32 (r32 (pi32 * half) * half) : ℚ) : ℝ) (crossSection fd) := by
    have h2 : Near 6 ((r32 (pi32 * half) * half : ℚ) : ℝ) (crossSection fd) := by push_cast; rw [← hcs]; exact ha1.mul hhalf
    exact h2.r32 (Or.inr (le_trans (by norm_num) hc1)) (by norm_num)
  set area : ℚ := r32 (r32 (pi32 * half) * half)
  have harea : (0 : ℝ) < area := by
    have := ha2.2.2.2
    have h3 : (area : ℝ) * (1 + 1 / 2 ^ 23) ^ 7 ≤ area * 2 := mul_le_mul_of_nonneg_left (pow_c_40 (by norm_num)) ha2.1
    linarith
  have htw : (1 / 10 ^ 6 : ℝ) ≤ (t : ℝ) / 1000 * ((w : ℝ) / 1000) := by
    calc (1 / 10 ^ 6 : ℝ) = 1 / 1000 * (1 / 1000) := by norm_num
      _ ≤ _ := mul_le_mul (by linarith) (by linarith) (by norm_num) (by positivity)
  have hm : Near 3 ((r32 (toMillimeter t * toMillimeter w) : ℚ) : ℝ) ((t : ℝ) / 1000 * ((w : ℝ) / 1000)) := by
    have h2 : Near 2 ((toMillimeter t * toMillimeter w : ℚ) : ℝ) ((t : ℝ) / 1000 * ((w : ℝ) / 1000)) := by
      push_cast; exact (near_toMillimeter (by omega) ht.2).mul (near_toMillimeter (by omega) hw.2)
    exact h2.r32 (Or.inr (le_trans (by norm_num) htw)) (by norm_num)
  have hcpos : (0 : ℝ) < crossSection fd := lt_of_lt_of_le (by norm_num) hc1
  have hdl : (1 / 10 ^ 12 : ℝ) ≤ (t : ℝ) / 1000 * ((w : ℝ) / 1000) / crossSection fd := by
    rw [le_div_iff₀ hcpos]
    calc (1 / 10 ^ 12 : ℝ) * crossSection fd ≤ 1 / 10 ^ 12 * 10 ^ 6 := mul_le_mul_of_nonneg_left hc2 (by norm_num)
      _ ≤ 1 / 10 ^ 6 := by norm_num
      _ ≤ _ := htw
  have hd : Near 11 ((r32 (r32 (toMillimeter t * toMillimeter w) / area) : ℚ) : ℝ) ((t : ℝ) / 1000 * ((w : ℝ) / 1000) / crossSection fd) := by
    have h2 : Near 10 ((r32 (toMillimeter t * toMillimeter w) / area : ℚ) : ℝ) ((t : ℝ) / 1000 * ((w : ℝ) / 1000) / crossSection fd) := by
      push_cast; exact hm.div ha2 harea hcpos
    exact h2.r32 (Or.inr (le_trans (by norm_num) hdl)) (by norm_num)
  have he : Near 2 ((r32 (r32 (em : ℚ) / 100) : ℚ) : ℝ) ((em : ℝ) / 100) := by
    have h0 : Near 0 ((em : ℚ) : ℝ) (em : ℝ) := by push_cast; exact Near.refl (by linarith)
    have h1 := h0.r32 (Or.inr (le_trans (by norm_num) em1)) (by norm_num)
    have h2 : Near 1 ((r32 (em : ℚ) / 100 : ℚ) : ℝ) ((em : ℝ) / 100) := by
      push_cast; exact h1.div (Near.refl (by norm_num)) (by norm_num) (by norm_num)
    exact h2.r32 (Or.inr (by norm_num; linarith)) (by norm_num)
  have hlow : (1 / 10 ^ 15 : ℝ) ≤ (t : ℝ) / 1000 * ((w : ℝ) / 1000) / crossSection fd * ((em : ℝ) / 100) := by
    calc (1 / 10 ^ 15 : ℝ) ≤ 1 / 10 ^ 12 * (1 / 100) := by norm_num
      _ ≤ _ := mul_le_mul hdl (by linarith) (by norm_num) (le_trans (by norm_num) hdl)
  refine ⟨?_, hlow⟩
  have h2 : Near 13 ((r32 (r32 (toMillimeter t * toMillimeter w) / area) * r32 (r32 (em : ℚ) / 100) : ℚ) : ℝ)
      ((t : ℝ) / 1000 * ((w : ℝ) / 1000) / crossSection fd * ((em : ℝ) / 100)) := by push_cast; exact hd.mul he
  exact h2.r32 (Or.inr (le_trans (by norm_num) hlow)) (by norm_num)

/-- **C28**: the volume of the filament requested for a line from `a` to `b` is the volume of the line (length times thickness times width times
multiplier) up to a relative error of 3 ppm. All sizes are in µm, `em` in percent. The line must not have length 0. -/
theorem C28_volume {fd em t w : Int} (hfd : 1 ≤ fd ∧ fd ≤ 10 ^ 6) (hem : 1 ≤ em) (ht : 1 ≤ t ∧ t ≤ 2 ^ 53) (hw : 1 ≤ w ∧ w ≤ 2 ^ 53)
    (s : Settings) (hs : s.perMM = flowOf fd em t w) (a b : Pt) (hne : a ≠ b) (hx : |b.x - a.x| ≤ 2 ^ 53) (hy : |b.y - a.y| ≤ 2 ^ 53) :
    let volume := euclid2 (b.x - a.x) (b.y - a.y) / 1000 * ((t : ℝ) / 1000) * ((w : ℝ) / 1000) * ((em : ℝ) / 100)
    |(s.filament a b : ℝ) * crossSection fd - volume| ≤ 3 / 10 ^ 6 * volume := by
  intro volume
  obtain ⟨hflow, hlow⟩ := near_flow hfd hem ht hw
  have hfd1 : (1 : ℝ) ≤ fd := by exact_mod_cast hfd.1
  have hcpos : (0 : ℝ) < crossSection fd := by
    unfold crossSection; have := Real.pi_pos; positivity
  have hne' : ¬ ((b.sub a).x = 0 ∧ (b.sub a).y = 0) := by
    rintro ⟨h1, h2⟩
    simp only [Pt.sub] at h1 h2
    apply hne
    cases a; cases b; simp only [Pt.mk.injEq] at *
    omega
  have hlen := near_sizeMM (p := b.sub a) (by simpa [Pt.sub] using hx) (by simpa [Pt.sub] using hy) hne'
  have hlen1 : (1 / 1000 : ℝ) ≤ euclid2 (b.sub a).x (b.sub a).y / 1000 := by
    have : (1 : ℝ) ≤ euclid2 (b.sub a).x (b.sub a).y := by
      unfold euclid2
      apply Real.le_sqrt_of_sq_le
      have h : (1 : Int) ≤ (b.sub a).x ^ 2 + (b.sub a).y ^ 2 := by
        by_contra hc
        have h1 := sq_nonneg (b.sub a).x
        have h2 := sq_nonneg (b.sub a).y
        have h3 : (b.sub a).x ^ 2 = 0 := by omega
        have h4 : (b.sub a).y ^ 2 = 0 := by omega
        exact hne' ⟨pow_eq_zero_iff (by norm_num) |>.1 h3, pow_eq_zero_iff (by norm_num) |>.1 h4⟩
      have : (1 : ℝ) ≤ ((b.sub a).x : ℝ) ^ 2 + ((b.sub a).y : ℝ) ^ 2 := by exact_mod_cast h
      linarith
    linarith
  have hfil : Near 19 (s.filament a b : ℝ) (euclid2 (b.sub a).x (b.sub a).y / 1000 *
      ((t : ℝ) / 1000 * ((w : ℝ) / 1000) / crossSection fd * ((em : ℝ) / 100))) := by
    unfold Settings.filament
    rw [hs]
    have h2 : Near 18 (((b.sub a).sizeMM * flowOf fd em t w : ℚ) : ℝ) (euclid2 (b.sub a).x (b.sub a).y / 1000 *
      ((t : ℝ) / 1000 * ((w : ℝ) / 1000) / crossSection fd * ((em : ℝ) / 100))) := by push_cast; exact hlen.mul hflow
    refine h2.r32 (Or.inr ?_) (by norm_num)
    calc (1 / 2 ^ 120 : ℝ) ≤ 1 / 1000 * (1 / 10 ^ 15) := by norm_num
      _ ≤ _ := mul_le_mul hlen1 hlow (by norm_num) (le_trans (by norm_num) hlen1)
  have hv := hfil.mul (Near.refl hcpos.le)
  have he : euclid2 (b.sub a).x (b.sub a).y / 1000 * ((t : ℝ) / 1000 * ((w : ℝ) / 1000) / crossSection fd * ((em : ℝ) / 100)) * crossSection fd =
      volume := by
    simp only [volume, Pt.sub]
    field_simp
  rw [he] at hv
  obtain ⟨v1, v2, v3, v4⟩ := hv
  have hk : (1 + 1 / 2 ^ 23 : ℝ) ^ 19 ≤ 1 + 3 / 10 ^ 6 - 1 / 10 ^ 9 := by norm_num
  rw [Nat.add_zero] at v3 v4
  rw [abs_le]
  constructor
  · have h1 : volume ≤ (s.filament a b : ℝ) * crossSection fd * (1 + 3 / 10 ^ 6 - 1 / 10 ^ 9) :=
      v4.trans (mul_le_mul_of_nonneg_left hk v1)
    norm_num at h1 ⊢
    nlinarith
  · have h1 : (s.filament a b : ℝ) * crossSection fd ≤ volume * (1 + 3 / 10 ^ 6 - 1 / 10 ^ 9) :=
      v3.trans (mul_le_mul_of_nonneg_left hk v2)
    norm_num at h1 ⊢
    nlinarith

/-- Non-vacuity: usual values satisfy the hypotheses. -/
example : (1 ≤ (1750 : Int) ∧ (1750 : Int) ≤ 10 ^ 6) ∧ (1 : Int) ≤ 100 ∧ (1 ≤ (200 : Int) ∧ (200 : Int) ≤ 2 ^ 53) ∧
    (⟨0, 0⟩ : Pt) ≠ ⟨1000, 0⟩ ∧ |(1000 : Int) - 0| ≤ 2 ^ 53 := by norm_num

/-- **C28**: a line of length 0 requests no filament. -/
theorem C28_zero (s : Settings) (a : Pt) : s.filament a a = 0 := by
  unfold Settings.filament Pt.sizeMM Pt.sub
  simp [toMillimeter, fsqrt64]

end Verif
