import Verif.Go.Float

/-! # Error bounds of the float roundings in the form used by the property proofs -/
namespace Verif.Go

/-- Relative rounding error of float32 for numbers of at least `2^-126`. -/
theorem r32_rel (x : ℚ) (hx : (2 : ℚ) ^ (-126 : Int) ≤ |x|) : |r32 x - x| ≤ |x| / 2 ^ 24 := by
  have h := rnd_rel_err (K := ℚ) 24 (-149) x (by norm_num at hx ⊢; exact hx)
  simp only [Rat.cast_id, r32] at h ⊢
  refine h.trans (le_of_eq ?_)
  rw [zpow_neg, zpow_natCast]; ring

/-- Relative rounding error of float64 for numbers of at least `2^-1022`. -/
theorem r64_rel (x : ℚ) (hx : (2 : ℚ) ^ (-1022 : Int) ≤ |x|) : |r64 x - x| ≤ |x| / 2 ^ 53 := by
  have h := rnd_rel_err (K := ℚ) 53 (-1074) x (by norm_num at hx ⊢; exact hx)
  simp only [Rat.cast_id, r64] at h ⊢
  refine h.trans (le_of_eq ?_)
  rw [zpow_neg, zpow_natCast]; ring

theorem r32_rel' {x e : ℚ} (he : (2 : ℚ) ^ (-126 : Int) ≤ e) (hx : e ≤ |x|) : |r32 x - x| ≤ |x| / 2 ^ 24 :=
  r32_rel x (he.trans hx)

theorem r64_rel' {x e : ℚ} (he : (2 : ℚ) ^ (-126 : Int) ≤ e) (hx : e ≤ |x|) : |r64 x - x| ≤ |x| / 2 ^ 53 :=
  r64_rel x ((zpow_le_zpow_right₀ (by norm_num) (by norm_num)).trans (he.trans hx))

@[simp] theorem r32_zero : r32 (0 : ℚ) = 0 := rnd_zero _ _
@[simp] theorem r64_zero : r64 (0 : ℚ) = 0 := rnd_zero _ _
theorem r32_idem (x : ℚ) : r32 (r32 x) = r32 x := by
  have h := rnd_rnd (K := ℚ) 24 (by norm_num) (-149) x
  exact h

theorem r32_neg (x : ℚ) : r32 (-x) = -r32 x := rnd_neg _ _ x
theorem r64_neg (x : ℚ) : r64 (-x) = -r64 x := rnd_neg _ _ x
theorem r32_mono {x y : ℚ} (h : x ≤ y) : r32 x ≤ r32 y := rnd_mono 24 (by norm_num) _ h
theorem r64_mono {x y : ℚ} (h : x ≤ y) : r64 x ≤ r64 y := rnd_mono 53 (by norm_num) _ h
theorem r32_nonneg {x : ℚ} (h : 0 ≤ x) : 0 ≤ r32 x := rnd_nonneg _ _ h
theorem r64_nonneg {x : ℚ} (h : 0 ≤ x) : 0 ≤ r64 x := rnd_nonneg _ _ h

/-- Integers up to `2^53` in size are exact in float64. -/
theorem r64_intCast {n : Int} (h : |n| ≤ 2 ^ 53) : r64 (n : ℚ) = n :=
  rnd_of_repr (K := ℚ) 53 (by norm_num) (-1074) (n : ℚ) ⟨n, 0, h, by norm_num, by simp⟩

/-- Integers up to `2^24` in size are exact in float32. -/
theorem r32_intCast {n : Int} (h : |n| ≤ 2 ^ 24) : r32 (n : ℚ) = n :=
  rnd_of_repr (K := ℚ) 24 (by norm_num) (-149) (n : ℚ) ⟨n, 0, h, by norm_num, by simp⟩

end Verif.Go
