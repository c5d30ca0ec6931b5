import Verif.Model.Layer
import Verif.Lemmas.Float
import Mathlib.Analysis.SpecialFunctions.Trigonometric.Basic

/-! # C11: rotation -/
namespace Verif
open Verif.Go Verif.Model

/-- float64 rounding of a number below `2^44` changes it by at most `2^-9`. -/
theorem r64_abs (x : ℚ) (h : |x| ≤ 2 ^ 44) : |r64 x - x| ≤ 1 / 2 ^ 9 := by
  by_cases hx : (2 : ℚ) ^ (-1022 : Int) ≤ |x|
  · refine (r64_rel x hx).trans ?_
    rw [div_le_div_iff₀ (by positivity) (by positivity)]
    nlinarith
  · have hx := not_le.1 hx
    have h1 : |x| ≤ 2 ^ (-60 : Int) := hx.le.trans (zpow_le_zpow_right₀ (by norm_num) (by norm_num))
    have h2 : |r64 x| ≤ 2 ^ (-60 : Int) := by
      have hr : r64 ((2 : ℚ) ^ (-60 : Int)) = 2 ^ (-60 : Int) :=
        rnd_of_repr (K := ℚ) 53 (by norm_num) (-1074) _ ⟨1, -60, by norm_num, by norm_num, (one_mul _).symm.trans (by norm_cast)⟩
      rw [abs_le] at h1 ⊢
      constructor
      · rw [← hr, ← r64_neg]; exact r64_mono h1.1
      · rw [← hr]; exact r64_mono h1.2
    have := abs_sub (r64 x) x
    norm_num at *
    linarith

/-- One coordinate of a rotation with float arithmetic is close to the exact one. -/
theorem rotate_coord_err (a b : Int) (u v : ℚ) (U V : ℝ) (ha : |a| ≤ 2 ^ 40) (hb : |b| ≤ 2 ^ 40)
    (hu : |(u : ℝ) - U| ≤ 1 / 2 ^ 48) (hv : |(v : ℝ) - V| ≤ 1 / 2 ^ 48) (hU : |U| ≤ 1) (hV : |V| ≤ 1) :
    |((roundEven (r64 (r64 (r64 (a : ℚ) * u) + r64 (r64 (b : ℚ) * v))) : Int) : ℝ) - (a * U + b * V)| ≤ 1 / 2 + 1 / 32 := by
  have hu1 : |u| ≤ 2 := by
    have h1 : |(u : ℝ)| ≤ 2 := by
      have := abs_sub_abs_le_abs_sub (u : ℝ) U
      norm_num at *; linarith
    exact_mod_cast h1
  have hv1 : |v| ≤ 2 := by
    have h1 : |(v : ℝ)| ≤ 2 := by
      have := abs_sub_abs_le_abs_sub (v : ℝ) V
      norm_num at *; linarith
    exact_mod_cast h1
  have haq : |(a : ℚ)| ≤ 2 ^ 40 := by exact_mod_cast ha
  have hbq : |(b : ℚ)| ≤ 2 ^ 40 := by exact_mod_cast hb
  rw [r64_intCast (n := a) (ha.trans (by norm_num)), r64_intCast (n := b) (hb.trans (by norm_num))]
  have h1 : |(a : ℚ) * u| ≤ 2 ^ 41 := by
    rw [abs_mul]
    calc |(a : ℚ)| * |u| ≤ 2 ^ 40 * 2 := by gcongr
      _ = 2 ^ 41 := by norm_num
  have h2 : |(b : ℚ) * v| ≤ 2 ^ 41 := by
    rw [abs_mul]
    calc |(b : ℚ)| * |v| ≤ 2 ^ 40 * 2 := by gcongr
      _ = 2 ^ 41 := by norm_num
  have e1 := r64_abs _ (h1.trans (by norm_num))
  have e2 := r64_abs _ (h2.trans (by norm_num))
  set p := r64 ((a : ℚ) * u)
  set q := r64 ((b : ℚ) * v)
  have h3 : |p + q| ≤ 2 ^ 44 := by
    have i1 := abs_sub_abs_le_abs_sub p ((a : ℚ) * u)
    have i2 := abs_sub_abs_le_abs_sub q ((b : ℚ) * v)
    have i3 := abs_add_le p q
    norm_num at *; linarith
  have e3 := r64_abs _ h3
  set s := r64 (p + q)
  have e4 := roundEven_abs_sub_le s
  -- exact value in ℝ
  have f1 : |(a : ℝ) * u - a * U| ≤ 1 / 2 ^ 8 := by
    rw [← mul_sub, abs_mul]
    have : |(a : ℝ)| ≤ 2 ^ 40 := by exact_mod_cast ha
    calc |(a : ℝ)| * |(u : ℝ) - U| ≤ 2 ^ 40 * (1 / 2 ^ 48) := by gcongr
      _ = 1 / 2 ^ 8 := by norm_num
  have f2 : |(b : ℝ) * v - b * V| ≤ 1 / 2 ^ 8 := by
    rw [← mul_sub, abs_mul]
    have : |(b : ℝ)| ≤ 2 ^ 40 := by exact_mod_cast hb
    calc |(b : ℝ)| * |(v : ℝ) - V| ≤ 2 ^ 40 * (1 / 2 ^ 48) := by gcongr
      _ = 1 / 2 ^ 8 := by norm_num
  have cast : ∀ (x : ℚ) (r : ℚ), |x| ≤ r → |(x : ℝ)| ≤ (r : ℝ) := by
    intro x r h; rw [← Rat.cast_abs]; exact_mod_cast h
  have g1 := cast _ _ e1
  have g2 := cast _ _ e2
  have g3 := cast _ _ e3
  have g4 := cast _ _ e4
  push_cast at g1 g2 g3 g4
  clear e1 e2 e3 e4 h1 h2 h3 haq hbq hu1 hv1 hU hV hu hv ha hb
  rw [abs_le] at *
  norm_num at *
  constructor <;> linarith [f1.1, f1.2, f2.1, f2.2, g1.1, g1.2, g2.1, g2.2, g3.1, g3.2, g4.1, g4.2]

/-- **C11** Rotating a point by an angle and back moves each coordinate by at most one micrometre, with float64 arithmetic and any
`math.Sin`, `math.Cos` that are accurate to `2^-48`, for coordinates up to `2^39` µm. `s, c` are the values for the angle and
`s', c'` those for the negated angle. -/
theorem C11_round_trip (p : Pt) (θ : ℝ) (s c s' c' : ℚ)
    (hx : |p.x| ≤ 2 ^ 39) (hy : |p.y| ≤ 2 ^ 39)
    (hs : |(s : ℝ) - Real.sin θ| ≤ 1 / 2 ^ 48) (hc : |(c : ℝ) - Real.cos θ| ≤ 1 / 2 ^ 48)
    (hs' : |(s' : ℝ) - Real.sin (-θ)| ≤ 1 / 2 ^ 48) (hc' : |(c' : ℝ) - Real.cos (-θ)| ≤ 1 / 2 ^ 48) :
    |((p.rotate s c).rotate s' c').x - p.x| ≤ 1 ∧ |((p.rotate s c).rotate s' c').y - p.y| ≤ 1 := by
  obtain ⟨px, py⟩ := p
  simp only at hx hy
  have hS := Real.abs_sin_le_one θ
  have hC := Real.abs_cos_le_one θ
  rw [Real.sin_neg] at hs'
  rw [Real.cos_neg] at hc'
  have hneg : ∀ (u : ℚ) (U : ℝ), |(u : ℝ) - U| ≤ 1 / 2 ^ 48 → |((-u : ℚ) : ℝ) - (-U)| ≤ 1 / 2 ^ 48 := by
    intro u U h; rw [← abs_neg]; push_cast; convert h using 2; ring
  have hxx : |px| ≤ 2 ^ 40 := hx.trans (by norm_num)
  have hyy : |py| ≤ 2 ^ 40 := hy.trans (by norm_num)
  have a1 := rotate_coord_err px py c (-s) _ _ hxx hyy hc (hneg _ _ hs) hC (by rwa [abs_neg])
  have a2 := rotate_coord_err px py s c _ _ hxx hyy hs hc hS hC
  have hr1 : (⟨px, py⟩ : Pt).rotate s c = ⟨roundEven (r64 (r64 (r64 (px : ℚ) * c) + r64 (r64 (py : ℚ) * (-s)))),
      roundEven (r64 (r64 (r64 (px : ℚ) * s) + r64 (r64 (py : ℚ) * c)))⟩ := by
    simp only [Pt.rotate, mul_neg, r64_neg, sub_eq_add_neg]
  rw [hr1]
  set X := roundEven (r64 (r64 (r64 (px : ℚ) * c) + r64 (r64 (py : ℚ) * (-s))))
  set Y := roundEven (r64 (r64 (r64 (px : ℚ) * s) + r64 (r64 (py : ℚ) * c)))
  have hpx : |(px : ℝ)| ≤ 2 ^ 39 := by exact_mod_cast hx
  have hpy : |(py : ℝ)| ≤ 2 ^ 39 := by exact_mod_cast hy
  have hsq : Real.sin θ ^ 2 + Real.cos θ ^ 2 = 1 := Real.sin_sq_add_cos_sq θ
  have big : ∀ (Z : Int) (U V : ℝ), U ^ 2 + V ^ 2 = 1 → |(Z : ℝ) - (px * U + py * V)| ≤ 1 / 2 + 1 / 32 → |Z| ≤ 2 ^ 40 := by
    intro Z U V h h'
    have hu : |U| ≤ 1 := by rw [abs_le]; constructor <;> nlinarith [sq_nonneg V, sq_nonneg U]
    have hv : |V| ≤ 1 := by rw [abs_le]; constructor <;> nlinarith [sq_nonneg V, sq_nonneg U]
    have i1 : |(px : ℝ) * U| ≤ 2 ^ 39 := by
      rw [abs_mul]
      calc |(px : ℝ)| * |U| ≤ 2 ^ 39 * 1 := by gcongr
        _ = 2 ^ 39 := by norm_num
    have i2 : |(py : ℝ) * V| ≤ 2 ^ 39 := by
      rw [abs_mul]
      calc |(py : ℝ)| * |V| ≤ 2 ^ 39 * 1 := by gcongr
        _ = 2 ^ 39 := by norm_num
    have h3 : |(Z : ℝ)| < 2 ^ 40 + 1 := by
      rw [abs_le] at h' i1 i2
      rw [abs_lt]
      norm_num at *
      constructor <;> linarith [h'.1, h'.2, i1.1, i1.2, i2.1, i2.2]
    have h4 : |Z| < 2 ^ 40 + 1 := by exact_mod_cast h3
    omega
  have hX : |X| ≤ 2 ^ 40 := big X _ _ (by rw [neg_sq]; linarith) a1
  have hY : |Y| ≤ 2 ^ 40 := big Y _ _ hsq a2
  have b1 := rotate_coord_err X Y c' (-s') _ _ hX hY hc' (hneg _ _ hs') hC (by rwa [neg_neg])
  have b2 := rotate_coord_err X Y s' c' _ _ hX hY hs' hc' (by rwa [abs_neg]) hC
  have hr2 : (⟨X, Y⟩ : Pt).rotate s' c' = ⟨roundEven (r64 (r64 (r64 (X : ℚ) * c') + r64 (r64 (Y : ℚ) * (-s')))),
      roundEven (r64 (r64 (r64 (X : ℚ) * s') + r64 (r64 (Y : ℚ) * c')))⟩ := by
    simp only [Pt.rotate, mul_neg, r64_neg, sub_eq_add_neg]
  rw [hr2]
  set X' := roundEven (r64 (r64 (r64 (X : ℚ) * c') + r64 (r64 (Y : ℚ) * (-s'))))
  set Y' := roundEven (r64 (r64 (r64 (X : ℚ) * s') + r64 (r64 (Y : ℚ) * c')))
  -- errors of the first rotation
  have rot : ∀ (e f U V : ℝ), U ^ 2 + V ^ 2 = 1 → |e| ≤ 1 / 2 + 1 / 32 → |f| ≤ 1 / 2 + 1 / 32 → |e * U + f * V| ≤ 1 := by
    intro e f U V h he hf
    rw [abs_le_one_iff_mul_self_le_one]
    have h1 : e ^ 2 ≤ (1 / 2 + 1 / 32) ^ 2 := sq_le_sq' (abs_le.1 he).1 (abs_le.1 he).2
    have h2 : f ^ 2 ≤ (1 / 2 + 1 / 32) ^ 2 := sq_le_sq' (abs_le.1 hf).1 (abs_le.1 hf).2
    have h3 : (e * U + f * V) * (e * U + f * V) = (e ^ 2 + f ^ 2) * (U ^ 2 + V ^ 2) - (e * V - f * U) ^ 2 := by ring
    rw [h3, h]
    nlinarith [sq_nonneg (e * V - f * U)]
  have c1 := rot _ _ (Real.cos θ) (Real.sin θ) (by linarith) a1 a2
  have c2 := rot _ _ (-Real.sin θ) (Real.cos θ) (by rw [neg_sq]; exact hsq) a1 a2
  have k1 : ((X : ℝ) * Real.cos θ + Y * -(-Real.sin θ)) - px =
      (X - (px * Real.cos θ + py * -Real.sin θ)) * Real.cos θ + (Y - (px * Real.sin θ + py * Real.cos θ)) * Real.sin θ := by
    linear_combination (px : ℝ) * hsq
  have k2 : ((X : ℝ) * -Real.sin θ + Y * Real.cos θ) - py =
      (X - (px * Real.cos θ + py * -Real.sin θ)) * -Real.sin θ + (Y - (px * Real.sin θ + py * Real.cos θ)) * Real.cos θ := by
    linear_combination (py : ℝ) * hsq
  rw [← k1] at c1
  rw [← k2] at c2
  have fin : ∀ (Z W : Int) (m : ℝ), |(Z : ℝ) - m| ≤ 1 / 2 + 1 / 32 → |m - W| ≤ 1 → |Z - W| ≤ 1 := by
    intro Z W m h1 h2
    have h3 : |((Z - W : Int) : ℝ)| < 2 := by
      push_cast
      rw [abs_le] at h1 h2
      rw [abs_lt]
      constructor <;> linarith [h1.1, h1.2, h2.1, h2.2]
    have h4 : |Z - W| < 2 := by exact_mod_cast h3
    omega
  exact ⟨fin X' px _ b1 c1, fin Y' py _ b2 c2⟩

/-- **C11** Rotating a path by 0 degrees changes nothing. -/
theorem C11_zero (sn cs : ℚ) (p : Path) : pathRotate 0 sn cs p = p := by simp [pathRotate]

/-- **C11** The same for several paths. -/
theorem C11_zero_paths (sn cs : ℚ) (p : Paths) : pathsRotate 0 sn cs p = p := by
  unfold pathsRotate
  rw [show pathRotate 0 sn cs = id from funext (fun q => C11_zero sn cs q)]
  simp

/-- **C11** lifted to paths: same number of points, each within a micrometre of where it was. -/
theorem C11_path_round_trip (path : Path) (degree : ℚ) (θ : ℝ) (s c s' c' : ℚ)
    (hp : ∀ p ∈ path, |p.x| ≤ 2 ^ 39 ∧ |p.y| ≤ 2 ^ 39)
    (hs : |(s : ℝ) - Real.sin θ| ≤ 1 / 2 ^ 48) (hc : |(c : ℝ) - Real.cos θ| ≤ 1 / 2 ^ 48)
    (hs' : |(s' : ℝ) - Real.sin (-θ)| ≤ 1 / 2 ^ 48) (hc' : |(c' : ℝ) - Real.cos (-θ)| ≤ 1 / 2 ^ 48) :
    List.Forall₂ (fun p q : Pt => |q.x - p.x| ≤ 1 ∧ |q.y - p.y| ≤ 1) path
      (pathRotate (-degree) s' c' (pathRotate degree s c path)) := by
  by_cases hd : degree = 0
  · simp only [pathRotate, hd, neg_zero, if_true]
    exact List.forall₂_same.2 (fun p _ => by simp)
  · simp only [pathRotate, hd, neg_eq_zero, if_false]
    induction path with
    | nil => simp
    | cons p l ih =>
      simp only [List.map_cons]
      refine List.Forall₂.cons ?_ (ih (fun q hq => hp q (List.mem_cons_of_mem _ hq)))
      have := hp p (by simp)
      exact C11_round_trip p θ s c s' c' this.1 this.2 hs hc hs' hc'

/-- The bound is sharp: with the angle whose sine is `20/29` the point `(0, 2)` comes back as `(0, 1)`. -/
example : ((⟨0, 2⟩ : Pt).rotate (20/29) (21/29)).rotate (-20/29) (21/29) = ⟨0, 1⟩ := by decide +kernel

end Verif
