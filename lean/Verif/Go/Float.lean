import Mathlib.Data.Int.Log
import Mathlib.Data.Rat.Floor
import Mathlib.Tactic.Linarith
import Mathlib.Tactic.Ring
import Mathlib.Tactic.NormNum
import Mathlib.Tactic.Positivity
import Mathlib.Tactic.FieldSimp

/-!
# IEEE-754 rounding on an ordered field

`float32` and `float64` values are modelled as rationals; after each operation the exact result is rounded
to the nearest representable number, ties to even (`rnd`). Infinity, NaN and negative zero are not modelled:
the precision and the smallest exponent (subnormal numbers) are, the largest exponent is not.
-/
namespace Verif.Go

variable {K : Type} [Field K] [LinearOrder K] [IsStrictOrderedRing K] [FloorRing K]

/-- `math.RoundToEven`: nearest integer, ties to the even one. -/
def roundEven (x : K) : Int :=
  if x - ⌊x⌋ < 1 / 2 then ⌊x⌋
  else if 1 / 2 < x - ⌊x⌋ then ⌊x⌋ + 1
  else if ⌊x⌋ % 2 = 0 then ⌊x⌋ else ⌊x⌋ + 1

/-- `math.Round`: nearest integer, ties away from zero. -/
def roundAway (x : K) : Int :=
  if 0 ≤ x then ⌊x + 1 / 2⌋ else -⌊-x + 1 / 2⌋

/-- Conversion of a float to an integer type: truncation toward zero. -/
def truncZ (x : K) : Int := if 0 ≤ x then ⌊x⌋ else -⌊-x⌋

/-- Exponent of the unit in the last place of `x` for precision `p` and smallest unit `2^qmin`. -/
def ulpExp (p : Nat) (qmin : Int) (x : K) : Int := max (Int.log 2 |x| - ((p : Int) - 1)) qmin

/-- Round to nearest representable number (precision `p` bits, smallest unit `2^qmin`), ties to even. -/
def rnd (p : Nat) (qmin : Int) (x : K) : ℚ :=
  (roundEven (x / (2 : K) ^ ulpExp p qmin x) : ℚ) * (2 : ℚ) ^ ulpExp p qmin x

/-- Rounding to `float32` (24 bit precision, smallest subnormal `2^-149`). -/
def r32 (x : K) : ℚ := rnd 24 (-149) x

/-- Rounding to `float64` (53 bit precision, smallest subnormal `2^-1074`). -/
def r64 (x : K) : ℚ := rnd 53 (-1074) x

/-! ## Lemmas -/

theorem roundEven_abs_sub_le (x : K) : |(roundEven x : K) - x| ≤ 1 / 2 := by
  have h1 := Int.floor_le x
  have h2 := Int.lt_floor_add_one x
  unfold roundEven
  rw [abs_le]
  split
  · constructor <;> linarith
  · split
    · push_cast; constructor <;> linarith
    · split
      · constructor <;> linarith
      · push_cast; constructor <;> linarith

theorem roundEven_eq_of_lt {x : K} {n : Int} (h : |x - n| < 1 / 2) : roundEven x = n := by
  have h1 := roundEven_abs_sub_le x
  rw [abs_lt] at h; rw [abs_le] at h1
  have h3 : ((roundEven x - n : Int) : K) < 1 := by push_cast; linarith
  have h4 : (-1 : K) < ((roundEven x - n : Int) : K) := by push_cast; linarith
  have h5 : roundEven x - n < 1 := by exact_mod_cast h3
  have h6 : -1 < roundEven x - n := by exact_mod_cast h4
  omega

@[simp] theorem roundEven_intCast (n : Int) : roundEven (n : K) = n :=
  roundEven_eq_of_lt (by simp)

@[simp] theorem roundEven_zero : roundEven (0 : K) = 0 := by
  simpa using roundEven_intCast (K := K) 0

theorem roundEven_mono {x y : K} (h : x ≤ y) : roundEven x ≤ roundEven y := by
  have hf : ⌊x⌋ ≤ ⌊y⌋ := Int.floor_mono h
  have hy1 := Int.floor_le y
  have hy2 := Int.lt_floor_add_one y
  have hx1 := Int.floor_le x
  have hx2 := Int.lt_floor_add_one x
  rcases eq_or_lt_of_le hf with he | hlt
  · unfold roundEven
    rw [he]
    split <;> split <;> (try split) <;> (try split) <;> (try omega)
    all_goals first | omega | (exfalso; linarith)
  · have a : roundEven x ≤ ⌊x⌋ + 1 := by unfold roundEven; split <;> (try split) <;> (try split) <;> omega
    have b : ⌊y⌋ ≤ roundEven y := by unfold roundEven; split <;> (try split) <;> (try split) <;> omega
    omega

theorem roundEven_neg (x : K) : roundEven (-x) = - roundEven x := by
  by_cases hx : |x - roundEven x| < 1 / 2
  · apply roundEven_eq_of_lt
    push_cast
    rw [show -x - -(roundEven x : K) = -(x - roundEven x) by ring, abs_neg]; exact hx
  · -- tie
    have h0 := roundEven_abs_sub_le x
    have h1 := Int.floor_le x
    have h2 := Int.lt_floor_add_one x
    have hfx : x - ⌊x⌋ = 1 / 2 := by
      by_contra hne
      apply hx
      unfold roundEven
      rw [abs_lt]
      rcases lt_or_gt_of_ne hne with h | h
      · rw [if_pos h]; constructor <;> linarith
      · rw [if_neg (by linarith), if_pos h]; push_cast; constructor <;> linarith
    have hfn : ⌊-x⌋ = -⌊x⌋ - 1 := by
      rw [Int.floor_eq_iff]; push_cast; constructor <;> linarith
    have hd : -x - (⌊-x⌋ : K) = 1 / 2 := by rw [hfn]; push_cast; linarith
    unfold roundEven
    rw [hd, hfx, hfn]
    simp only [lt_irrefl, if_false]
    split <;> split <;> omega

omit [FloorRing K] in
theorem zpow2_pos (e : Int) : (0 : K) < 2 ^ e := zpow_pos (by norm_num) e

theorem log_le_iff {x : K} (hx : 0 < x) (e : Int) : (2 : K) ^ e ≤ x ↔ e ≤ Int.log 2 x := by
  have := Int.zpow_le_iff_le_log (R := K) (b := 2) (x := e) (r := x) (by norm_num) hx
  simpa using this

theorem lt_log_iff {x : K} (hx : 0 < x) (e : Int) : x < (2 : K) ^ e ↔ Int.log 2 x < e := by
  have := Int.lt_zpow_iff_log_lt (R := K) (b := 2) (x := e) (r := x) (by norm_num) hx
  simpa using this

@[simp] theorem rnd_zero (p : Nat) (qmin : Int) : rnd p qmin (0 : K) = 0 := by simp [rnd]

omit [IsStrictOrderedRing K] in
theorem ulpExp_neg (p : Nat) (qmin : Int) (x : K) : ulpExp p qmin (-x) = ulpExp p qmin x := by
  simp [ulpExp]

theorem rnd_neg (p : Nat) (qmin : Int) (x : K) : rnd p qmin (-x) = - rnd p qmin x := by
  simp only [rnd, ulpExp_neg, neg_div, roundEven_neg]; push_cast; ring

/-- Absolute error of rounding: half a unit in the last place. -/
theorem rnd_abs_err (p : Nat) (qmin : Int) (x : K) :
    |((rnd p qmin x : ℚ) : K) - x| ≤ 2 ^ ulpExp p qmin x / 2 := by
  have h := roundEven_abs_sub_le (x / (2 : K) ^ ulpExp p qmin x)
  have hp := zpow2_pos (K := K) (ulpExp p qmin x)
  have : ((rnd p qmin x : ℚ) : K) - x
      = ((roundEven (x / (2 : K) ^ ulpExp p qmin x) : K) - x / (2 : K) ^ ulpExp p qmin x) * 2 ^ ulpExp p qmin x := by
    unfold rnd; push_cast; field_simp
  rw [this, abs_mul, abs_of_pos hp]
  nlinarith

/-- Relative error of rounding for numbers that are not subnormal: `2^-p`. -/
theorem rnd_rel_err (p : Nat) (qmin : Int) (x : K) (hx : (2 : K) ^ (qmin + (p : Int) - 1) ≤ |x|) :
    |((rnd p qmin x : ℚ) : K) - x| ≤ 2 ^ (-(p : Int)) * |x| := by
  have hpos : 0 < |x| := lt_of_lt_of_le (zpow2_pos _) hx
  have hl : qmin + (p : Int) - 1 ≤ Int.log 2 |x| := (log_le_iff hpos _).1 hx
  have hq : ulpExp p qmin x = Int.log 2 |x| - ((p : Int) - 1) := by
    unfold ulpExp; rw [max_eq_left]; omega
  refine (rnd_abs_err p qmin x).trans ?_
  rw [hq]
  have h1 : (2 : K) ^ Int.log 2 |x| ≤ |x| := (log_le_iff hpos _).2 le_rfl
  have : (2 : K) ^ (Int.log 2 |x| - ((p : Int) - 1)) / 2 = 2 ^ (-(p : Int)) * 2 ^ Int.log 2 |x| := by
    rw [show Int.log 2 |x| - ((p : Int) - 1) = -(p : Int) + Int.log 2 |x| + 1 by ring,
      zpow_add₀ (by norm_num), zpow_add₀ (by norm_num)]
    simp
  rw [this]
  exact mul_le_mul_of_nonneg_left h1 (zpow2_pos _).le


theorem rnd_nonneg (p : Nat) (qmin : Int) {x : K} (hx : 0 ≤ x) : 0 ≤ rnd p qmin x := by
  unfold rnd
  have : roundEven (0 : K) ≤ roundEven (x / (2 : K) ^ ulpExp p qmin x) :=
    roundEven_mono (div_nonneg hx (zpow2_pos _).le)
  rw [roundEven_zero] at this
  have h2 : (0 : ℚ) ≤ (roundEven (x / (2 : K) ^ ulpExp p qmin x) : ℚ) := by exact_mod_cast this
  exact mul_nonneg h2 (zpow2_pos _).le

theorem log_mono {x y : K} (hx : 0 < x) (h : x ≤ y) : Int.log 2 x ≤ Int.log 2 y :=
  (log_le_iff (lt_of_lt_of_le hx h) _).1 (((log_le_iff hx _).2 le_rfl).trans h)

theorem ulpExp_mono (p : Nat) (qmin : Int) {x y : K} (hx : 0 < x) (h : x ≤ y) :
    ulpExp p qmin x ≤ ulpExp p qmin y := by
  unfold ulpExp
  have := log_mono (x := |x|) (y := |y|) (abs_pos.2 hx.ne')
    (by rw [abs_of_pos hx, abs_of_pos (hx.trans_le h)]; exact h)
  omega

/-- A natural power of two times a power of two is bounded correctly by `roundEven`. -/
theorem roundEven_le_int {x : K} {n : Int} (h : x ≤ n) : roundEven x ≤ n := by
  have := roundEven_mono h
  rwa [roundEven_intCast] at this

theorem int_le_roundEven {x : K} {n : Int} (h : (n : K) ≤ x) : n ≤ roundEven x := by
  have := roundEven_mono h
  rwa [roundEven_intCast] at this

theorem rnd_mono_pos (p : Nat) (hp : 1 ≤ p) (qmin : Int) {x y : K} (hx : 0 < x) (h : x ≤ y) :
    rnd p qmin x ≤ rnd p qmin y := by
  have hy : 0 < y := hx.trans_le h
  rcases eq_or_lt_of_le (ulpExp_mono p qmin hx h) with he | hlt
  · unfold rnd
    rw [he]
    have h1 : roundEven (x / (2 : K) ^ ulpExp p qmin y) ≤ roundEven (y / (2 : K) ^ ulpExp p qmin y) :=
      roundEven_mono (div_le_div_of_nonneg_right h (zpow2_pos _).le)
    have h2 : ((roundEven (x / (2 : K) ^ ulpExp p qmin y) : Int) : ℚ) ≤ (roundEven (y / (2 : K) ^ ulpExp p qmin y) : ℚ) := by
      exact_mod_cast h1
    exact mul_le_mul_of_nonneg_right h2 (zpow2_pos _).le
  · set L := Int.log 2 y with hL
    have hux : qmin ≤ ulpExp p qmin x := le_max_right _ _
    have huy : ulpExp p qmin y = L - ((p : Int) - 1) := by
      unfold ulpExp at *; rw [abs_of_pos hy, ← hL] at *; omega
    have hlx : Int.log 2 x < L := by
      unfold ulpExp at hlt huy; rw [abs_of_pos hx, abs_of_pos hy, ← hL] at hlt
      rw [abs_of_pos hy, ← hL] at huy
      omega
    have hxL : x < (2 : K) ^ L := (lt_log_iff hx _).2 hlx
    have hyL : (2 : K) ^ L ≤ y := (log_le_iff hy _).2 le_rfl
    -- rnd x ≤ 2^L
    have a : rnd p qmin x ≤ 2 ^ L := by
      obtain ⟨n, hn⟩ : ∃ n : Nat, L - ulpExp p qmin x = n := ⟨(L - ulpExp p qmin x).toNat, by omega⟩
      have : x / (2 : K) ^ ulpExp p qmin x ≤ ((2 ^ n : Int) : K) := by
        rw [div_le_iff₀ (zpow2_pos _)]
        have : ((2 ^ n : Int) : K) * 2 ^ ulpExp p qmin x = 2 ^ L := by
          push_cast
          rw [← zpow_natCast, ← hn, ← zpow_add₀ (by norm_num)]; congr 1; ring
        rw [this]; exact hxL.le
      have h3 := roundEven_le_int this
      have h4 : ((roundEven (x / (2 : K) ^ ulpExp p qmin x) : Int) : ℚ) ≤ ((2 ^ n : Int) : ℚ) := by exact_mod_cast h3
      unfold rnd
      refine (mul_le_mul_of_nonneg_right h4 (zpow2_pos _).le).trans ?_
      push_cast
      rw [← zpow_natCast, ← hn, ← zpow_add₀ (by norm_num)]
      apply le_of_eq; congr 1; ring
    have b : 2 ^ L ≤ rnd p qmin y := by
      have hpn : ((p - 1 : Nat) : Int) = (p : Int) - 1 := by omega
      have : ((2 ^ (p - 1) : Int) : K) ≤ y / (2 : K) ^ ulpExp p qmin y := by
        rw [le_div_iff₀ (zpow2_pos _)]
        have : ((2 ^ (p - 1) : Int) : K) * 2 ^ ulpExp p qmin y = 2 ^ L := by
          push_cast
          rw [← zpow_natCast, ← zpow_add₀ (by norm_num), huy, hpn]; congr 1; ring
        rw [this]; exact hyL
      have h3 := int_le_roundEven this
      have h4 : ((2 ^ (p - 1) : Int) : ℚ) ≤ ((roundEven (y / (2 : K) ^ ulpExp p qmin y) : Int) : ℚ) := by exact_mod_cast h3
      unfold rnd
      refine le_trans ?_ (mul_le_mul_of_nonneg_right h4 (zpow2_pos _).le)
      push_cast
      rw [← zpow_natCast, ← zpow_add₀ (by norm_num), huy, hpn]
      apply le_of_eq; congr 1; ring
    exact a.trans b

/-- Rounding is monotone. -/
theorem rnd_mono (p : Nat) (hp : 1 ≤ p) (qmin : Int) {x y : K} (h : x ≤ y) :
    rnd p qmin x ≤ rnd p qmin y := by
  rcases lt_trichotomy x 0 with hx | hx | hx
  · rcases le_or_gt 0 y with hy | hy
    · have h1 : 0 ≤ rnd p qmin (-x) := rnd_nonneg p qmin (by linarith)
      rw [rnd_neg] at h1
      have h2 := rnd_nonneg p qmin hy
      linarith
    · have := rnd_mono_pos p hp qmin (x := -y) (y := -x) (by linarith) (by linarith)
      rw [rnd_neg, rnd_neg] at this
      linarith
  · subst hx; rw [rnd_zero]; exact rnd_nonneg p qmin h
  · exact rnd_mono_pos p hp qmin hx h

/-- `q` is a floating point number of precision `p` and smallest unit `2^qmin`. -/
def Repr' (p : Nat) (qmin : Int) (q : ℚ) : Prop :=
  ∃ (m e : Int), |m| ≤ 2 ^ p ∧ qmin ≤ e ∧ q = m * (2 : ℚ) ^ e

theorem rnd_repr_aux (p : Nat) (qmin m e : Int) (hm : |m| < 2 ^ p) (he : qmin ≤ e) :
    rnd p qmin ((m : K) * (2 : K) ^ e) = (m : ℚ) * (2 : ℚ) ^ e := by
  rcases eq_or_ne m 0 with h0 | h0
  · subst h0; simp
  have hpos : 0 < |(m : K) * (2 : K) ^ e| := abs_pos.2 (mul_ne_zero (by exact_mod_cast h0) (zpow2_pos _).ne')
  have hlt : |(m : K) * (2 : K) ^ e| < 2 ^ ((p : Int) + e) := by
    rw [abs_mul, abs_of_pos (zpow2_pos (K := K) e), zpow_add₀ (by norm_num)]
    apply mul_lt_mul_of_pos_right _ (zpow2_pos _)
    rw [← Int.cast_abs, zpow_natCast]
    exact_mod_cast hm
  have hlog := (lt_log_iff hpos _).1 hlt
  have hu : ulpExp p qmin ((m : K) * (2 : K) ^ e) ≤ e := by unfold ulpExp; omega
  obtain ⟨n, hn⟩ : ∃ n : Nat, e - ulpExp p qmin ((m : K) * (2 : K) ^ e) = n :=
    ⟨(e - ulpExp p qmin ((m : K) * (2 : K) ^ e)).toNat, by omega⟩
  unfold rnd
  have h1 : ((m : K) * (2 : K) ^ e) / 2 ^ ulpExp p qmin ((m : K) * (2 : K) ^ e) = ((m * 2 ^ n : Int) : K) := by
    rw [mul_div_assoc, ← zpow_sub₀ (by norm_num), hn, zpow_natCast]; push_cast; rfl
  rw [h1, roundEven_intCast]
  push_cast
  rw [mul_assoc, ← zpow_natCast, ← hn, ← zpow_add₀ (by norm_num)]
  congr 2; ring

/-- Representable numbers are not changed by rounding. -/
theorem rnd_of_repr (p : Nat) (hp : 1 ≤ p) (qmin : Int) (q : ℚ) (h : Repr' p qmin q) :
    rnd p qmin (q : K) = q := by
  obtain ⟨m, e, hm, he, rfl⟩ := h
  push_cast
  rcases lt_or_eq_of_le hm with hlt | heq
  · exact rnd_repr_aux p qmin m e hlt he
  · -- |m| = 2^p : use 2^(p-1) * 2^(e+1)
    have h2 : (2 : Int) ^ p = 2 ^ (p - 1) * 2 := by rw [← pow_succ]; congr 1; omega
    obtain ⟨s, hs, hms⟩ : ∃ s : Int, |s| = 2 ^ (p - 1) ∧ m = s * 2 := by
      rcases abs_eq (by positivity : (0 : Int) ≤ 2 ^ p) |>.1 heq with h | h
      · exact ⟨2 ^ (p - 1), abs_of_pos (by positivity), by rw [h, h2]⟩
      · exact ⟨-2 ^ (p - 1), by rw [abs_neg, abs_of_pos (by positivity)], by rw [h, h2]; ring⟩
    have := rnd_repr_aux (K := K) p qmin s (e + 1)
      (by rw [hs]; exact pow_lt_pow_right₀ (by norm_num) (by omega)) (by omega)
    rw [zpow_add₀ (by norm_num), zpow_add₀ (by norm_num), zpow_one, zpow_one] at this
    rw [hms]; push_cast
    rw [show (s : K) * 2 * 2 ^ e = s * (2 ^ e * 2) by ring, this]; ring

/-- The result of rounding is representable. -/
theorem repr_rnd (p : Nat) (qmin : Int) (x : K) : Repr' p qmin (rnd p qmin x) := by
  refine ⟨roundEven (x / (2 : K) ^ ulpExp p qmin x), ulpExp p qmin x, ?_, le_max_right _ _, rfl⟩
  rcases eq_or_ne x 0 with h0 | h0
  · subst h0; simp
  have hpos : 0 < |x| := abs_pos.2 h0
  have hx : |x| < 2 ^ (Int.log 2 |x| + 1) := (lt_log_iff hpos _).2 (by omega)
  have hu : Int.log 2 |x| + 1 ≤ p + ulpExp p qmin x := by unfold ulpExp; omega
  have h1 : |x| < 2 ^ ((p : Int) + ulpExp p qmin x) :=
    hx.trans_le (zpow_le_zpow_right₀ (by norm_num) hu)
  rw [zpow_add₀ (by norm_num), zpow_natCast] at h1
  have h2 : |x / (2 : K) ^ ulpExp p qmin x| ≤ ((2 ^ p : Int) : K) := by
    rw [abs_div, abs_of_pos (zpow2_pos (K := K) _), div_le_iff₀ (zpow2_pos _)]; push_cast; exact h1.le
  rw [abs_le] at h2 ⊢
  refine ⟨?_, roundEven_le_int h2.2⟩
  apply int_le_roundEven
  have := h2.1
  push_cast at this ⊢; exact this

theorem rnd_rnd (p : Nat) (hp : 1 ≤ p) (qmin : Int) (x : K) : rnd p qmin (rnd p qmin x) = rnd p qmin x := by
  simpa using rnd_of_repr (K := ℚ) p hp qmin _ (repr_rnd p qmin x)

theorem roundEven_ratCast (q : ℚ) : roundEven (q : K) = roundEven q := by
  have hf : ⌊(q : K)⌋ = ⌊q⌋ := Rat.floor_cast q
  unfold roundEven
  rw [hf]
  have h1 : ((q : K) - (⌊q⌋ : K) < 1 / 2) ↔ (q - (⌊q⌋ : ℚ) < 1 / 2) := by
    rw [← Rat.cast_lt (K := K)]; push_cast; rfl
  have h2 : (1 / 2 < (q : K) - (⌊q⌋ : K)) ↔ (1 / 2 < q - (⌊q⌋ : ℚ)) := by
    rw [← Rat.cast_lt (K := K)]; push_cast; rfl
  simp only [h1, h2]

theorem log_ratCast (q : ℚ) (hq : 0 < q) : Int.log 2 (q : K) = Int.log 2 q := by
  have hq' : (0 : K) < q := by exact_mod_cast hq
  apply le_antisymm
  · rw [← log_le_iff hq]
    have := (log_le_iff hq' _).2 (le_refl (Int.log 2 (q : K)))
    rw [← Rat.cast_le (K := K)]; push_cast; exact this
  · rw [← log_le_iff hq']
    have := (log_le_iff hq _).2 (le_refl (Int.log 2 q))
    rw [← Rat.cast_le (K := K)] at this; push_cast at this; exact this

theorem rnd_ratCast (p : Nat) (qmin : Int) (q : ℚ) : rnd p qmin (q : K) = rnd p qmin q := by
  rcases eq_or_ne q 0 with h0 | h0
  · subst h0; simp
  have hu : ulpExp p qmin (q : K) = ulpExp p qmin q := by
    unfold ulpExp
    rw [← Rat.cast_abs, log_ratCast _ (abs_pos.2 h0)]
  unfold rnd
  rw [hu, ← roundEven_ratCast (K := K) (q / 2 ^ ulpExp p qmin q)]
  push_cast; rfl

/-! ## Square root -/

/-- `math.Sqrt` on a non-negative `float64`: the correctly rounded square root
(`fsqrt64_eq` shows that it is the IEEE rounding of the real square root).
It is computed from the integer square root of the scaled argument; a half marks an inexact root. -/
def fsqrt64 (x : ℚ) : ℚ :=
  if x ≤ 0 then 0
  else
    let k : Nat := 57 + Nat.log 2 x.den
    let n : ℚ := x * 4 ^ k
    let s : Nat := Nat.sqrt ⌊n⌋.toNat
    r64 ((if (s * s : ℚ) = n then (s : ℚ) else (s : ℚ) + 1 / 2) / 2 ^ k)

end Verif.Go
