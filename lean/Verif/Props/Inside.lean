import Verif.Spec.Inside
import Verif.Props.Slice
import Mathlib.Data.ZMod.Basic
import Mathlib.Tactic.Ring
import Mathlib.Tactic.Linarith
import Mathlib.Tactic.FieldSimp
import Mathlib.Tactic.LinearCombination
import Mathlib.Algebra.CharP.Two

/-! # Crossing numbers -/
namespace Verif
open Verif.Model Verif.Go Verif.Spec

/-- The number of crossings of one line, modulo 2. -/
def cross2 (q a b : ℚ × ℚ) : ZMod 2 := if RayCrosses q a b then 1 else 0

/-- 1 for points above the ray. -/
def above2 (q p : ℚ × ℚ) : ZMod 2 := if q.2 < p.2 then 1 else 0

theorem cross2_symm (q a b : ℚ × ℚ) : cross2 q a b = cross2 q b a := by
  have : RayCrosses q a b ↔ RayCrosses q b a := by
    unfold RayCrosses
    rw [iff_comm (a := q.2 < a.2)]
    refine and_congr_right fun h => ?_
    have hne : a.2 ≠ b.2 := by rintro e; exact h (by rw [e])
    have h1 : b.2 - a.2 ≠ 0 := sub_ne_zero.2 hne.symm
    have h2 : a.2 - b.2 ≠ 0 := sub_ne_zero.2 hne
    have : a.1 + (b.1 - a.1) * (q.2 - a.2) / (b.2 - a.2) = b.1 + (a.1 - b.1) * (q.2 - b.2) / (a.2 - b.2) := by
      field_simp
      ring
    rw [this]
  unfold cross2
  simp only [this]

theorem cross2_self (q a : ℚ × ℚ) : cross2 q a a = 0 := by
  unfold cross2 RayCrosses
  simp

/-- Half of the plane, not with `q` in it. -/
def Side (u v : ℚ) (q p : ℚ × ℚ) : Prop := 0 < u * (p.1 - q.1) + v * (p.2 - q.2)

theorem cross2_side {u v : ℚ} {q a b : ℚ × ℚ} (ha : Side u v q a) (hb : Side u v q b) : cross2 q a b = if 0 ≤ u then above2 q a + above2 q b else 0 := by
  unfold Side at ha hb
  by_cases hc : q.2 < a.2 ↔ q.2 < b.2
  · have : ¬ RayCrosses q a b := fun h => h.1 hc
    unfold cross2 above2
    rw [if_neg this]
    by_cases h1 : q.2 < a.2
    · rw [if_pos h1, if_pos (hc.1 h1)]
      split <;> rfl
    · rw [if_neg h1, if_neg (fun h => h1 (hc.2 h))]
      split <;> rfl
  · have hd : b.2 - a.2 ≠ 0 := fun e => hc (by rw [sub_eq_zero.1 e])
    -- the crossing point is on the same side
    have key : 0 < u * (a.1 + (b.1 - a.1) * (q.2 - a.2) / (b.2 - a.2) - q.1) := by
      have e : u * (a.1 + (b.1 - a.1) * (q.2 - a.2) / (b.2 - a.2) - q.1) =
          ((b.2 - q.2) * (u * (a.1 - q.1) + v * (a.2 - q.2)) + (q.2 - a.2) * (u * (b.1 - q.1) + v * (b.2 - q.2))) / (b.2 - a.2) := by
        field_simp
        ring
      rw [e]
      by_cases h1 : q.2 < a.2
      · have h2 : b.2 ≤ q.2 := not_lt.1 fun h => hc ⟨fun _ => h, fun _ => h1⟩
        apply div_pos_of_neg_of_neg
        · have := mul_pos (show 0 < a.2 - q.2 by linarith) hb
          have := mul_nonneg (show 0 ≤ q.2 - b.2 by linarith) ha.le
          linarith
        · linarith
      · have h2 : q.2 < b.2 := by
          by_contra h
          exact hc ⟨fun h' => absurd h' h1, fun h' => absurd h' h⟩
        apply div_pos
        · have := mul_pos (show 0 < b.2 - q.2 by linarith) ha
          have := mul_nonneg (show 0 ≤ q.2 - a.2 by linarith [not_lt.1 h1]) hb.le
          linarith
        · linarith [not_lt.1 h1]
    have hab : above2 q a + above2 q b = 1 := by
      unfold above2
      by_cases h1 : q.2 < a.2
      · have : ¬ q.2 < b.2 := fun h => hc ⟨fun _ => h, fun _ => h1⟩
        rw [if_pos h1, if_neg this]; rfl
      · have : q.2 < b.2 := by
          by_contra h
          exact hc ⟨fun h' => absurd h' h1, fun h' => absurd h' h⟩
        rw [if_neg h1, if_pos this]; rfl
    unfold cross2
    rw [hab]
    by_cases hu : 0 ≤ u
    · have : RayCrosses q a b := ⟨hc, by
        have := (pos_iff_pos_of_mul_pos key).1 (lt_of_le_of_ne hu (by rintro rfl; simp at key))
        linarith⟩
      rw [if_pos this, if_pos hu]
    · have : ¬ RayCrosses q a b := fun h => by
        have h2 := h.2
        have := mul_pos_of_neg_of_neg (not_le.1 hu) (neg_lt_zero.2 (show 0 < a.1 + (b.1 - a.1) * (q.2 - a.2) / (b.2 - a.2) - q.1 by linarith))
        linarith
      rw [if_neg this, if_neg hu]

/-- Three points on one side. -/
theorem cross2_tri {u v : ℚ} {q a b c : ℚ × ℚ} (ha : Side u v q a) (hb : Side u v q b) (hc : Side u v q c) :
    cross2 q a b + cross2 q b c = cross2 q a c := by
  rw [cross2_side ha hb, cross2_side hb hc, cross2_side ha hc]
  split
  · have : above2 q b + above2 q b = 0 := CharTwo.add_self_eq_zero _
    linear_combination this
  · simp

/-! ## Distances -/

theorem inner_le {x1 x2 y1 y2 d e : ℚ} (hd : 0 ≤ d) (he : 0 ≤ e) (h1 : x1 ^ 2 + x2 ^ 2 ≤ d ^ 2) (h2 : y1 ^ 2 + y2 ^ 2 ≤ e ^ 2) : |x1 * y1 + x2 * y2| ≤ d * e := by
  apply abs_le_of_sq_le_sq _ (mul_nonneg hd he)
  have : (x1 * y1 + x2 * y2) ^ 2 + (x1 * y2 - x2 * y1) ^ 2 = (x1 ^ 2 + x2 ^ 2) * (y1 ^ 2 + y2 ^ 2) := by ring
  have h3 := mul_le_mul h1 h2 (by positivity) (by positivity)
  nlinarith [sq_nonneg (x1 * y2 - x2 * y1)]

theorem _root_.Verif.Spec.NearPt.trans {d e : ℚ} {p q r : ℚ × ℚ} (h1 : NearPt d p q) (h2 : NearPt e q r) : NearPt (d + e) p r := by
  refine ⟨add_nonneg h1.1 h2.1, ?_⟩
  have h := (abs_le.1 (inner_le h1.1 h2.1 h1.2 h2.2)).2
  have e : (p.1 - r.1) ^ 2 + (p.2 - r.2) ^ 2 = ((p.1 - q.1) ^ 2 + (p.2 - q.2) ^ 2) + ((q.1 - r.1) ^ 2 + (q.2 - r.2) ^ 2) +
    2 * ((p.1 - q.1) * (q.1 - r.1) + (p.2 - q.2) * (q.2 - r.2)) := by ring
  rw [e]
  nlinarith [h1.2, h2.2]

theorem _root_.Verif.Spec.NearPt.symm {d : ℚ} {p q : ℚ × ℚ} (h : NearPt d p q) : NearPt d q p := ⟨h.1, by have := h.2; nlinarith⟩

theorem _root_.Verif.Spec.NearPt.mono {d e : ℚ} {p q : ℚ × ℚ} (h : NearPt d p q) (hde : d ≤ e) : NearPt e p q :=
  ⟨h.1.trans hde, h.2.trans (pow_le_pow_left₀ h.1 hde 2)⟩

theorem _root_.Verif.Spec.NearPt.refl {d : ℚ} (hd : 0 ≤ d) (p : ℚ × ℚ) : NearPt d p p := ⟨hd, by simp; positivity⟩

theorem farFrom_mono {d e : ℚ} {a b q : ℚ × ℚ} (h : FarFrom d a b q) (he : 0 ≤ e) (hde : e ≤ d) : FarFrom e a b q :=
  fun t h0 h1 => lt_of_le_of_lt (pow_le_pow_left₀ he hde 2) (h t h0 h1)

theorem farFrom_left {d : ℚ} {a b q : ℚ × ℚ} (h : FarFrom d a b q) : FarFrom d a a q := by
  intro t _ _
  have := h 0 le_rfl zero_le_one
  simpa using this

/-- The nearest point of a line. -/
theorem nearest (a b q : ℚ × ℚ) : ∃ s, 0 ≤ s ∧ s ≤ 1 ∧ ∀ t, 0 ≤ t → t ≤ 1 →
    ((lineAt a b s).1 - q.1) ^ 2 + ((lineAt a b s).2 - q.2) ^ 2 ≤
      ((lineAt a b s).1 - q.1) * ((lineAt a b t).1 - q.1) + ((lineAt a b s).2 - q.2) * ((lineAt a b t).2 - q.2) := by
  -- it suffices that the derivative has the right sign
  suffices h : ∃ s, 0 ≤ s ∧ s ≤ 1 ∧ ∀ t, 0 ≤ t → t ≤ 1 → 0 ≤ (t - s) * (((lineAt a b s).1 - q.1) * (b.1 - a.1) + ((lineAt a b s).2 - q.2) * (b.2 - a.2)) by
    obtain ⟨s, h0, h1, h⟩ := h
    refine ⟨s, h0, h1, fun t ht0 ht1 => ?_⟩
    have := h t ht0 ht1
    unfold lineAt at *
    simp only at *
    nlinarith
  have hB : 0 ≤ (b.1 - a.1) ^ 2 + (b.2 - a.2) ^ 2 := by positivity
  rcases hB.eq_or_lt with hz | hpos
  · refine ⟨0, le_rfl, zero_le_one, fun t ht0 ht1 => ?_⟩
    have h1 : b.1 - a.1 = 0 := by nlinarith [sq_nonneg (b.1 - a.1), sq_nonneg (b.2 - a.2)]
    have h2 : b.2 - a.2 = 0 := by nlinarith [sq_nonneg (b.1 - a.1), sq_nonneg (b.2 - a.2)]
    rw [h1, h2]
    simp
  · -- the derivative at s is N + s * B
    have key : ∀ s, ((lineAt a b s).1 - q.1) * (b.1 - a.1) + ((lineAt a b s).2 - q.2) * (b.2 - a.2) =
        ((a.1 - q.1) * (b.1 - a.1) + (a.2 - q.2) * (b.2 - a.2)) + s * ((b.1 - a.1) ^ 2 + (b.2 - a.2) ^ 2) := by
      intro s; unfold lineAt; ring
    simp only [key]
    generalize (a.1 - q.1) * (b.1 - a.1) + (a.2 - q.2) * (b.2 - a.2) = N
    generalize (b.1 - a.1) ^ 2 + (b.2 - a.2) ^ 2 = B at *
    by_cases hN : 0 ≤ N
    · refine ⟨0, le_rfl, zero_le_one, fun t ht0 ht1 => ?_⟩
      have := mul_nonneg ht0 hN
      linarith
    · by_cases hNB : N + B ≤ 0
      · refine ⟨1, zero_le_one, le_rfl, fun t ht0 ht1 => ?_⟩
        have := mul_nonneg (show 0 ≤ 1 - t by linarith) (show 0 ≤ -(N + B) by linarith)
        linarith
      · refine ⟨-N / B, div_nonneg (by linarith) hpos.le, (div_le_one hpos).2 (by linarith), fun t ht0 ht1 => ?_⟩
        have : N + -N / B * B = 0 := by field_simp; ring
        rw [this, mul_zero]

/-- A point which is farther than `d` from a line is separated from everything within the distance `d` of the line. -/
theorem separated {d : ℚ} {a b q : ℚ × ℚ} (h : FarFrom d a b q) :
    ∃ u v, ∀ p t, 0 ≤ t → t ≤ 1 → NearPt d p (lineAt a b t) → Side u v q p := by
  obtain ⟨s, h0, h1, hs⟩ := nearest a b q
  refine ⟨(lineAt a b s).1 - q.1, (lineAt a b s).2 - q.2, fun p t ht0 ht1 hp => ?_⟩
  have hn := h s h0 h1
  have hn : d ^ 2 < ((lineAt a b s).1 - q.1) ^ 2 + ((lineAt a b s).2 - q.2) ^ 2 := hn
  have ht := hs t ht0 ht1
  unfold Side
  generalize (lineAt a b s).1 - q.1 = n1 at *
  generalize (lineAt a b s).2 - q.2 = n2 at *
  generalize lineAt a b t = x at *
  obtain ⟨hd, hp⟩ := hp
  have hpos : 0 < n1 ^ 2 + n2 ^ 2 := lt_of_le_of_lt (by positivity) hn
  -- |n · (p - x)| < |n|²
  have hlt : |n1 * (p.1 - x.1) + n2 * (p.2 - x.2)| < n1 ^ 2 + n2 ^ 2 := by
    apply abs_lt_of_sq_lt_sq _ hpos.le
    have e : (n1 * (p.1 - x.1) + n2 * (p.2 - x.2)) ^ 2 + (n1 * (p.2 - x.2) - n2 * (p.1 - x.1)) ^ 2 = (n1 ^ 2 + n2 ^ 2) * ((p.1 - x.1) ^ 2 + (p.2 - x.2) ^ 2) := by ring
    have h2 := mul_lt_mul_of_pos_left (lt_of_le_of_lt hp hn) hpos
    nlinarith [sq_nonneg (n1 * (p.2 - x.2) - n2 * (p.1 - x.1))]
  have := (abs_lt.1 hlt).1
  nlinarith

end Verif
