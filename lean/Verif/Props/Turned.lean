import Verif.Props.CrossSection
import Verif.Spec.Accuracy

/-! # The points enclosed by a turned path

The ray of `Encloses` has the direction of the x axis. For points which are not on the path, the direction does not matter, so linear maps keep what is enclosed. -/
namespace Verif
open Verif.Model Verif.Go Verif.Spec

/-! ## Sums along closed paths -/

/-- The sides of a closed path of any points. -/
def ringSides {α : Type} (l : List α) : List (α × α) := l.zip (l.rotate 1)

theorem ringSides_map {α β : Type} (f : α → β) (l : List α) : ringSides (l.map f) = (ringSides l).map fun s => (f s.1, f s.2) := by
  unfold ringSides
  rw [← List.map_rotate, List.zip_map]
  rfl

/-- The sum of a function over the first points of the sides, and over the second points. -/
theorem ringSides_sum {α : Type} (h : α → ZMod 2) (l : List α) : ((ringSides l).map fun s => h s.1 + h s.2).sum = 0 := by
  have h1 : (ringSides l).map (fun s => h s.1) = l.map h := by
    have : (ringSides l).map Prod.fst = l := by unfold ringSides; rw [List.map_fst_zip]; simp
    rw [← this, List.map_map, this]
    rfl
  have h2 : (ringSides l).map (fun s => h s.2) = (l.rotate 1).map h := by
    have : (ringSides l).map Prod.snd = l.rotate 1 := by unfold ringSides; rw [List.map_snd_zip]; simp
    rw [← this, List.map_map]
    rfl
  rw [List.sum_map_add, h1, h2, ((List.rotate_perm l 1).map h).sum_eq]
  exact CharTwo.add_self_eq_zero _

/-- Two sums along a closed path are equal if the difference on each side is a difference of values for the points. -/
theorem ringSides_same {α : Type} {g g' : α × α → ZMod 2} (h : α → ZMod 2) {l : List α} (hs : ∀ s ∈ ringSides l, g s = g' s + (h s.1 + h s.2)) :
    ((ringSides l).map g).sum = ((ringSides l).map g').sum := by
  rw [List.map_congr_left hs, List.sum_map_add, ringSides_sum, add_zero]

/-- The number of crossings of a closed path of points of the plane, modulo 2. -/
def ringCross (q : ℚ × ℚ) (l : List (ℚ × ℚ)) : ZMod 2 := ((ringSides l).map fun s => cross2 q s.1 s.2).sum

theorem pathCross_ring (q : ℚ × ℚ) (p : Path) : pathCross q p = ringCross q (p.map exactPt) := by
  unfold ringCross pathCross
  rw [ringSides_map, List.map_map]
  rfl

/-- The point is not on the path. -/
def OffRing (q : ℚ × ℚ) (l : List (ℚ × ℚ)) : Prop := ∀ s ∈ ringSides l, ¬ OnSegment s.1 s.2 q

/-! ## Linear maps -/

/-- A linear map. -/
def lin (a b c d : ℚ) (p : ℚ × ℚ) : ℚ × ℚ := (a * p.1 + b * p.2, c * p.1 + d * p.2)

theorem lin_lineAt (a b c d : ℚ) (p q : ℚ × ℚ) (t : ℚ) : lin a b c d (lineAt p q t) = lineAt (lin a b c d p) (lin a b c d q) t := by
  unfold lin lineAt
  ext <;> simp only <;> ring

/-- The map keeps what paths enclose. -/
def KeepsRings (T : ℚ × ℚ → ℚ × ℚ) : Prop := ∀ l q, OffRing q l → OffRing (T q) (l.map T) ∧ ringCross (T q) (l.map T) = ringCross q l

theorem KeepsRings.comp {T U : ℚ × ℚ → ℚ × ℚ} (hT : KeepsRings T) (hU : KeepsRings U) : KeepsRings (T ∘ U) := by
  intro l q h
  obtain ⟨h1, h2⟩ := hU l q h
  obtain ⟨h3, h4⟩ := hT _ _ h1
  rw [List.map_map] at h3 h4
  exact ⟨h3, h4.trans h2⟩

theorem off_lin {a b c d : ℚ} (hd : a * d - b * c ≠ 0) {l : List (ℚ × ℚ)} {q : ℚ × ℚ} (h : OffRing q l) : OffRing (lin a b c d q) (l.map (lin a b c d)) := by
  intro s hs
  rw [ringSides_map] at hs
  obtain ⟨s', hs', rfl⟩ := List.mem_map.1 hs
  rintro ⟨t, h0, h1, he⟩
  refine h s' hs' ⟨t, h0, h1, ?_⟩
  rw [← lin_lineAt] at he
  generalize lineAt s'.1 s'.2 t = r at he ⊢
  obtain ⟨e1, e2⟩ := Prod.ext_iff.1 he
  simp only [lin] at e1 e2
  ext
  · apply mul_left_cancel₀ hd
    linear_combination d * e1 - b * e2
  · apply mul_left_cancel₀ hd
    linear_combination a * e2 - c * e1

theorem keeps_of_sides {a b c d : ℚ} (hd : a * d - b * c ≠ 0) (h : ∀ q, ∃ f : ℚ × ℚ → ZMod 2, ∀ p p', ¬ OnSegment p p' q →
    cross2 (lin a b c d q) (lin a b c d p) (lin a b c d p') = cross2 q p p' + (f p + f p')) : KeepsRings (lin a b c d) := by
  intro l q hq
  refine ⟨off_lin hd hq, ?_⟩
  obtain ⟨f, hf⟩ := h q
  unfold ringCross
  rw [ringSides_map, List.map_map]
  exact ringSides_same f fun s hs => hf s.1 s.2 (hq s hs)

theorem cross2_congr {q a b q' a' b' : ℚ × ℚ} (h : RayCrosses q' a' b' ↔ RayCrosses q a b) : cross2 q' a' b' = cross2 q a b := by
  unfold cross2
  simp only [h]

/-- Shearing along the ray. -/
theorem keeps_shear (k : ℚ) : KeepsRings (lin 1 k 0 1) := by
  refine keeps_of_sides (by norm_num) fun q => ⟨0, fun p p' _ => ?_⟩
  simp only [Pi.zero_apply, add_zero]
  refine cross2_congr ?_
  unfold RayCrosses lin
  simp only [zero_mul, one_mul, zero_add]
  refine and_congr_right fun h => ?_
  have hne : p'.2 - p.2 ≠ 0 := fun e => h (by rw [sub_eq_zero.1 e])
  have : p.1 + k * p.2 + (p'.1 + k * p'.2 - (p.1 + k * p.2)) * (q.2 - p.2) / (p'.2 - p.2) = p.1 + (p'.1 - p.1) * (q.2 - p.2) / (p'.2 - p.2) + k * q.2 := by
    field_simp
    ring
  rw [this]
  constructor <;> intro h <;> linarith

/-- Scaling of the axes. -/
theorem keeps_scale {a d : ℚ} (ha : 0 < a) (hd : 0 < d) : KeepsRings (lin a 0 0 d) := by
  refine keeps_of_sides (by simp [ha.ne', hd.ne']) fun q => ⟨0, fun p p' _ => ?_⟩
  simp only [Pi.zero_apply, add_zero]
  refine cross2_congr ?_
  unfold RayCrosses lin
  simp only [zero_mul, zero_add, add_zero, mul_lt_mul_iff_right₀ hd]
  refine and_congr_right fun h => ?_
  have hne : p'.2 - p.2 ≠ 0 := fun e => h (by rw [sub_eq_zero.1 e])
  have : a * p.1 + (a * p'.1 - a * p.1) * (d * q.2 - d * p.2) / (d * p'.2 - d * p.2) = a * (p.1 + (p'.1 - p.1) * (q.2 - p.2) / (p'.2 - p.2)) := by
    rw [← mul_sub, ← mul_sub, ← mul_sub]
    field_simp
  rw [this, mul_lt_mul_iff_right₀ ha]

/-- Where a line meets the height of a point. -/
theorem meets_height {q a b : ℚ × ℚ} (h : ¬ (q.2 < a.2 ↔ q.2 < b.2)) : ∃ t, 0 ≤ t ∧ t ≤ 1 ∧
    lineAt a b t = (a.1 + (b.1 - a.1) * (q.2 - a.2) / (b.2 - a.2), q.2) := by
  have hne : b.2 - a.2 ≠ 0 := fun e => h (by rw [sub_eq_zero.1 e])
  refine ⟨(q.2 - a.2) / (b.2 - a.2), ?_, ?_, ?_⟩
  · by_cases h1 : q.2 < a.2
    · have h2 : b.2 ≤ q.2 := not_lt.1 fun h2 => h ⟨fun _ => h2, fun _ => h1⟩
      exact div_nonneg_of_nonpos (by linarith) (by linarith)
    · have h2 : q.2 < b.2 := by_contra fun h2 => h ⟨fun h3 => absurd h3 h1, fun h3 => absurd h3 h2⟩
      exact div_nonneg (by linarith [not_lt.1 h1]) (by linarith [not_lt.1 h1])
  · by_cases h1 : q.2 < a.2
    · have h2 : b.2 ≤ q.2 := not_lt.1 fun h2 => h ⟨fun _ => h2, fun _ => h1⟩
      rw [div_le_one_of_neg (by linarith)]
      linarith
    · have h2 : q.2 < b.2 := by_contra fun h2 => h ⟨fun h3 => absurd h3 h1, fun h3 => absurd h3 h2⟩
      rw [div_le_one (by linarith [not_lt.1 h1])]
      linarith
  · unfold lineAt
    ext <;> simp only <;> field_simp
    ring

/-- The opposite direction of the ray. -/
theorem keeps_mirror : KeepsRings (lin (-1) 0 0 1) := by
  refine keeps_of_sides (by norm_num) fun q => ⟨above2 q, fun p p' hoff => ?_⟩
  by_cases hc : q.2 < p.2 ↔ q.2 < p'.2
  · have e : above2 q p = above2 q p' := by unfold above2; simp only [hc]
    have h1 : ¬ RayCrosses q p p' := fun h => h.1 hc
    have h2 : ¬ RayCrosses (lin (-1) 0 0 1 q) (lin (-1) 0 0 1 p) (lin (-1) 0 0 1 p') := fun h => h.1 (by simpa [lin] using hc)
    unfold cross2
    rw [if_neg h1, if_neg h2, e, CharTwo.add_self_eq_zero, add_zero]
  · have e : above2 q p + above2 q p' = 1 := by
      unfold above2
      by_cases h1 : q.2 < p.2
      · rw [if_pos h1, if_neg fun h => hc ⟨fun _ => h, fun _ => h1⟩]; rfl
      · rw [if_neg h1, if_pos (by_contra fun h => hc ⟨fun h3 => absurd h3 h1, fun h3 => absurd h3 h⟩)]; rfl
    have hne : p.1 + (p'.1 - p.1) * (q.2 - p.2) / (p'.2 - p.2) ≠ q.1 := by
      intro he
      obtain ⟨t, h0, h1, ht⟩ := meets_height hc
      exact hoff ⟨t, h0, h1, by rw [ht, he]⟩
    have h2 : RayCrosses (lin (-1) 0 0 1 q) (lin (-1) 0 0 1 p) (lin (-1) 0 0 1 p') ↔ ¬ RayCrosses q p p' := by
      unfold RayCrosses lin
      simp only [zero_mul, one_mul, zero_add, add_zero, hc, not_false_eq_true, true_and, not_lt]
      have : -1 * p.1 + (-1 * p'.1 - -1 * p.1) * (q.2 - p.2) / (p'.2 - p.2) = -(p.1 + (p'.1 - p.1) * (q.2 - p.2) / (p'.2 - p.2)) := by ring
      rw [this, neg_one_mul, neg_lt_neg_iff]
      exact ⟨le_of_lt, fun h => lt_of_le_of_ne h hne⟩
    rw [e]
    unfold cross2
    by_cases h : RayCrosses q p p'
    · rw [if_pos h, if_neg (by rw [h2]; exact not_not.2 h)]; rfl
    · rw [if_neg h, if_pos (h2.2 h)]; rfl

/-- 1 for points above and right of `q`. -/
def corner2 (q p : ℚ × ℚ) : ZMod 2 := if q.1 < p.1 ∧ q.2 < p.2 then 1 else 0

/-- A line which does not pass through `q` meets the border of the quadrant above and right of `q` once if exactly one of its ends is in the quadrant. -/
theorem keeps_swap : KeepsRings (lin 0 1 1 0) := by
  refine keeps_of_sides (by norm_num) fun q => ⟨corner2 q, fun p p' hoff => ?_⟩
  have key : (RayCrosses (lin 0 1 1 0 q) (lin 0 1 1 0 p) (lin 0 1 1 0 p') ↔ RayCrosses q p p') ↔
      ((q.1 < p.1 ∧ q.2 < p.2) ↔ (q.1 < p'.1 ∧ q.2 < p'.2)) := by
    unfold RayCrosses lin
    simp only [zero_mul, one_mul, zero_add, add_zero]
    by_cases hy : q.2 < p.2 ↔ q.2 < p'.2
    · by_cases hx : q.1 < p.1 ↔ q.1 < p'.1
      · simp only [hx, hy, not_true_eq_false, false_and]
      · -- the line crosses the vertical line only
        simp only [hy, not_true_eq_false, false_and, iff_false, hx, not_false_eq_true, true_and]
        obtain ⟨t, h0, h1, ht⟩ := meets_height (q := (q.2, q.1)) (a := (p.2, p.1)) (b := (p'.2, p'.1)) hx
        have ht := (Prod.ext_iff.1 ht).1
        simp only [lineAt] at ht
        rw [← ht]
        by_cases h2 : q.2 < p'.2
        · have h3 := hy.2 h2
          have : q.2 < p.2 + t * (p'.2 - p.2) := by
            rcases h0.eq_or_lt with rfl | h0
            · simpa using h3
            · nlinarith [mul_pos h0 (sub_pos.2 h2), mul_nonneg (sub_nonneg.2 h1) (sub_pos.2 h3).le]
          simp only [this, h2, and_true, not_true_eq_false, hx]
        · have h3 : ¬ q.2 < p.2 := fun h => h2 (hy.1 h)
          have : ¬ q.2 < p.2 + t * (p'.2 - p.2) := by
            rw [not_lt] at *
            nlinarith [mul_nonneg h0 (sub_nonneg.2 h2), mul_nonneg (sub_nonneg.2 h1) (sub_nonneg.2 h3)]
          simp only [this, h2, and_false, not_false_eq_true]
    · by_cases hx : q.1 < p.1 ↔ q.1 < p'.1
      · simp only [hx, hy, not_true_eq_false, false_and, false_iff, not_false_eq_true, true_and]
        obtain ⟨t, h0, h1, ht⟩ := meets_height hy
        have ht := (Prod.ext_iff.1 ht).1
        simp only [lineAt] at ht
        rw [← ht]
        by_cases h2 : q.1 < p'.1
        · have h3 := hx.2 h2
          have : q.1 < p.1 + t * (p'.1 - p.1) := by
            rcases h0.eq_or_lt with rfl | h0
            · simpa using h3
            · nlinarith [mul_pos h0 (sub_pos.2 h2), mul_nonneg (sub_nonneg.2 h1) (sub_pos.2 h3).le]
          simp only [this, h2, true_and, not_true_eq_false, hy]
        · have h3 : ¬ q.1 < p.1 := fun h => h2 (hx.1 h)
          have : ¬ q.1 < p.1 + t * (p'.1 - p.1) := by
            rw [not_lt] at *
            nlinarith [mul_nonneg h0 (sub_nonneg.2 h2), mul_nonneg (sub_nonneg.2 h1) (sub_nonneg.2 h3)]
          simp only [this, h2, false_and, not_false_eq_true]
      · -- both are crossed
        simp only [hx, hy, not_false_eq_true, true_and]
        have hne : p.1 + (p'.1 - p.1) * (q.2 - p.2) / (p'.2 - p.2) ≠ q.1 := by
          intro he
          obtain ⟨t, h0, h1, ht⟩ := meets_height hy
          exact hoff ⟨t, h0, h1, by rw [ht, he]⟩
        have hdy : p'.2 - p.2 ≠ 0 := fun e => hy (by rw [sub_eq_zero.1 e])
        have hdx : p'.1 - p.1 ≠ 0 := fun e => hx (by rw [sub_eq_zero.1 e])
        have ex : p.1 + (p'.1 - p.1) * (q.2 - p.2) / (p'.2 - p.2) - q.1 = ((p'.1 - p.1) * (q.2 - p.2) - (q.1 - p.1) * (p'.2 - p.2)) / (p'.2 - p.2) := by
          field_simp
          ring
        have ey : p.2 + (p'.2 - p.2) * (q.1 - p.1) / (p'.1 - p.1) - q.2 = -((p'.1 - p.1) * (q.2 - p.2) - (q.1 - p.1) * (p'.2 - p.2)) / (p'.1 - p.1) := by
          field_simp
          ring
        rw [← sub_ne_zero, ex] at hne
        rw [← sub_pos (b := q.2), ← sub_pos (b := q.1), ex, ey]
        have hD := (div_ne_zero_iff.1 hne).1
        generalize (p'.1 - p.1) * (q.2 - p.2) - (q.1 - p.1) * (p'.2 - p.2) = D at *
        rw [div_pos_iff, div_pos_iff, neg_pos, neg_neg_iff_pos, sub_pos, sub_neg, sub_pos, sub_neg]
        have order : ∀ u v w : ℚ, ¬ (u < v ↔ u < w) → (v < w ↔ u < w) ∧ (w < v ↔ u < v) := by
          intro u v w h
          by_cases h1 : u < v <;> by_cases h2 : u < w <;> simp only [h1, h2, iff_self, not_true_eq_false] at h
          · simp only [h1, h2, iff_false, iff_true, not_lt]; rw [not_lt] at h2; constructor <;> linarith
          · simp only [h1, h2, iff_false, iff_true, not_lt]; rw [not_lt] at h1; constructor <;> linarith
        obtain ⟨o1, o2⟩ := order _ _ _ hx
        obtain ⟨o3, o4⟩ := order _ _ _ hy
        rw [o1, o2, o3, o4]
        rcases lt_or_gt_of_ne hD with hD | hD
        · simp only [hD, hD.not_gt]
          clear order o1 o2 o3 o4 ex ey hne hdx hdy hD hoff
          by_cases a1 : q.1 < p.1 <;> by_cases a2 : q.1 < p'.1 <;> by_cases a3 : q.2 < p.2 <;> by_cases a4 : q.2 < p'.2 <;> simp [a1, a2, a3, a4] at hx hy ⊢
        · simp only [hD, hD.not_gt]
          clear order o1 o2 o3 o4 ex ey hne hdx hdy hD hoff
          by_cases a1 : q.1 < p.1 <;> by_cases a2 : q.1 < p'.1 <;> by_cases a3 : q.2 < p.2 <;> by_cases a4 : q.2 < p'.2 <;> simp [a1, a2, a3, a4] at hx hy ⊢
  unfold cross2 corner2
  by_cases k1 : q.1 < p.1 ∧ q.2 < p.2 <;> by_cases k2 : q.1 < p'.1 ∧ q.2 < p'.2 <;> by_cases k3 : RayCrosses q p p' <;>
    by_cases k4 : RayCrosses (lin 0 1 1 0 q) (lin 0 1 1 0 p) (lin 0 1 1 0 p') <;> simp only [k1, k2, k3, k4, and_self, iff_true, iff_false, iff_self, not_true_eq_false] at key ⊢ <;> decide

/-- Turning by half a turn. -/
theorem keeps_opposite : KeepsRings (lin (-1) 0 0 (-1)) := by
  have : lin (-1) 0 0 (-1) = lin (-1) 0 0 1 ∘ lin 0 1 1 0 ∘ lin (-1) 0 0 1 ∘ lin 0 1 1 0 := by
    funext p; unfold lin; ext <;> simp
  rw [this]
  exact keeps_mirror.comp (keeps_swap.comp (keeps_mirror.comp keeps_swap))

/-- Shearing across the ray. -/
theorem keeps_shear' (k : ℚ) : KeepsRings (lin 1 0 k 1) := by
  have : lin 1 0 k 1 = lin 0 1 1 0 ∘ lin 1 k 0 1 ∘ lin 0 1 1 0 := by
    funext p; unfold lin; ext <;> simp; ring
  rw [this]
  exact keeps_swap.comp ((keeps_shear k).comp keeps_swap)

/-- Rotations, also with a scale. -/
theorem keeps_turn {c s : ℚ} (h : 0 < c ^ 2 + s ^ 2) : KeepsRings (lin c (-s) s c) := by
  have pos : ∀ {c s : ℚ}, 0 < c → KeepsRings (lin c (-s) s c) := by
    intro c s hc
    have : lin c (-s) s c = lin 1 0 (s / c) 1 ∘ lin c 0 0 ((c ^ 2 + s ^ 2) / c) ∘ lin 1 (-s / c) 0 1 := by
      funext p; unfold lin; ext <;> simp <;> field_simp; ring
    rw [this]
    exact (keeps_shear' _).comp ((keeps_scale hc (by positivity)).comp (keeps_shear _))
  have neg : ∀ {c s : ℚ}, KeepsRings (lin (-c) (- -s) (-s) (-c)) → KeepsRings (lin c (-s) s c) := by
    intro c s h
    have : lin c (-s) s c = lin (-1) 0 0 (-1) ∘ lin (-c) (- -s) (-s) (-c) := by
      funext p; unfold lin; ext <;> simp <;> ring
    rw [this]
    exact keeps_opposite.comp h
  have quarter : ∀ {s : ℚ}, 0 < s → KeepsRings (lin 0 (-s) s 0) := by
    intro s hs
    have : lin 0 (-s) s 0 = lin s 0 0 s ∘ lin (-1) 0 0 1 ∘ lin 0 1 1 0 := by
      funext p; unfold lin; ext <;> simp
    rw [this]
    exact (keeps_scale hs hs).comp (keeps_mirror.comp keeps_swap)
  rcases lt_trichotomy c 0 with hc | rfl | hc
  · exact neg (pos (by linarith))
  · rcases lt_trichotomy s 0 with hs | rfl | hs
    · have := quarter (s := -s) (by linarith)
      exact neg (by simpa using this)
    · norm_num at h
    · exact quarter hs
  · exact pos hc

/-- Moved points: a path and one whose points are near enclose the same, except near the path. -/
theorem ringCross_near {α : Type} {l : List α} {f g : α → ℚ × ℚ} {q : ℚ × ℚ} {d : ℚ} (hn : ∀ x ∈ l, NearPt d (g x) (f x))
    (hf : ∀ s ∈ ringSides l, FarFrom d (f s.1) (f s.2) q) : ringCross q (l.map g) = ringCross q (l.map f) := by
  unfold ringCross
  rw [ringSides_map, ringSides_map, List.map_map, List.map_map]
  refine ringSides_same (fun x => cross2 q (g x) (f x)) fun s hs => ?_
  obtain ⟨u, v, hside⟩ := separated (hf s hs)
  have hm := List.of_mem_zip hs
  have hm2 : s.2 ∈ l := (List.mem_rotate.1 hm.2)
  have hd := (hn _ hm.1).1
  have s1 : Side u v q (f s.1) := hside _ 0 le_rfl zero_le_one (by rw [lineAt_zero]; exact NearPt.refl hd _)
  have s2 : Side u v q (f s.2) := hside _ 1 zero_le_one le_rfl (by rw [lineAt_one]; exact NearPt.refl hd _)
  have s3 : Side u v q (g s.1) := hside _ 0 le_rfl zero_le_one (by rw [lineAt_zero]; exact hn _ hm.1)
  have s4 : Side u v q (g s.2) := hside _ 1 zero_le_one le_rfl (by rw [lineAt_one]; exact hn _ hm2)
  simp only [Function.comp]
  have e1 := cross2_tri s3 s1 s2
  have e2 := cross2_tri s3 s2 s4
  rw [← e2, ← e1, cross2_symm q (f s.2) (g s.2)]
  ring

end Verif
