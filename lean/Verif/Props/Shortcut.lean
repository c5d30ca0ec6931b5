import Verif.Props.Turned
import Verif.Props.MachineSimplify
import Verif.Props.Area
import Verif.Props.Polyline

/-! # Removed corners -/
namespace Verif
open Verif.Go Verif.Model Verif.Spec

/-- Every point of the line from `p` to `r` is within `d` of the way from `p` over `v` to `r`. -/
def ShortCut (d : ℚ) (p v r : ℚ × ℚ) : Prop :=
  ∀ t, 0 ≤ t → t ≤ 1 → ∃ s, 0 ≤ s ∧ s ≤ 1 ∧ (NearPt d (lineAt p r t) (lineAt p v s) ∨ NearPt d (lineAt p r t) (lineAt v r s))

theorem far_of_near {D d : ℚ} {a b q w : ℚ × ℚ} {s : ℚ} (hD : 0 ≤ D) (h : FarFrom (D + d) a b q) (h0 : 0 ≤ s) (h1 : s ≤ 1) (hn : NearPt d w (lineAt a b s)) :
    D ^ 2 < (w.1 - q.1) ^ 2 + (w.2 - q.2) ^ 2 := by
  by_contra hc
  have hq : NearPt D q w := ⟨hD, by have := not_lt.1 hc; nlinarith⟩
  have := (hq.trans hn).2
  have h2 := h s h0 h1
  unfold lineAt at this
  nlinarith

theorem shortcut_far {D d : ℚ} {p v r q : ℚ × ℚ} (hs : ShortCut d p v r) (hD : 0 ≤ D) (h1 : FarFrom (D + d) p v q) (h2 : FarFrom (D + d) v r q) : FarFrom D p r q := by
  intro t h0 ht
  have key : D ^ 2 < ((lineAt p r t).1 - q.1) ^ 2 + ((lineAt p r t).2 - q.2) ^ 2 := by
    obtain ⟨s, hs0, hs1, hn | hn⟩ := hs t h0 ht
    · exact far_of_near hD h1 hs0 hs1 hn
    · exact far_of_near hD h2 hs0 hs1 hn
  exact key

/-- Three points of a straight line. -/
theorem cross2_straight {q p v r : ℚ × ℚ} (h : (v.1 - p.1) * (r.2 - p.2) = (v.2 - p.2) * (r.1 - p.1)) : cross2 q p v + cross2 q v r = cross2 q p r := by
  have same : ∀ a b c : ℚ × ℚ, (b.1 - a.1) * (c.2 - a.2) = (b.2 - a.2) * (c.1 - a.1) → ¬(q.2 < a.2 ↔ q.2 < b.2) → (q.2 < b.2 ↔ q.2 < c.2) → cross2 q a b = cross2 q a c := by
    intro a b c hst hab hbc
    have hb : b.2 - a.2 ≠ 0 := fun e => hab (by rw [sub_eq_zero.1 e])
    have hc : c.2 - a.2 ≠ 0 := fun e => hab (by rw [hbc, sub_eq_zero.1 e])
    have hac : ¬(q.2 < a.2 ↔ q.2 < c.2) := by rwa [← hbc]
    have e : (b.1 - a.1) * (q.2 - a.2) / (b.2 - a.2) = (c.1 - a.1) * (q.2 - a.2) / (c.2 - a.2) := by
      rw [div_eq_div_iff hb hc]
      linear_combination (q.2 - a.2) * hst
    unfold cross2 RayCrosses
    simp only [hab, hac, e, not_false_eq_true, true_and]
  have none : ∀ a b : ℚ × ℚ, (q.2 < a.2 ↔ q.2 < b.2) → cross2 q a b = 0 := by
    intro a b hab
    unfold cross2
    rw [if_neg fun hr => hr.1 hab]
  by_cases hpv : q.2 < p.2 ↔ q.2 < v.2
  · rw [none p v hpv, zero_add]
    by_cases hvr : q.2 < v.2 ↔ q.2 < r.2
    · rw [none v r hvr, none p r (hpv.trans hvr)]
    · rw [cross2_symm q v r, cross2_symm q p r]
      refine same r v p (by linear_combination -h) (fun e => hvr e.symm) hpv.symm
  · by_cases hvr : q.2 < v.2 ↔ q.2 < r.2
    · rw [none v r hvr, add_zero]
      exact same p v r h hpv hvr
    · have hpr : q.2 < p.2 ↔ q.2 < r.2 := by
        by_cases a : q.2 < p.2 <;> by_cases b : q.2 < v.2 <;> by_cases c : q.2 < r.2 <;> simp [a, b, c] at hpv hvr ⊢
      rw [none p r hpr, cross2_symm q p v, same v p r (by linear_combination -h) (fun e => hpv e.symm) hpr]
      exact CharTwo.add_self_eq_zero _

/-- A point outside of a triangle. -/
theorem side_of_corner {q a b c : ℚ × ℚ}
    (h : ((b.1 - a.1) * (c.2 - a.2) - (b.2 - a.2) * (c.1 - a.1)) * ((b.1 - a.1) * (q.2 - a.2) - (b.2 - a.2) * (q.1 - a.1)) < 0) :
    ∃ u v, Side u v q a ∧ Side u v q b ∧ Side u v q c := by
  refine ⟨-(b.2 - a.2) * ((b.1 - a.1) * (c.2 - a.2) - (b.2 - a.2) * (c.1 - a.1)), (b.1 - a.1) * ((b.1 - a.1) * (c.2 - a.2) - (b.2 - a.2) * (c.1 - a.1)), ?_, ?_, ?_⟩
  all_goals unfold Side
  · nlinarith
  · nlinarith
  · nlinarith [sq_nonneg ((b.1 - a.1) * (c.2 - a.2) - (b.2 - a.2) * (c.1 - a.1))]

theorem lineAt_scaled (v a b : ℚ × ℚ) (s l : ℚ) : lineAt v (lineAt a v s) l = lineAt v a (l * (1 - s)) ∧ lineAt v (lineAt v b s) l = lineAt v b (l * s) := by
  unfold lineAt
  constructor <;> ext <;> simp <;> ring

/-- Points of the triangle are near its two sides too. -/
theorem shortcut_inner {d : ℚ} {p v r : ℚ × ℚ} (hs : ShortCut d p v r) {t l : ℚ} (t0 : 0 ≤ t) (t1 : t ≤ 1) (l0 : 0 ≤ l) (l1 : l ≤ 1) :
    ∃ s, 0 ≤ s ∧ s ≤ 1 ∧ (NearPt d (lineAt v (lineAt p r t) l) (lineAt p v s) ∨ NearPt d (lineAt v (lineAt p r t) l) (lineAt v r s)) := by
  have shrink : ∀ x y : ℚ × ℚ, NearPt d x y → NearPt d (lineAt v x l) (lineAt v y l) := by
    rintro x y ⟨h0, h1⟩
    refine ⟨h0, ?_⟩
    unfold lineAt
    simp only
    have : l ^ 2 ≤ 1 := by nlinarith
    have h2 : 0 ≤ (x.1 - y.1) ^ 2 + (x.2 - y.2) ^ 2 := by positivity
    nlinarith
  obtain ⟨s, s0, s1, h | h⟩ := hs t t0 t1
  · refine ⟨1 - l * (1 - s), by nlinarith, by nlinarith, Or.inl ?_⟩
    have := shrink _ _ h
    rw [(lineAt_scaled v p r s l).1] at this
    have e : lineAt v p (l * (1 - s)) = lineAt p v (1 - l * (1 - s)) := by unfold lineAt; ext <;> simp <;> ring
    rwa [e] at this
  · refine ⟨l * s, by positivity, by nlinarith, Or.inr ?_⟩
    have := shrink _ _ h
    rwa [(lineAt_scaled v p r s l).2] at this

/-- A corner can be removed without changing the side of points which are not near the two lines. -/
theorem shortcut_cross {d : ℚ} {p v r q : ℚ × ℚ} (hd : 0 ≤ d) (hs : ShortCut d p v r) (h1 : FarFrom d p v q) (h2 : FarFrom d v r q) : cross2 q p v + cross2 q v r = cross2 q p r := by
  by_cases hD : (v.1 - p.1) * (r.2 - p.2) = (v.2 - p.2) * (r.1 - p.1)
  · exact cross2_straight hD
  have tri : (∃ a b, Side a b q p ∧ Side a b q v ∧ Side a b q r) → cross2 q p v + cross2 q v r = cross2 q p r := by
    rintro ⟨a, b, hp, hv, hr⟩
    exact cross2_tri hp hv hr
  set D := (v.1 - p.1) * (r.2 - p.2) - (v.2 - p.2) * (r.1 - p.1) with hDdef
  have hD0 : D ≠ 0 := sub_ne_zero.2 hD
  -- the three corners
  by_cases c1 : D * ((v.1 - p.1) * (q.2 - p.2) - (v.2 - p.2) * (q.1 - p.1)) < 0
  · exact tri (side_of_corner c1)
  by_cases c2 : D * ((r.1 - v.1) * (q.2 - v.2) - (r.2 - v.2) * (q.1 - v.1)) < 0
  · have : ((r.1 - v.1) * (p.2 - v.2) - (r.2 - v.2) * (p.1 - v.1)) = D := by rw [hDdef]; ring
    obtain ⟨a, b, hv, hr, hp⟩ := side_of_corner (q := q) (a := v) (b := r) (c := p) (by rw [this]; exact c2)
    exact tri ⟨a, b, hp, hv, hr⟩
  by_cases c3 : D * ((p.1 - r.1) * (q.2 - r.2) - (p.2 - r.2) * (q.1 - r.1)) < 0
  · have : ((p.1 - r.1) * (v.2 - r.2) - (p.2 - r.2) * (v.1 - r.1)) = D := by rw [hDdef]; ring
    obtain ⟨a, b, hr, hp, hv⟩ := side_of_corner (q := q) (a := r) (b := p) (c := v) (by rw [this]; exact c3)
    exact tri ⟨a, b, hp, hv, hr⟩
  -- the point is in the triangle
  exfalso
  have pos : 0 < D ^ 2 := by positivity
  have quot : ∀ x : ℚ, ¬ D * x < 0 → 0 ≤ x / D := by
    intro x hx
    have : x / D = D * x / D ^ 2 := by field_simp
    rw [this]
    exact div_nonneg (not_lt.1 hx) pos.le
  have g0 := quot _ c1
  have a0 := quot _ c2
  have b0 := quot _ c3
  set γ := ((v.1 - p.1) * (q.2 - p.2) - (v.2 - p.2) * (q.1 - p.1)) / D with hγ
  set α := ((r.1 - v.1) * (q.2 - v.2) - (r.2 - v.2) * (q.1 - v.1)) / D with hα
  set β := ((p.1 - r.1) * (q.2 - r.2) - (p.2 - r.2) * (q.1 - r.1)) / D with hβ
  have hsum : α + β + γ = 1 := by
    rw [hα, hβ, hγ]
    field_simp
    rw [hDdef]
    ring
  have hx : q.1 = α * p.1 + β * v.1 + γ * r.1 := by
    rw [hα, hβ, hγ]
    field_simp
    rw [hDdef]
    ring
  have hy : q.2 = α * p.2 + β * v.2 + γ * r.2 := by
    rw [hα, hβ, hγ]
    field_simp
    rw [hDdef]
    ring
  clear_value α β γ
  have hnear : ∃ s, 0 ≤ s ∧ s ≤ 1 ∧ (NearPt d q (lineAt p v s) ∨ NearPt d q (lineAt v r s)) := by
    by_cases hz : α + γ = 0
    · have ha : α = 0 := by linarith
      have hg : γ = 0 := by linarith
      refine ⟨0, le_rfl, zero_le_one, Or.inr ⟨hd, ?_⟩⟩
      have hb : β = 1 := by linarith
      rw [hx, hy, ha, hg, hb]
      unfold lineAt
      simp only
      nlinarith [sq_nonneg d]
    · have hpos : 0 < α + γ := lt_of_le_of_ne (by linarith) (Ne.symm hz)
      have e : q = lineAt v (lineAt p r (γ / (α + γ))) (α + γ) := by
        have hβ' : β = 1 - α - γ := by linarith
        unfold lineAt
        ext
        · simp only
          rw [hx, hβ']
          field_simp
          ring
        · simp only
          rw [hy, hβ']
          field_simp
          ring
      rw [e]
      exact shortcut_inner hs (div_nonneg g0 hpos.le) (by rw [div_le_one hpos]; linarith) hpos.le (by linarith)
  obtain ⟨s, s0, s1, h | h⟩ := hnear
  · have := h1 s s0 s1
    have := h.2
    unfold lineAt at this
    nlinarith
  · have := h2 s s0 s1
    have := h.2
    unfold lineAt at this
    nlinarith

/-! ## The removal criteria -/

/-- The third point is near the line through the other two. -/
theorem shortcut_line {d : ℚ} (hd : 0 ≤ d) {p v r : ℚ × ℚ} (hne : 0 < (v.1 - p.1) ^ 2 + (v.2 - p.2) ^ 2)
    (h : ((v.1 - p.1) * (r.2 - p.2) - (v.2 - p.2) * (r.1 - p.1)) ^ 2 ≤ d ^ 2 * ((v.1 - p.1) ^ 2 + (v.2 - p.2) ^ 2)) : ShortCut d p v r := by
  -- coordinates along the line and across it
  set N := (v.1 - p.1) ^ 2 + (v.2 - p.2) ^ 2 with hN
  set τ := ((v.1 - p.1) * (r.1 - p.1) + (v.2 - p.2) * (r.2 - p.2)) / N with hτ
  set η := ((v.1 - p.1) * (r.2 - p.2) - (v.2 - p.2) * (r.1 - p.1)) / N with hη
  have hx : r.1 - p.1 = τ * (v.1 - p.1) - η * (v.2 - p.2) := by
    rw [hτ, hη]
    field_simp
    rw [hN]
    ring
  have hy : r.2 - p.2 = τ * (v.2 - p.2) + η * (v.1 - p.1) := by
    rw [hτ, hη]
    field_simp
    rw [hN]
    ring
  have hd2 : η ^ 2 * N ≤ d ^ 2 := by
    have : η ^ 2 * N = ((v.1 - p.1) * (r.2 - p.2) - (v.2 - p.2) * (r.1 - p.1)) ^ 2 / N := by rw [hη]; field_simp
    rw [this, div_le_iff₀ hne]
    exact h
  clear_value τ η
  -- a point with the same place along the line
  have near : ∀ (x y : ℚ × ℚ) (k : ℚ), |k| ≤ 1 → x.1 - y.1 = -(k * η) * (v.2 - p.2) → x.2 - y.2 = k * η * (v.1 - p.1) → NearPt d x y := by
    intro x y k hk e1 e2
    refine ⟨hd, ?_⟩
    rw [e1, e2]
    have hk2 : k ^ 2 ≤ 1 := by rw [← sq_abs]; nlinarith [abs_nonneg k]
    have e : (-(k * η) * (v.2 - p.2)) ^ 2 + (k * η * (v.1 - p.1)) ^ 2 = k ^ 2 * (η ^ 2 * N) := by rw [hN]; ring
    rw [e]
    have : 0 ≤ η ^ 2 * N := by positivity
    nlinarith
  intro t t0 t1
  by_cases hτt : 0 ≤ t * τ ∧ t * τ ≤ 1
  · refine ⟨t * τ, hτt.1, hτt.2, Or.inl (near _ _ t (by rw [abs_of_nonneg t0]; exact t1) ?_ ?_)⟩
    · unfold lineAt
      simp only
      linear_combination t * hx
    · unfold lineAt
      simp only
      linear_combination t * hy
  · -- the place is on the second line
    have hτ1 : τ - 1 ≠ 0 := by
      intro e
      have : τ = 1 := by linarith
      rw [this] at hτt
      exact hτt ⟨by linarith, by linarith⟩
    obtain ⟨s, s0, s1, hs⟩ : ∃ s, 0 ≤ s ∧ s ≤ 1 ∧ 1 + s * (τ - 1) = t * τ := by
      refine ⟨(t * τ - 1) / (τ - 1), ?_, ?_, by field_simp; ring⟩
      · by_cases h1 : t * τ ≤ 1
        · have : t * τ < 0 := by by_contra hc; exact hτt ⟨not_lt.1 hc, h1⟩
          apply div_nonneg_of_nonpos
          · linarith
          · nlinarith
        · apply div_nonneg
          · linarith
          · nlinarith
      · by_cases h1 : t * τ ≤ 1
        · have : t * τ < 0 := by by_contra hc; exact hτt ⟨not_lt.1 hc, h1⟩
          have hτ0 : τ < 0 := by
            by_contra hc
            have := mul_nonneg t0 (not_lt.1 hc)
            linarith
          rw [div_le_one_of_neg (by linarith)]
          nlinarith
        · have hτ0 : 1 < τ := by nlinarith
          rw [div_le_one (by linarith)]
          nlinarith
    refine ⟨s, s0, s1, Or.inr (near _ _ (t - s) (by rw [abs_le]; constructor <;> linarith) ?_ ?_)⟩
    · unfold lineAt
      simp only
      linear_combination (t - s) * hx - hs * (v.1 - p.1)
    · unfold lineAt
      simp only
      linear_combination (t - s) * hy - hs * (v.2 - p.2)

/-- Both lines are short. -/
theorem shortcut_short {d : ℚ} (hd : 0 ≤ d) {p v r : ℚ × ℚ} (h1 : (v.1 - p.1) ^ 2 + (v.2 - p.2) ^ 2 ≤ (2 * d) ^ 2) (h2 : (v.1 - r.1) ^ 2 + (v.2 - r.2) ^ 2 ≤ (2 * d) ^ 2) : ShortCut d p v r := by
  intro t t0 t1
  by_cases ht : t ≤ 1 / 2
  · refine ⟨t, t0, t1, Or.inl ⟨hd, ?_⟩⟩
    have e : ((lineAt p r t).1 - (lineAt p v t).1) ^ 2 + ((lineAt p r t).2 - (lineAt p v t).2) ^ 2 = t ^ 2 * ((v.1 - r.1) ^ 2 + (v.2 - r.2) ^ 2) := by unfold lineAt; ring
    rw [e]
    have : t ^ 2 ≤ 1 / 4 := by nlinarith
    have h0 : 0 ≤ (v.1 - r.1) ^ 2 + (v.2 - r.2) ^ 2 := by positivity
    nlinarith
  · refine ⟨t, t0, t1, Or.inr ⟨hd, ?_⟩⟩
    have e : ((lineAt p r t).1 - (lineAt v r t).1) ^ 2 + ((lineAt p r t).2 - (lineAt v r t).2) ^ 2 = (1 - t) ^ 2 * ((v.1 - p.1) ^ 2 + (v.2 - p.2) ^ 2) := by unfold lineAt; ring
    rw [e]
    have : (1 - t) ^ 2 ≤ 1 / 4 := by nlinarith
    have h0 : 0 ≤ (v.1 - p.1) ^ 2 + (v.2 - p.2) ^ 2 := by positivity
    nlinarith

/-- A vertex is removed only if the shortcut stays within 5 µm. -/
theorem removable_shortcut {s a : Int} (hs : s ≤ 100) {prev cur next : Pt} {chain : List Pt} (h : Removable s a prev chain cur next) :
    ShortCut 5 (exactPt prev) (exactPt cur) (exactPt next) := by
  rcases h with h | ⟨-, h⟩ | ⟨h1, h2, -⟩
  · -- back to the same point
    unfold dist2 at h
    have hx : next.x = prev.x := by nlinarith [sq_nonneg (next.x - prev.x), sq_nonneg (next.y - prev.y)]
    have hy : next.y = prev.y := by nlinarith [sq_nonneg (next.x - prev.x), sq_nonneg (next.y - prev.y)]
    have e : next = prev := by cases next; cases prev; simp_all
    subst e
    intro t t0 t1
    refine ⟨0, le_rfl, zero_le_one, Or.inl ⟨by norm_num, ?_⟩⟩
    unfold lineAt
    norm_num
  · -- almost straight
    have ht := (C04_tight cur prev next).1
    have h25 : lineDist2 cur prev next ≤ 25 := ht.trans (by exact_mod_cast h)
    unfold lineDist2 at h25
    by_cases e : cur = prev
    · subst e
      intro t t0 t1
      refine ⟨t, t0, t1, Or.inr ⟨by norm_num, ?_⟩⟩
      unfold lineAt
      norm_num
    · rw [if_neg e] at h25
      have hpos : (0 : ℚ) < ((exactPt cur).1 - (exactPt prev).1) ^ 2 + ((exactPt cur).2 - (exactPt prev).2) ^ 2 := by
        have hne : ¬ (cur.x = prev.x ∧ cur.y = prev.y) := by
          rintro ⟨e1, e2⟩
          exact e (by cases cur; cases prev; simp_all)
        unfold exactPt
        simp only
        by_cases e1 : cur.x = prev.x
        · have e2 : (cur.y : ℚ) - prev.y ≠ 0 := by
            rw [sub_ne_zero]
            exact_mod_cast fun e2 => hne ⟨e1, e2⟩
          positivity
        · have e2 : (cur.x : ℚ) - prev.x ≠ 0 := by
            rw [sub_ne_zero]
            exact_mod_cast e1
          positivity
      apply shortcut_line (by norm_num) hpos
      have hN : (((prev.x - cur.x : Int) : ℚ) ^ 2 + ((prev.y - cur.y : Int) : ℚ) ^ 2) = ((exactPt cur).1 - (exactPt prev).1) ^ 2 + ((exactPt cur).2 - (exactPt prev).2) ^ 2 := by
        unfold exactPt
        push_cast
        ring
      rw [hN, div_le_iff₀ hpos] at h25
      refine le_trans (le_of_eq ?_) (h25.trans (by norm_num))
      unfold exactPt
      push_cast
      ring
  · -- two short lines
    unfold dist2 at h1 h2
    have b1 : ((exactPt cur).1 - (exactPt prev).1) ^ 2 + ((exactPt cur).2 - (exactPt prev).2) ^ 2 ≤ (2 * 5) ^ 2 := by
      unfold exactPt
      have : (cur.x - prev.x) ^ 2 + (cur.y - prev.y) ^ 2 ≤ (2 * 5) ^ 2 := by omega
      simp only
      exact_mod_cast this
    have b2 : ((exactPt cur).1 - (exactPt next).1) ^ 2 + ((exactPt cur).2 - (exactPt next).2) ^ 2 ≤ (2 * 5) ^ 2 := by
      unfold exactPt
      have : (cur.x - next.x) ^ 2 + (cur.y - next.y) ^ 2 ≤ (2 * 5) ^ 2 := by omega
      simp only
      exact_mod_cast this
    exact shortcut_short (by norm_num) b1 b2

/-! ## Closed paths -/

theorem ringSides_rotate {α : Type} (l : List α) (n : Nat) : ringSides (l.rotate n) = (ringSides l).rotate n := by
  unfold ringSides
  rw [List.rotate_rotate, Nat.add_comm, ← List.rotate_rotate]
  exact (List.zipWith_rotate_distrib Prod.mk l (l.rotate 1) n (by simp)).symm

theorem ringCross_rotate (q : ℚ × ℚ) (l : List (ℚ × ℚ)) (n : Nat) : ringCross q (l.rotate n) = ringCross q l := by
  unfold ringCross
  rw [ringSides_rotate, ((List.rotate_perm _ n).map _).sum_eq]

theorem mem_ringSides_rotate {α : Type} (l : List α) (n : Nat) (s : α × α) : s ∈ ringSides (l.rotate n) ↔ s ∈ ringSides l := by
  rw [ringSides_rotate, List.mem_rotate]

theorem zip_snoc {α : Type} (h : α) (T : List α) (x : α) : (h :: T).zip (T ++ [x]) = (h :: T).zip T ++ [((h :: T).getLast (List.cons_ne_nil _ _), x)] := by
  induction T generalizing h with
  | nil => rfl
  | cons b T ih => simpa using ih b

theorem ringSides_cons {α : Type} (h : α) (T : List α) : ringSides (h :: T) = (h :: T).zip T ++ [((h :: T).getLast (List.cons_ne_nil _ _), h)] := by
  unfold ringSides
  rw [List.rotate_cons_succ, List.rotate_zero, zip_snoc]

theorem ringSides_cons_cons {α : Type} (v h : α) (T : List α) : ringSides (v :: h :: T) = (v, h) :: ((h :: T).zip T ++ [((h :: T).getLast (List.cons_ne_nil _ _), v)]) := by
  unfold ringSides
  rw [List.rotate_cons_succ, List.rotate_zero, List.cons_append, List.zip_cons_cons, zip_snoc]

/-- One corner is removed. -/
theorem ring_remove {d D : ℚ} {q v h : ℚ × ℚ} {T : List (ℚ × ℚ)} (hd : 0 ≤ d) (hD : 0 ≤ D) (hs : ShortCut d ((h :: T).getLast (List.cons_ne_nil _ _)) v h)
    (hf : ∀ s ∈ ringSides (v :: h :: T), FarFrom (D + d) s.1 s.2 q) : (∀ s ∈ ringSides (h :: T), FarFrom D s.1 s.2 q) ∧ ringCross q (h :: T) = ringCross q (v :: h :: T) := by
  rw [ringSides_cons_cons] at hf
  have h1 : FarFrom (D + d) v h q := hf (v, h) (by simp)
  have h2 : FarFrom (D + d) ((h :: T).getLast (List.cons_ne_nil _ _)) v q := hf (_, v) (by simp)
  constructor
  · intro s hsm
    rw [ringSides_cons, List.mem_append, List.mem_singleton] at hsm
    rcases hsm with hsm | rfl
    · exact farFrom_mono (hf s (by simp [hsm])) hD (by linarith)
    · exact shortcut_far hs hD h2 h1
  · have key := shortcut_cross hd hs (farFrom_mono h2 hd (by linarith)) (farFrom_mono h1 hd (by linarith))
    unfold ringCross
    rw [ringSides_cons, ringSides_cons_cons]
    simp only [List.map_append, List.map_cons, List.map_nil, List.sum_append, List.sum_cons, List.sum_nil, add_zero]
    rw [← key]
    ring

theorem ringCross_two (q a b : ℚ × ℚ) : ringCross q [a, b] = 0 := by
  unfold ringCross ringSides
  simp only [List.rotate_cons_succ, List.rotate_zero, List.cons_append, List.nil_append, List.zip_cons_cons, List.zip_nil_right, List.map_cons, List.map_nil, List.sum_cons, List.sum_nil, add_zero]
  rw [cross2_symm q b a]
  exact CharTwo.add_self_eq_zero _

theorem ringCross_one (q a : ℚ × ℚ) : ringCross q [a] = 0 := by
  unfold ringCross ringSides
  simp [cross2_self]

/-- The vertices which are left at some time. -/
def leftOver (before after : List (Pt × Bool)) : List (ℚ × ℚ) := (kept before ++ after.map (·.1)).map exactPt

theorem lastKept_last (d : Pt) (before : List (Pt × Bool)) : (lastKept d before).1 = (d :: kept before).getLast (List.cons_ne_nil _ _) := by
  induction before using List.reverseRecOn with
  | nil => rfl
  | append_singleton before q ih =>
    rw [lastKept_append, kept_append]
    cases hb : q.2 with
    | true => simp
    | false => simpa using ih

theorem kept_length_le (before : List (Pt × Bool)) : (kept before).length ≤ before.length := by
  unfold kept
  rw [List.length_map]
  exact List.length_filter_le _ _

/-- The vertices are removed one after another. -/
theorem near_of_flags {path : Path} (hne : path ≠ []) {s a : Int} (hs : s ≤ 100) {flags : List (Pt × Bool)} (hmap : flags.map (·.1) = path)
    (hj : ∀ before q after, flags = before ++ q :: after → ∃ next, nextVertex path before = some next ∧
      (q.2 = false → Removable s a (lastKept (path.getLast hne) before).1 (lastKept (path.getLast hne) before).2 q.1 next)) (q : ℚ × ℚ) (before : List (Pt × Bool)) :
    ∀ after, flags = before ++ after → ∀ D : ℚ, 0 ≤ D →
      (∀ sd ∈ ringSides (path.map exactPt), FarFrom (D + 5 * (before.length - (kept before).length)) sd.1 sd.2 q) →
      (∀ sd ∈ ringSides (leftOver before after), FarFrom D sd.1 sd.2 q) ∧ ringCross q (leftOver before after) = ringCross q (path.map exactPt) := by
  induction before using List.reverseRecOn with
  | nil =>
    intro after h D hD hf
    have e : leftOver [] after = path.map exactPt := by
      unfold leftOver kept
      rw [← hmap, h]
      rfl
    rw [e]
    refine ⟨fun sd hsd => ?_, rfl⟩
    have := hf sd hsd
    simpa [kept] using this
  | append_singleton before x ih =>
    intro after h D hD hf
    have hfl : flags = before ++ x :: after := by rw [h]; simp
    obtain ⟨next, hnext, hrem⟩ := hj before x after hfl
    rw [kept_append] at hf
    cases hb : x.2 with
    | true =>
      have e : leftOver (before ++ [x]) after = leftOver before (x :: after) := by
        unfold leftOver
        rw [kept_append, hb]
        simp
      rw [e]
      apply ih (x :: after) hfl D hD
      intro sd hsd
      have := hf sd hsd
      rw [hb] at this
      simpa using this
    | false =>
      have e : leftOver (before ++ [x]) after = (kept before).map exactPt ++ after.map fun y => exactPt y.1 := by
        unfold leftOver
        rw [kept_append, hb]
        simp
      have e' : leftOver before (x :: after) = (kept before).map exactPt ++ exactPt x.1 :: after.map fun y => exactPt y.1 := by
        unfold leftOver
        simp
      obtain ⟨hfar, hcross⟩ := ih (x :: after) hfl (D + 5) (by linarith) (by
        intro sd hsd
        have := hf sd hsd
        rw [hb] at this
        simp only [Bool.false_eq_true, if_false, List.length_append, List.length_singleton] at this
        push_cast at this
        have e : D + 5 + 5 * ((before.length : ℚ) - (kept before).length) = D + 5 * ((before.length : ℚ) + 1 - (kept before).length) := by ring
        rw [e]
        exact this)
      rw [← hcross, e]
      rw [e'] at hfar ⊢
      have hlast := lastKept_last (path.getLast hne) before
      have hrem := hrem hb
      -- turned so that the removed vertex is the first one
      have r1 : ((kept before).map exactPt ++ exactPt x.1 :: after.map fun y => exactPt y.1).rotate ((kept before).map exactPt).length =
          exactPt x.1 :: ((after.map fun y => exactPt y.1) ++ (kept before).map exactPt) := by
        rw [List.rotate_append_length_eq]; rfl
      have r2 : ((kept before).map exactPt ++ after.map fun y => exactPt y.1).rotate ((kept before).map exactPt).length =
          (after.map fun y => exactPt y.1) ++ (kept before).map exactPt := by
        rw [List.rotate_append_length_eq]
      have hfar' : ∀ sd ∈ ringSides (exactPt x.1 :: ((after.map fun y => exactPt y.1) ++ (kept before).map exactPt)), FarFrom (D + 5) sd.1 sd.2 q := by
        intro sd hsd
        rw [← r1, mem_ringSides_rotate] at hsd
        exact hfar sd hsd
      suffices hsuff : (∀ sd ∈ ringSides ((after.map fun y => exactPt y.1) ++ (kept before).map exactPt), FarFrom D sd.1 sd.2 q) ∧
          ringCross q ((after.map fun y => exactPt y.1) ++ (kept before).map exactPt) = ringCross q (exactPt x.1 :: ((after.map fun y => exactPt y.1) ++ (kept before).map exactPt)) by
        refine ⟨fun sd hsd => hsuff.1 sd ?_, ?_⟩
        · rw [← r2, mem_ringSides_rotate]; exact hsd
        · rw [← ringCross_rotate q _ ((kept before).map exactPt).length, r2, hsuff.2, ← r1, ringCross_rotate]
      clear hfar hcross r1 r2 e e' ih hf
      have hsc := removable_shortcut hs hrem
      rcases after with - | ⟨y, after⟩
      · -- the last vertex
        rcases hK : kept before with - | ⟨k, - | ⟨k2, K⟩⟩
        · -- nothing kept
          simp only [List.map_nil, List.append_nil]
          refine ⟨fun sd hsd => ?_, ?_⟩
          · simp [ringSides] at hsd
          · rw [ringCross_one]
            rfl
        · -- one vertex kept
          rw [hK] at hfar'
          simp only [List.map_nil, List.nil_append, List.map_cons] at hfar' ⊢
          refine ⟨fun sd hsd => ?_, ?_⟩
          · have hsd : sd = (exactPt k, exactPt k) := by simpa [ringSides] using hsd
            rw [hsd]
            have := hfar' (exactPt k, exactPt x.1) (by simp [ringSides])
            exact farFrom_mono (farFrom_left this) hD (by linarith)
          · rw [ringCross_one, ringCross_two]
        · -- several vertices kept
          have hk : next = k := by
            have : nextVertex path before = some k := by
              unfold nextVertex
              rw [List.getElem?_eq_none (by rw [← hmap, hfl]; simp), hK]
              simp
            rw [hnext] at this
            exact Option.some.inj this
          rw [hK] at hfar' hlast
          simp only [List.map_nil, List.nil_append, List.map_cons] at hfar' ⊢
          refine ring_remove (by norm_num) hD ?_ hfar'
          rw [hk, hlast] at hsc
          have : (exactPt k :: exactPt k2 :: K.map exactPt).getLast (List.cons_ne_nil _ _) = exactPt ((path.getLast hne :: k :: k2 :: K).getLast (List.cons_ne_nil _ _)) := by
            rw [List.getLast_cons_cons]
            have := List.getLast_map (f := exactPt) (l := k :: k2 :: K) (by simp)
            simpa using this
          rw [this]
          exact hsc
      · -- there is a next vertex
        have hk : next = y.1 := by
          have : nextVertex path before = some y.1 := by
            unfold nextVertex
            have : path[before.length + 1]? = some y.1 := by
              rw [← hmap, hfl]
              simp
            rw [this]
          rw [hnext] at this
          exact Option.some.inj this
        rw [List.map_cons, List.cons_append] at hfar' ⊢
        refine ring_remove (by norm_num) hD ?_ hfar'
        rw [hk, hlast] at hsc
        have : (exactPt y.1 :: ((after.map fun y => exactPt y.1) ++ (kept before).map exactPt)).getLast (List.cons_ne_nil _ _) =
            exactPt ((path.getLast hne :: kept before).getLast (List.cons_ne_nil _ _)) := by
          rcases hK : kept before with - | ⟨k, K⟩
          · have hl : path.getLast hne = ((y :: after).getLast (List.cons_ne_nil _ _)).1 := by
              have : path = (before.map (·.1) ++ [x.1]) ++ (y :: after).map (·.1) := by rw [← hmap, hfl]; simp
              simp only [this, List.getLast_append_of_ne_nil _ (by simp : (y :: after).map (·.1) ≠ []), List.getLast_map]
            simp only [List.map_nil, List.append_nil, List.getLast_singleton]
            rw [hl]
            have := List.getLast_map (f := fun y : Pt × Bool => exactPt y.1) (l := y :: after) (by simp)
            simpa using this
          · rw [List.getLast_cons_cons]
            have e : exactPt y.1 :: ((after.map fun y => exactPt y.1) ++ (k :: K).map exactPt) = (exactPt y.1 :: after.map fun y => exactPt y.1) ++ (k :: K).map exactPt := by simp
            simp only [e, List.getLast_append_of_ne_nil _ (by simp : (k :: K).map exactPt ≠ []), List.getLast_map]
        rw [this]
        exact hsc

/-! ## C119 -/

theorem farFromPath_ring {d : ℚ} {p : Path} {q : ℚ × ℚ} : FarFromPath d p q ↔ ∀ s ∈ ringSides (p.map exactPt), FarFrom d s.1 s.2 q := by
  unfold FarFromPath
  rw [ringSides_map]
  simp only [List.forall_mem_map]
  rfl

theorem encloses_ring (p : Path) (q : ℚ × ℚ) : Encloses p q ↔ ringCross q (p.map exactPt) = 1 := by rw [encloses_iff, pathCross_ring]

theorem near_flags {path : Path} (hne : path ≠ []) {s a : Int} (hs : s ≤ 100) {flags : List (Pt × Bool)} (hmap : flags.map (·.1) = path)
    (hj : ∀ before q after, flags = before ++ q :: after → ∃ next, nextVertex path before = some next ∧
      (q.2 = false → Removable s a (lastKept (path.getLast hne) before).1 (lastKept (path.getLast hne) before).2 q.1 next)) {D : ℚ} (hD : 0 ≤ D) {q : ℚ × ℚ}
    (hf : FarFromPath (D + 5 * (path.length - (kept flags).length)) path q) : FarFromPath D (kept flags) q ∧ (Encloses (kept flags) q ↔ Encloses path q) := by
  have hl : flags.length = path.length := by rw [← hmap, List.length_map]
  have := near_of_flags hne hs hmap hj q flags [] (by simp) D hD (by rw [hl]; exact farFromPath_ring.1 hf)
  have e : leftOver flags [] = (kept flags).map exactPt := by unfold leftOver; simp
  rw [e] at this
  exact ⟨farFromPath_ring.2 this.1, by rw [encloses_ring, encloses_ring, this.2]⟩

theorem not_encloses_short {p : Path} (h : p.length < 3) (q : ℚ × ℚ) : ¬ Encloses p q := by
  rw [encloses_ring]
  rcases p with - | ⟨a, - | ⟨b, - | ⟨c, p⟩⟩⟩
  · simp [ringCross, ringSides]
  · simp [ringCross_one]
  · simp [ringCross_two]
  · simp only [List.length_cons] at h; omega

/-- **C119** `Simplify` moves an outline by at most 5 µm for each removed vertex: a point which is farther away from the path is on the same side of the path and of the result. -/
theorem C119_simplify (path : Path) (s a : Int) (hs : s ≤ 100) : ∃ r, simplify path s a = .ok r ∧ ∀ (D : ℚ) q, 0 ≤ D → FarFromPath (D + 5 * (path.length - r.length)) path q →
    FarFromPath D r q ∧ (Encloses r q ↔ Encloses path q) := by
  rcases Nat.lt_or_ge path.length 3 with h3 | h3
  · refine ⟨[], ?_, fun D q _ _ => ⟨fun s hs => by simp [sidesOf] at hs, ?_⟩⟩
    · unfold simplify
      simp only []
      rw [if_pos (by omega)]
      rfl
    · simp [not_encloses_short h3 q, not_encloses_short (p := []) (by simp) q]
  rcases Nat.lt_or_ge path.length 4 with h4 | h4
  · refine ⟨path, ?_, fun D q _ hf => ⟨by simpa using hf, Iff.rfl⟩⟩
    unfold simplify
    simp only []
    rw [if_neg (by omega), if_pos (by omega)]
    rfl
  · obtain ⟨flags, hmap, hr, hj⟩ := C09_criteria path s a h4
    refine ⟨_, hr, fun D q hD hf => near_flags (by rintro rfl; simp at h3) (s := if s = -1 then 100 else s) (a := if a = -1 then 25 else a) (by split <;> omega) hmap ?_ hD hf⟩
    intro before q after h
    obtain ⟨next, h1, h2⟩ := hj before q after h
    exact ⟨next, h1, h2.1⟩

/-- **C119** The same for the int64 computation with coordinates below 67 m. -/
theorem C119_int64 (path : Path) (s a : Int) (hsmall : ∀ p ∈ path, |p.x| < 2 ^ 26 ∧ |p.y| < 2 ^ 26) (hs : s ≤ 100) (ha : a ≤ 25) : ∃ r, simplifyM path s a = .ok r ∧
    ∀ (D : ℚ) q, 0 ≤ D → FarFromPath (D + 5 * (path.length - r.length)) path q → FarFromPath D r q ∧ (Encloses r q ↔ Encloses path q) := by
  rcases Nat.lt_or_ge path.length 3 with h3 | h3
  · refine ⟨[], ?_, fun D q _ _ => ⟨fun s hs => by simp [sidesOf] at hs, ?_⟩⟩
    · unfold simplifyM
      simp only []
      rw [if_pos (by omega)]
      rfl
    · simp [not_encloses_short h3 q, not_encloses_short (p := []) (by simp) q]
  rcases Nat.lt_or_ge path.length 4 with h4 | h4
  · refine ⟨path, ?_, fun D q _ hf => ⟨by simpa using hf, Iff.rfl⟩⟩
    unfold simplifyM
    simp only []
    rw [if_neg (by omega), if_pos (by omega)]
    rfl
  · obtain ⟨flags, hmap, hr, hj⟩ := C09_int64 path s a h4 hsmall (by omega) ha
    refine ⟨_, hr, fun D q hD hf => near_flags (by rintro rfl; simp at h3) (s := if s = -1 then 100 else s) (a := if a = -1 then 25 else a) (by split <;> omega) hmap ?_ hD hf⟩
    intro before q after h
    obtain ⟨prev, chain, next, h0, h1, h2, -⟩ := hj before q after h
    refine ⟨next, h1, fun hb => ?_⟩
    rw [← h0]
    exact h2 hb

/-- Non-vacuity: two of six vertices are removed, so points farther than 10 µm from the path are on the same side; the point (5000, 11) is inside of both. -/
example : simplifyM [⟨0, 0⟩, ⟨5000, 1⟩, ⟨10000, 0⟩, ⟨10000, 10000⟩, ⟨9998, 9999⟩, ⟨0, 10000⟩] (-1) (-1) = .ok [⟨0, 0⟩, ⟨10000, 0⟩, ⟨9998, 9999⟩, ⟨0, 10000⟩] ∧
    FarFromPath (0 + 5 * ((6 : Nat) - (4 : Nat))) [⟨0, 0⟩, ⟨5000, 1⟩, ⟨10000, 0⟩, ⟨10000, 10000⟩, ⟨9998, 9999⟩, ⟨0, 10000⟩] (5000, 15) ∧
    Encloses [⟨0, 0⟩, ⟨5000, 1⟩, ⟨10000, 0⟩, ⟨10000, 10000⟩, ⟨9998, 9999⟩, ⟨0, 10000⟩] (5000, 15) := by
  refine ⟨by decide +kernel, ?_, by decide +kernel⟩
  intro s hs t h0 h1
  have e : sidesOf [⟨0, 0⟩, ⟨5000, 1⟩, ⟨10000, 0⟩, ⟨10000, 10000⟩, ⟨9998, 9999⟩, ⟨0, 10000⟩] = [(⟨0, 0⟩, ⟨5000, 1⟩), (⟨5000, 1⟩, ⟨10000, 0⟩), (⟨10000, 0⟩, ⟨10000, 10000⟩),
    (⟨10000, 10000⟩, ⟨9998, 9999⟩), (⟨9998, 9999⟩, ⟨0, 10000⟩), (⟨0, 10000⟩, ⟨0, 0⟩)] := by decide
  rw [e] at hs
  simp only [List.mem_cons, List.not_mem_nil, or_false] at hs
  rcases hs with rfl | rfl | rfl | rfl | rfl | rfl <;> norm_num [exactPt] <;> nlinarith

/-- The criterion is about a wide enough band: on the removed vertex itself the side changes. -/
example : ¬ Encloses [⟨0, 0⟩, ⟨5000, 2⟩, ⟨10000, 0⟩, ⟨10000, 10000⟩, ⟨0, 10000⟩] (5000, 1) ∧ Encloses [⟨0, 0⟩, ⟨10000, 0⟩, ⟨10000, 10000⟩, ⟨0, 10000⟩] (5000, 1) ∧
    simplifyM [⟨0, 0⟩, ⟨5000, 2⟩, ⟨10000, 0⟩, ⟨10000, 10000⟩, ⟨0, 10000⟩] (-1) (-1) = .ok [⟨0, 0⟩, ⟨10000, 0⟩, ⟨10000, 10000⟩, ⟨0, 10000⟩] := by decide +kernel

end Verif
