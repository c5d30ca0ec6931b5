import Verif.Props.Solid
import Verif.Spec.Way

/-! # A straight way from the inside of a closed path to its outside meets the path -/
namespace Verif
open Verif.Model Verif.Go Verif.Spec

/-- Positive for points on the right of the line from `u` up to `v`. -/
def wayRight (u v p : ℚ × ℚ) : ℚ := (p.1 - u.1) * (v.2 - u.2) - (v.1 - u.1) * (p.2 - u.2)

theorem rightOf_lineAt (u v a b : ℚ × ℚ) (s : ℚ) : wayRight u v (lineAt a b s) = (1 - s) * wayRight u v a + s * wayRight u v b := by
  simp only [wayRight, lineAt]; ring

theorem lineAt_lineAt (a b : ℚ × ℚ) (s t r : ℚ) : lineAt (lineAt a b s) (lineAt a b t) r = lineAt a b (s + r * (t - s)) := by
  simp only [lineAt, Prod.mk.injEq]; constructor <;> ring

/-- Between two points on different sides, at heights between those of `u` and `v`, the line is met. -/
theorem crossing_point {u v P Q : ℚ × ℚ} (h : u.2 < v.2) (p1 : u.2 ≤ P.2) (p2 : P.2 ≤ v.2) (q1 : u.2 ≤ Q.2) (q2 : Q.2 ≤ v.2)
    (hd : ¬(0 < wayRight u v P ↔ 0 < wayRight u v Q)) : ∃ s, 0 ≤ s ∧ s ≤ 1 ∧ OnSegment u v (lineAt P Q s) := by
  have hne : wayRight u v P - wayRight u v Q ≠ 0 := fun e => hd (by rw [sub_eq_zero.1 e])
  have hs : 0 ≤ wayRight u v P / (wayRight u v P - wayRight u v Q) ∧ wayRight u v P / (wayRight u v P - wayRight u v Q) ≤ 1 := by
    by_cases hp : 0 < wayRight u v P
    · have hq : wayRight u v Q ≤ 0 := not_lt.1 fun hq => hd ⟨fun _ => hq, fun _ => hp⟩
      exact ⟨div_nonneg hp.le (by linarith), (div_le_one (by linarith)).2 (by linarith)⟩
    · have hq : 0 < wayRight u v Q := by
        by_contra hq
        exact hd ⟨fun h => absurd h hp, fun h => absurd h hq⟩
      rw [not_lt] at hp
      exact ⟨div_nonneg_of_nonpos hp (by linarith), (div_le_one_of_neg (by linarith)).2 (by linarith)⟩
  generalize hse : wayRight u v P / (wayRight u v P - wayRight u v Q) = s at hs
  have hz : wayRight u v (lineAt P Q s) = 0 := by
    rw [rightOf_lineAt, ← hse]
    field_simp
    ring
  refine ⟨s, hs.1, hs.2, ((lineAt P Q s).2 - u.2) / (v.2 - u.2), ?_, ?_, ?_⟩
  · refine div_nonneg ?_ (by linarith)
    simp only [lineAt]
    nlinarith [mul_nonneg hs.1 (show 0 ≤ Q.2 - u.2 by linarith), mul_nonneg (show 0 ≤ 1 - s by linarith) (show 0 ≤ P.2 - u.2 by linarith)]
  · refine (div_le_one (by linarith)).2 ?_
    simp only [lineAt]
    nlinarith [mul_nonneg hs.1 (show 0 ≤ v.2 - Q.2 by linarith), mul_nonneg (show 0 ≤ 1 - s by linarith) (show 0 ≤ v.2 - P.2 by linarith)]
  · generalize lineAt P Q s = w at hz ⊢
    have hv : v.2 - u.2 ≠ 0 := by linarith
    unfold wayRight at hz
    refine Prod.ext ?_ ?_
    · simp only [lineAt]
      field_simp
      linarith
    · simp only [lineAt]
      field_simp
      ring

/-- 1 for points between the heights of `u` and `v` on the right of the line between them. -/
def right2 (u v p : ℚ × ℚ) : ZMod 2 := if u.2 < p.2 ∧ p.2 ≤ v.2 ∧ 0 < wayRight u v p then 1 else 0

/-- The crossing of the ray through `q` at its height. -/
theorem rayCrosses_up {q a b : ℚ × ℚ} (hab : a.2 ≤ b.2) : RayCrosses q a b ↔ (a.2 ≤ q.2 ∧ q.2 < b.2) ∧ q.1 < (lineAt a b ((q.2 - a.2) / (b.2 - a.2))).1 := by
  unfold RayCrosses
  refine and_congr ⟨fun h => ?_, fun h hi => ?_⟩ ?_
  · by_cases h1 : q.2 < a.2
    · exact (h ⟨fun _ => h1.trans_le hab, fun _ => h1⟩).elim
    · refine ⟨not_lt.1 h1, ?_⟩
      by_contra h2
      exact h ⟨fun h => absurd h h1, fun h => absurd h h2⟩
  · exact absurd (hi.2 h.2) (not_lt.2 h.1)
  · simp only [lineAt]
    rw [show a.1 + (b.1 - a.1) * (q.2 - a.2) / (b.2 - a.2) = a.1 + (q.2 - a.2) / (b.2 - a.2) * (b.1 - a.1) by ring]

theorem height_at {a b : ℚ × ℚ} {z : ℚ} (h1 : a.2 ≤ z) (h2 : z < b.2) :
    (lineAt a b ((z - a.2) / (b.2 - a.2))).2 = z ∧ 0 ≤ (z - a.2) / (b.2 - a.2) ∧ (z - a.2) / (b.2 - a.2) ≤ 1 := by
  have : b.2 - a.2 ≠ 0 := by linarith
  refine ⟨?_, div_nonneg (by linarith) (by linarith), (div_le_one (by linarith)).2 (by linarith)⟩
  simp only [lineAt]
  field_simp
  ring

theorem cross_pair_up {u v a b : ℚ × ℚ} (h : u.2 ≤ v.2) (hab : a.2 ≤ b.2) (hn : ∀ s, 0 ≤ s → s ≤ 1 → ¬ OnSegment u v (lineAt a b s)) :
    cross2 u a b + cross2 v a b = right2 u v a + right2 u v b := by
  unfold cross2 right2
  simp only [rayCrosses_up hab]
  by_cases c1 : b.2 ≤ u.2
  · rw [if_neg (by intro hc; linarith [hc.1.2]), if_neg (by intro hc; linarith [hc.1.2]), if_neg (by intro hc; linarith [hc.1]), if_neg (by intro hc; linarith [hc.1])]
  by_cases c2 : v.2 < a.2
  · rw [if_neg (by intro hc; linarith [hc.1.1]), if_neg (by intro hc; linarith [hc.1.1]), if_neg (by intro hc; linarith [hc.2.1]), if_neg (by intro hc; linarith [hc.2.1])]
  rw [not_le] at c1
  rw [not_lt] at c2
  rcases h.eq_or_lt with heq | hlt
  · -- a horizontal way
    have ha : a.2 ≤ u.2 := by rw [heq]; exact c2
    have hb : v.2 < b.2 := by rw [← heq]; exact c1
    rw [if_neg (c := u.2 < a.2 ∧ _) (by intro hc; linarith [hc.1]), if_neg (c := u.2 < b.2 ∧ _) (by intro hc; linarith [hc.2.1]), add_zero]
    obtain ⟨e1, e2, e3⟩ := height_at ha c1
    have key := hn _ e2 e3
    rw [← heq]
    generalize lineAt a b ((u.2 - a.2) / (b.2 - a.2)) = X at e1 key ⊢
    have : u.1 < X.1 ↔ v.1 < X.1 := by
      by_contra hc
      refine key ⟨(X.1 - u.1) / (v.1 - u.1), ?_⟩
      by_cases hu : u.1 < X.1
      · have hv : X.1 ≤ v.1 := not_lt.1 fun hv => hc ⟨fun _ => hv, fun _ => hu⟩
        have hne : v.1 - u.1 ≠ 0 := by linarith
        refine ⟨div_nonneg (by linarith) (by linarith), (div_le_one (by linarith)).2 (by linarith), Prod.ext ?_ ?_⟩
        · simp only [lineAt]; field_simp; ring
        · simp only [lineAt]; rw [e1, ← heq]; ring
      · have hv : v.1 < X.1 := by
          by_contra hv
          exact hc ⟨fun h => absurd h hu, fun h => absurd h hv⟩
        rw [not_lt] at hu
        have hne : v.1 - u.1 ≠ 0 := by linarith
        refine ⟨div_nonneg_of_nonpos (by linarith) (by linarith), (div_le_one_of_neg (by linarith)).2 (by linarith), Prod.ext ?_ ?_⟩
        · simp only [lineAt]; field_simp; ring
        · simp only [lineAt]; rw [e1, ← heq]; ring
    simp only [this, ha, c1, true_and]
    exact CharTwo.add_self_eq_zero _
  · -- the part of the line between the heights
    have key1 : ∃ s, 0 ≤ s ∧ s ≤ 1 ∧ u.2 ≤ (lineAt a b s).2 ∧ (lineAt a b s).2 ≤ v.2 ∧
        (if (a.2 ≤ u.2 ∧ u.2 < b.2) ∧ u.1 < (lineAt a b ((u.2 - a.2) / (b.2 - a.2))).1 then (1 : ZMod 2) else 0) +
          (if u.2 < a.2 ∧ a.2 ≤ v.2 ∧ 0 < wayRight u v a then 1 else 0) = if 0 < wayRight u v (lineAt a b s) then 1 else 0 := by
      by_cases ha : a.2 ≤ u.2
      · obtain ⟨e1, e2, e3⟩ := height_at ha c1
        refine ⟨_, e2, e3, e1.ge, by rw [e1]; exact h, ?_⟩
        rw [if_neg (c := u.2 < a.2 ∧ _) (by intro hc; linarith [hc.1]), add_zero]
        generalize lineAt a b ((u.2 - a.2) / (b.2 - a.2)) = X at e1 ⊢
        have : 0 < wayRight u v X ↔ u.1 < X.1 := by
          unfold wayRight
          rw [e1, sub_self, mul_zero, sub_zero]
          exact ⟨fun h => by have := pos_of_mul_pos_left h (by linarith); linarith, fun h => mul_pos (by linarith) (by linarith)⟩
        simp only [this, ha, c1, true_and]
      · rw [not_le] at ha
        refine ⟨0, le_refl _, zero_le_one, ?_⟩
        have e : lineAt a b 0 = a := by simp [lineAt]
        rw [e]
        refine ⟨ha.le, c2, ?_⟩
        rw [if_neg (by intro hc; linarith [hc.1.1]), zero_add]
        simp only [ha, c2, true_and]
    have key2 : ∃ s, 0 ≤ s ∧ s ≤ 1 ∧ u.2 ≤ (lineAt a b s).2 ∧ (lineAt a b s).2 ≤ v.2 ∧
        (if (a.2 ≤ v.2 ∧ v.2 < b.2) ∧ v.1 < (lineAt a b ((v.2 - a.2) / (b.2 - a.2))).1 then (1 : ZMod 2) else 0) +
          (if u.2 < b.2 ∧ b.2 ≤ v.2 ∧ 0 < wayRight u v b then 1 else 0) = if 0 < wayRight u v (lineAt a b s) then 1 else 0 := by
      by_cases hb : v.2 < b.2
      · obtain ⟨e1, e2, e3⟩ := height_at c2 hb
        refine ⟨_, e2, e3, by rw [e1]; exact h, e1.le, ?_⟩
        rw [if_neg (c := u.2 < b.2 ∧ _) (by intro hc; linarith [hc.2.1]), add_zero]
        generalize lineAt a b ((v.2 - a.2) / (b.2 - a.2)) = X at e1 ⊢
        have : 0 < wayRight u v X ↔ v.1 < X.1 := by
          unfold wayRight
          rw [e1, show (X.1 - u.1) * (v.2 - u.2) - (v.1 - u.1) * (v.2 - u.2) = (X.1 - v.1) * (v.2 - u.2) by ring]
          exact ⟨fun h => by have := pos_of_mul_pos_left h (by linarith); linarith, fun h => mul_pos (by linarith) (by linarith)⟩
        simp only [this, hb, c2, true_and]
      · rw [not_lt] at hb
        refine ⟨1, zero_le_one, le_refl _, ?_⟩
        have e : lineAt a b 1 = b := by simp [lineAt]
        rw [e]
        refine ⟨c1.le, hb, ?_⟩
        rw [if_neg (by intro hc; linarith [hc.1.2]), zero_add]
        simp only [c1, hb, true_and]
    obtain ⟨s, s0, s1, s2, s3, s4⟩ := key1
    obtain ⟨t, t0, t1, t2, t3, t4⟩ := key2
    have hiff : 0 < wayRight u v (lineAt a b s) ↔ 0 < wayRight u v (lineAt a b t) := by
      by_contra hd
      obtain ⟨r, r0, r1, hr⟩ := crossing_point hlt s2 s3 t2 t3 hd
      rw [lineAt_lineAt] at hr
      exact hn _ (by nlinarith) (by nlinarith) hr
    simp only [hiff] at s4
    have hsum := s4.trans t4.symm
    have two : ∀ w x y z : ZMod 2, w + x = y + z → w + y = x + z := by decide
    exact two _ _ _ _ hsum

theorem cross_pair {u v a b : ℚ × ℚ} (h : u.2 ≤ v.2) (hn : ∀ s, 0 ≤ s → s ≤ 1 → ¬ OnSegment u v (lineAt a b s)) :
    cross2 u a b + cross2 v a b = right2 u v a + right2 u v b := by
  rcases le_total a.2 b.2 with hab | hab
  · exact cross_pair_up h hab hn
  · rw [cross2_symm u, cross2_symm v, add_comm (right2 u v a)]
    refine cross_pair_up h hab fun s s0 s1 hs => hn (1 - s) (by linarith) (by linarith) ?_
    have : lineAt a b (1 - s) = lineAt b a s := by simp only [lineAt, Prod.mk.injEq]; constructor <;> ring
    rw [this]
    exact hs

/-- Two points which can be joined by a line that does not meet the sides of the closed path are on the same side of it. -/
theorem encloses_way {p : Path} {u v : ℚ × ℚ} (hn : ∀ s ∈ sidesOf p, s.1 ≠ s.2 → ∀ z, OnSegment u v z → ¬ OnSegment (exactPt s.1) (exactPt s.2) z) : Encloses p u ↔ Encloses p v := by
  wlog h : u.2 ≤ v.2 generalizing u v
  · refine (this (u := v) (v := u) (fun s hs hne z hz => hn s hs hne z ?_) (not_le.1 h).le).symm
    obtain ⟨t, t0, t1, rfl⟩ := hz
    refine ⟨1 - t, by linarith, by linarith, ?_⟩
    simp only [lineAt, Prod.mk.injEq]; constructor <;> ring
  have key : pathCross u p + pathCross v p = 0 := by
    unfold pathCross
    rw [← List.sum_map_add]
    have e : (sidesOf p).map (fun s => cross2 u (exactPt s.1) (exactPt s.2) + cross2 v (exactPt s.1) (exactPt s.2)) =
        (sidesOf p).map fun s => right2 u v (exactPt s.1) + right2 u v (exactPt s.2) :=
      List.map_congr_left fun s hs => by
        by_cases hne : s.1 = s.2
        · rw [hne, cross2_self, cross2_self, CharTwo.add_self_eq_zero, CharTwo.add_self_eq_zero]
        · exact cross_pair h fun t t0 t1 ht => hn s hs hne _ ht ⟨t, t0, t1, rfl⟩
    rw [e, List.sum_map_add]
    have e1 : ((sidesOf p).map fun s => right2 u v (exactPt s.1)) = p.map fun x => right2 u v (exactPt x) := by
      unfold sidesOf
      rw [show (fun s : Pt × Pt => right2 u v (exactPt s.1)) = (fun x => right2 u v (exactPt x)) ∘ Prod.fst from rfl, ← List.map_map, List.map_fst_zip (by simp)]
    have e2 : ((sidesOf p).map fun s => right2 u v (exactPt s.2)) = (p.rotate 1).map fun x => right2 u v (exactPt x) := by
      unfold sidesOf
      rw [show (fun s : Pt × Pt => right2 u v (exactPt s.2)) = (fun x => right2 u v (exactPt x)) ∘ Prod.snd from rfl, ← List.map_map, List.map_snd_zip (by simp)]
    rw [e1, e2, ((List.rotate_perm p 1).map _).sum_eq]
    exact CharTwo.add_self_eq_zero _
  have : pathCross u p = pathCross v p := by
    have two : ∀ a b : ZMod 2, a + b = 0 → a = b := by decide
    exact two _ _ key
  rw [encloses_iff, encloses_iff, this]

/-- A way which changes a property of its points changes it in one of its pieces. -/
theorem way_change {P : ℚ × ℚ → Prop} : ∀ (way : List (ℚ × ℚ)) {x y : ℚ × ℚ}, WayFrom x y way → ¬(P x ↔ P y) → ∃ s ∈ way.zip way.tail, ¬(P s.1 ↔ P s.2)
  | [], x, y, h, _ => by cases h.1
  | [a], x, y, h, hd => by
    obtain ⟨h1, h2⟩ := h
    cases h1; cases h2
    exact absurd Iff.rfl hd
  | a :: b :: way, x, y, h, hd => by
    obtain ⟨h1, h2⟩ := h
    cases h1
    by_cases hab : P a ↔ P b
    · obtain ⟨s, hs, hc⟩ := way_change (b :: way) (x := b) (y := y) ⟨rfl, by rw [← h2, List.getLast?_cons_cons]⟩ (fun e => hd (hab.trans e))
      exact ⟨s, by simp only [List.tail_cons] at hs ⊢; rw [List.zip_cons_cons]; exact List.mem_cons_of_mem _ hs, hc⟩
    · exact ⟨(a, b), by simp, hab⟩

/-- A way between points of which a closed path encloses only one meets the path. -/
theorem way_meets {p : Path} {way : List (ℚ × ℚ)} {x y : ℚ × ℚ} (hw : WayFrom x y way) (hd : ¬(Encloses p x ↔ Encloses p y)) :
    ∃ z, OnWay way z ∧ ∃ s ∈ sidesOf p, s.1 ≠ s.2 ∧ OnSegment (exactPt s.1) (exactPt s.2) z := by
  obtain ⟨s, hs, hc⟩ := way_change (P := Encloses p) way hw hd
  by_contra hno
  refine hc (encloses_way fun t ht hne z hz hon => hno ⟨z, ⟨s, hs, hz⟩, t, ht, hne, hon⟩)

end Verif
