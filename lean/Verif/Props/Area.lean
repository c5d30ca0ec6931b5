import Verif.Spec.Area
import Verif.Props.MachineSimplify
import Mathlib.Tactic.Linarith
import Mathlib.Tactic.Ring
import Mathlib.Tactic.LinearCombination

/-! # The area of simplified paths -/
namespace Verif
open Verif.Go Verif.Model Verif.Spec

theorem euclid_nonneg (a b : Pt) : 0 ≤ euclid a b := Real.sqrt_nonneg _

theorem euclid_sq (a b : Pt) : euclid a b ^ 2 = dist2 a b := by
  unfold euclid
  apply Real.sq_sqrt
  have : 0 ≤ dist2 a b := by unfold dist2; positivity
  exact_mod_cast this

theorem euclid_symm (a b : Pt) : euclid a b = euclid b a := by
  unfold euclid dist2
  congr 2
  ring

theorem euclid_triangle (a b c : Pt) : euclid a c ≤ euclid a b + euclid b c := by
  apply le_of_sq_le_sq _ (add_nonneg (euclid_nonneg _ _) (euclid_nonneg _ _))
  have h1 := euclid_sq a b
  have h2 := euclid_sq b c
  have h3 := euclid_sq a c
  have hc : ((a.x - b.x : Int) : ℝ) * (b.x - c.x : Int) + ((a.y - b.y : Int) : ℝ) * (b.y - c.y : Int) ≤ euclid a b * euclid b c := by
    apply le_of_sq_le_sq _ (mul_nonneg (euclid_nonneg _ _) (euclid_nonneg _ _))
    rw [mul_pow, h1, h2]
    unfold dist2
    push_cast
    nlinarith [sq_nonneg (((a.x : ℝ) - b.x) * (b.y - c.y) - ((a.y : ℝ) - b.y) * (b.x - c.x))]
  rw [h3, add_sq, h1, h2]
  have : (dist2 a c : ℝ) = dist2 a b + dist2 b c + 2 * (((a.x - b.x : Int) : ℝ) * (b.x - c.x : Int) + ((a.y - b.y : Int) : ℝ) * (b.y - c.y : Int)) := by
    unfold dist2
    push_cast
    ring
  rw [this]
  linarith

theorem lengthOf_nonneg : ∀ l : Path, 0 ≤ lengthOf l
  | [] => le_refl _
  | [_] => le_refl _
  | a :: b :: l => by rw [lengthOf]; exact add_nonneg (euclid_nonneg _ _) (lengthOf_nonneg _)

theorem lengthOf_append : ∀ (l : Path) (a : Pt) (r : Path), lengthOf (l ++ a :: r) = lengthOf (l ++ [a]) + lengthOf (a :: r)
  | [], a, r => by simp [lengthOf]
  | [b], a, r => by simp [lengthOf]
  | b :: c :: l, a, r => by
    have := lengthOf_append (c :: l) a r
    simp only [List.cons_append, lengthOf] at *
    rw [this]; ring

theorem chainArea_append : ∀ (l : Path) (a : Pt) (r : Path), chainArea (l ++ a :: r) = chainArea (l ++ [a]) + chainArea (a :: r)
  | [], a, r => by simp [chainArea]
  | [b], a, r => by simp [chainArea]
  | b :: c :: l, a, r => by
    have := chainArea_append (c :: l) a r
    simp only [List.cons_append, chainArea] at *
    rw [this]; ring

/-- The ends of a path are not farther apart than its length. -/
theorem euclid_le_lengthOf : ∀ (l : Path) (a b : Pt), euclid a b ≤ lengthOf (a :: l ++ [b])
  | [], a, b => by simp [lengthOf]
  | c :: l, a, b => by
    have h1 := euclid_le_lengthOf l c b
    have h2 := euclid_triangle a c b
    simp only [List.cons_append, lengthOf] at *
    linarith

/-- Two points of a path are not farther apart than its length. -/
theorem euclid_mem : ∀ (l : Path) (x y : Pt), x ∈ l → y ∈ l → euclid x y ≤ lengthOf l
  | [], x, _, hx, _ => by cases hx
  | [a], x, y, hx, hy => by
    obtain rfl : x = a := by simpa using hx
    obtain rfl : y = x := by simpa using hy
    simp [lengthOf, euclid, dist2]
  | a :: b :: l, x, y, hx, hy => by
    have h0 := lengthOf_nonneg (b :: l)
    have hab := euclid_nonneg a b
    rw [lengthOf]
    rcases List.mem_cons.1 hx with ex | hx' <;> rcases List.mem_cons.1 hy with ey | hy'
    · have : euclid x y = 0 := by rw [ex, ey]; simp [euclid, dist2]
      linarith
    · have := euclid_mem (b :: l) b y (by simp) hy'
      have := euclid_triangle a b y
      rw [ex]
      linarith
    · have := euclid_mem (b :: l) b x (by simp) hx'
      have := euclid_triangle a b x
      rw [ey, euclid_symm x a]
      linarith
    · have := euclid_mem (b :: l) x y hx' hy'
      linarith

theorem cross_self (a : Pt) : cross a a = 0 := by unfold cross; ring
theorem cross_swap (a b : Pt) : cross b a = -cross a b := by unfold cross; ring

theorem chainArea_snoc {l : Path} (hl : l ≠ []) (b : Pt) : chainArea (l ++ [b]) = chainArea l + cross (l.getLast hl) b := by
  obtain ⟨l', a, rfl⟩ : ∃ l' a, l = l' ++ [a] := ⟨l.dropLast, l.getLast hl, (List.dropLast_append_getLast hl).symm⟩
  rw [List.append_assoc, List.getLast_append_singleton]
  exact chainArea_snoc2 l' a b

theorem area2_eq {p : Path} (hp : p ≠ []) : area2 p = chainArea (p.getLast hp :: p) := by
  cases p with
  | nil => exact absurd rfl hp
  | cons a l => rw [area2, chainArea]; ring

theorem perimeter_eq {p : Path} (hp : p ≠ []) : perimeter p = lengthOf (p.getLast hp :: p) := by
  cases p with
  | nil => exact absurd rfl hp
  | cons a l => rw [perimeter, lengthOf]; ring

theorem dist2_eq_zero {a b : Pt} (h : dist2 a b = 0) : a = b := by
  unfold dist2 at h
  have h1 : a.x - b.x = 0 := by nlinarith [sq_nonneg (a.x - b.x), sq_nonneg (a.y - b.y)]
  have h2 : a.y - b.y = 0 := by nlinarith [sq_nonneg (a.x - b.x), sq_nonneg (a.y - b.y)]
  cases a; cases b; simp only [Pt.mk.injEq] at *; omega

/-- The removed area is small compared to the shortcut. -/
theorem removable_area {s a : Int} {prev cur next : Pt} {chain : List Pt} (ha : a ≤ 25) (h : Removable s a prev chain cur next) :
    next = prev ∨ |(polyArea2 prev (chain ++ [cur]) next : ℝ)| ≤ Real.sqrt 26 * euclid prev next := by
  by_cases hz : dist2 next prev = 0
  · exact .inl (dist2_eq_zero hz)
  right
  have hpos : 0 < dist2 next prev := lt_of_le_of_ne (by unfold dist2; positivity) (Ne.symm hz)
  have hq : polyArea2 prev (chain ++ [cur]) next ^ 2 / dist2 next prev ≤ 25 := by
    rcases h with h | h | h
    · exact absurd h hz
    · exact h.1
    · exact h.2.2.trans ha
  have hlt : polyArea2 prev (chain ++ [cur]) next ^ 2 < 26 * dist2 next prev := by
    have := (Int.ediv_lt_iff_lt_mul hpos).1 (show polyArea2 prev (chain ++ [cur]) next ^ 2 / dist2 next prev < 26 by omega)
    linarith
  apply abs_le_of_sq_le_sq _ (mul_nonneg (Real.sqrt_nonneg _) (euclid_nonneg _ _))
  rw [mul_pow, Real.sq_sqrt (by norm_num), euclid_symm, euclid_sq]
  exact_mod_cast hlt.le

theorem polyArea2_back (prev cur : Pt) (chain : List Pt) : polyArea2 prev (chain ++ [cur]) prev = polyArea2 prev chain cur := by
  unfold polyArea2
  have : prev :: (chain ++ [cur]) ++ [prev] = (prev :: chain) ++ [cur, prev] := by simp
  rw [this, chainArea_snoc2, cross_self]
  ring

theorem kept_subset {flags : List (Pt × Bool)} {x : Pt} (h : x ∈ kept flags) : x ∈ flags.map (·.1) := by
  unfold kept at h
  obtain ⟨q, hq, rfl⟩ := List.mem_map.1 h
  exact List.mem_map.2 ⟨q, (List.mem_filter.1 hq).1, rfl⟩

/-- The state after some vertices. -/
theorem area_invariant {path : Path} {d : Pt} {s a : Int} (ha : a ≤ 25) {flags : List (Pt × Bool)} (hmap : flags.map (·.1) = path)
    (hj : ∀ before q after, flags = before ++ q :: after → ∃ next, nextVertex path before = some next ∧
      (q.2 = false → Removable s a (lastKept d before).1 (lastKept d before).2 q.1 next)) (before : List (Pt × Bool)) :
    ∀ after, flags = before ++ after → ∃ pre, d :: before.map (·.1) = pre ++ (lastKept d before).1 :: (lastKept d before).2 ∧
      (d :: kept before).getLast (List.cons_ne_nil _ _) = (lastKept d before).1 ∧
      |((chainArea (pre ++ [(lastKept d before).1]) - chainArea (d :: kept before) : Int) : ℝ)| ≤ Real.sqrt 26 * lengthOf (pre ++ [(lastKept d before).1]) ∧
      ∀ p, path[before.length]? = some p →
        |(polyArea2 (lastKept d before).1 (lastKept d before).2 p : ℝ)| ≤ Real.sqrt 26 * lengthOf ((lastKept d before).1 :: (lastKept d before).2 ++ [p]) := by
  have hzero : ∀ x y : Pt, |(polyArea2 x [] y : ℝ)| ≤ Real.sqrt 26 * lengthOf (x :: [] ++ [y]) := by
    intro x y
    have : polyArea2 x [] y = 0 := by unfold polyArea2; simp [chainArea, cross_swap x y]
    rw [this]
    simp only [Int.cast_zero, abs_zero]
    exact mul_nonneg (Real.sqrt_nonneg _) (lengthOf_nonneg _)
  induction before using List.reverseRecOn with
  | nil =>
    intro after h
    refine ⟨[], rfl, rfl, ?_, fun p _ => hzero _ _⟩
    simp [kept, lastKept, chainArea, lengthOf]
  | append_singleton before q ih =>
    intro after h
    have hfl : flags = before ++ q :: after := by rw [h]; simp
    obtain ⟨pre, h1, h2, h3, h4⟩ := ih (q :: after) hfl
    obtain ⟨next, hnext, hrem⟩ := hj before q after hfl
    have hq : path[before.length]? = some q.1 := by
      rw [← hmap, hfl]
      simp
    have h4 := h4 q.1 hq
    rw [lastKept_append, kept_append]
    generalize hpc : lastKept d before = pc at *
    obtain ⟨prev, chain⟩ := pc
    simp only at h1 h2 h3 h4 hrem
    cases hb : q.2 with
    | true =>
      simp only [if_true]
      refine ⟨pre ++ prev :: chain, by simp [← h1], by rw [List.getLast_cons (by simp), List.getLast_append_singleton], ?_, fun p _ => hzero _ _⟩
      have e1 : chainArea ((pre ++ prev :: chain) ++ [q.1]) = chainArea (pre ++ [prev]) + chainArea (prev :: chain ++ [q.1]) := by
        rw [List.append_assoc, List.cons_append, chainArea_append]
      have e2 : chainArea (d :: (kept before ++ [q.1])) = chainArea (d :: kept before) + cross prev q.1 := by
        rw [← List.cons_append, chainArea_snoc (List.cons_ne_nil _ _), h2]
      have e3 : lengthOf ((pre ++ prev :: chain) ++ [q.1]) = lengthOf (pre ++ [prev]) + lengthOf (prev :: chain ++ [q.1]) := by
        rw [List.append_assoc, List.cons_append, lengthOf_append]
      have e4 : chainArea ((pre ++ prev :: chain) ++ [q.1]) - chainArea (d :: (kept before ++ [q.1])) =
          (chainArea (pre ++ [prev]) - chainArea (d :: kept before)) + polyArea2 prev chain q.1 := by
        rw [e1, e2]
        unfold polyArea2
        rw [cross_swap prev q.1]
        ring
      rw [e4, e3, mul_add]
      push_cast at h3 ⊢
      exact (abs_add_le _ _).trans (add_le_add h3 h4)
    | false =>
      simp only [Bool.false_eq_true, if_false]
      refine ⟨pre, by rw [List.map_append, ← List.cons_append, h1]; simp, h2, h3, fun p hp => ?_⟩
      have hn : nextVertex path before = some p := by
        unfold nextVertex
        rw [List.length_append, List.length_singleton] at hp
        rw [hp]
      rw [hnext] at hn
      obtain rfl := Option.some.inj hn
      have hlen : lengthOf (prev :: chain ++ [q.1]) ≤ lengthOf (prev :: (chain ++ [q.1]) ++ [next]) := by
        have : prev :: (chain ++ [q.1]) ++ [next] = (prev :: chain) ++ q.1 :: [next] := by simp
        rw [this, lengthOf_append (prev :: chain) q.1 [next]]
        have := lengthOf_nonneg [q.1, next]
        linarith
      rcases removable_area ha (hrem hb) with he | he
      · rw [he, polyArea2_back]
        rw [he] at hlen
        exact h4.trans (mul_le_mul_of_nonneg_left hlen (Real.sqrt_nonneg _))
      · exact he.trans (mul_le_mul_of_nonneg_left (euclid_le_lengthOf _ _ _) (Real.sqrt_nonneg _))

/-- The area of the kept vertices. -/
theorem area_of_flags {path : Path} (hne : path ≠ []) {s a : Int} (ha : a ≤ 25) {flags : List (Pt × Bool)} (hmap : flags.map (·.1) = path)
    (hj : ∀ before q after, flags = before ++ q :: after → ∃ next, nextVertex path before = some next ∧
      (q.2 = false → Removable s a (lastKept (path.getLast hne) before).1 (lastKept (path.getLast hne) before).2 q.1 next)) :
    |((area2 path - area2 (kept flags) : Int) : ℝ)| ≤ 2 * Real.sqrt 26 * perimeter path := by
  have hfne : flags ≠ [] := by rintro rfl; exact hne hmap.symm
  obtain ⟨before, q, hfl⟩ : ∃ before q, flags = before ++ [q] := ⟨flags.dropLast, flags.getLast hfne, (List.dropLast_append_getLast hfne).symm⟩
  have hpath : path = before.map (·.1) ++ [q.1] := by rw [← hmap, hfl]; simp
  have hd : path.getLast hne = q.1 := by simp only [hpath, List.getLast_append_singleton]
  rw [hd] at hj
  obtain ⟨pre, h1, h2, h3, h4⟩ := area_invariant ha hmap hj before [q] hfl
  have h4 := h4 q.1 (by rw [hpath, List.getElem?_append_right (by simp)]; simp)
  obtain ⟨next, hnext, hrem⟩ := hj before q [] hfl
  rw [area2_eq hne, perimeter_eq hne, hd, hfl, kept_append]
  have hfull : q.1 :: path = pre ++ (lastKept q.1 before).1 :: ((lastKept q.1 before).2 ++ [q.1]) := by
    rw [hpath, ← List.cons_append, h1]; simp
  have hmem : (lastKept q.1 before).1 ∈ q.1 :: path := by rw [hfull]; simp
  generalize hpc : lastKept q.1 before = pc at *
  obtain ⟨prev, chain⟩ := pc
  generalize hdd : q.1 = d at *
  simp only at h1 h2 h3 h4 hrem hfull hmem
  have e1 : chainArea (d :: path) = chainArea (pre ++ [prev]) + chainArea (prev :: (chain ++ [d])) := by rw [hfull, chainArea_append]
  have e2 : lengthOf (d :: path) = lengthOf (pre ++ [prev]) + lengthOf (prev :: (chain ++ [d])) := by rw [hfull, lengthOf_append]
  have n1 := lengthOf_nonneg (pre ++ [prev])
  have n2 := lengthOf_nonneg (prev :: (chain ++ [d]))
  have ns := Real.sqrt_nonneg 26
  -- two cases of the difference
  have small : ∀ x : Int, x = (chainArea (pre ++ [prev]) - chainArea (d :: kept before)) + polyArea2 prev chain d →
      |(x : ℝ)| ≤ 2 * Real.sqrt 26 * lengthOf (d :: path) := by
    intro x hx
    rw [hx, e2]
    push_cast at h3 ⊢
    have h4' : |(polyArea2 prev chain d : ℝ)| ≤ Real.sqrt 26 * lengthOf (prev :: (chain ++ [d])) := h4
    refine (abs_add_le _ _).trans ((add_le_add h3 h4').trans ?_)
    have := mul_nonneg ns n1
    have := mul_nonneg ns n2
    linarith
  cases hb : q.2 with
  | true =>
    simp only [if_true]
    apply small
    rw [area2_eq (by simp), List.getLast_append_singleton, ← List.cons_append, chainArea_snoc (List.cons_ne_nil _ _), h2, e1]
    unfold polyArea2
    rw [cross_swap prev d, List.cons_append]
    ring
  | false =>
    simp only [Bool.false_eq_true, if_false]
    rcases hK : kept before with - | ⟨k, - | ⟨k2, K⟩⟩
    · -- nothing kept
      apply small
      rw [hK] at h2
      have h2 : d = prev := h2
      rw [hK, e1, area2]
      unfold polyArea2
      rw [h2, cross_self, List.cons_append]
      simp only [chainArea]
      ring
    · -- one vertex kept
      apply small
      rw [hK] at h2
      have h2 : k = prev := h2
      rw [hK, e1, area2]
      unfold polyArea2
      rw [h2, List.cons_append]
      simp only [chainArea, List.getLast_singleton, cross_self]
      rw [cross_swap prev d]
      ring
    · -- several vertices kept
      have hk : next = k := by
        have : nextVertex path before = some k := by
          unfold nextVertex
          rw [List.getElem?_eq_none (by rw [hpath]; simp), hK]
          simp
        rw [hnext] at this
        exact Option.some.inj this
      subst hk
      have hlast : (next :: k2 :: K).getLast (List.cons_ne_nil _ _) = prev := by
        rw [← h2]
        simp only [hK, List.getLast_cons_cons]
      have e3 : chainArea (d :: path) - area2 (next :: k2 :: K) = (chainArea (pre ++ [prev]) - chainArea (d :: next :: k2 :: K)) + polyArea2 prev (chain ++ [d]) next := by
        rw [e1, area2, hlast]
        unfold polyArea2
        have : prev :: (chain ++ [d]) ++ [next] = (prev :: chain) ++ [d, next] := by simp
        rw [this, chainArea_snoc2, cross_swap prev next, show chainArea (d :: next :: k2 :: K) = cross d next + chainArea (next :: k2 :: K) from rfl]
        simp only [List.cons_append]
        ring
      rcases removable_area ha (hrem hb) with he | he
      · apply small
        rw [e3, he, polyArea2_back, hK, he]
      · rw [e3]
        rw [hK] at h3
        push_cast at h3 ⊢
        have hkm : next ∈ d :: path := by
          apply List.mem_cons_of_mem
          rw [hpath]
          apply List.mem_append_left
          exact kept_subset (by rw [hK]; simp)
        have hdist := euclid_mem (d :: path) prev next hmem hkm
        have := mul_le_mul_of_nonneg_left hdist ns
        refine (abs_add_le _ _).trans ((add_le_add h3 he).trans ?_)
        rw [e2] at *
        have := mul_nonneg ns n2
        linarith

/-- **C104** `Simplify` changes the area of a closed path by at most 5.1 µm times its length: it is right for all coordinates in exact arithmetic. -/
theorem C104_simplify (path : Path) (s a : Int) (hn : 3 ≤ path.length) (ha : a ≤ 25) :
    ∃ r, simplify path s a = .ok r ∧ |((area2 path - area2 r : Int) : ℝ)| ≤ 2 * Real.sqrt 26 * perimeter path := by
  rcases Nat.lt_or_ge path.length 4 with h4 | h4
  · refine ⟨path, ?_, ?_⟩
    · unfold simplify
      simp only []
      rw [if_neg (by omega), if_pos (by omega)]
      rfl
    · simp only [sub_self, Int.cast_zero, abs_zero]
      rw [perimeter_eq (by rintro rfl; simp at hn)]
      have := lengthOf_nonneg (path.getLast (by rintro rfl; simp at hn) :: path)
      positivity
  · obtain ⟨flags, hmap, hr, hj⟩ := C09_criteria path s a h4
    refine ⟨_, hr, area_of_flags (by rintro rfl; simp at hn) (s := if s = -1 then 100 else s) (a := if a = -1 then 25 else a) (by split <;> omega) hmap ?_⟩
    intro before q after h
    obtain ⟨next, h1, h2⟩ := hj before q after h
    exact ⟨next, h1, h2.1⟩

/-- **C104** The same for the int64 computation with coordinates below 67 m. -/
theorem C104_int64 (path : Path) (s a : Int) (hn : 3 ≤ path.length) (hsmall : ∀ p ∈ path, |p.x| < 2 ^ 26 ∧ |p.y| < 2 ^ 26) (hs : s ≤ 2 ^ 30) (ha : a ≤ 25) :
    ∃ r, simplifyM path s a = .ok r ∧ |((area2 path - area2 r : Int) : ℝ)| ≤ 2 * Real.sqrt 26 * perimeter path := by
  rcases Nat.lt_or_ge path.length 4 with h4 | h4
  · refine ⟨path, ?_, ?_⟩
    · unfold simplifyM
      simp only []
      rw [if_neg (by omega), if_pos (by omega)]
      rfl
    · simp only [sub_self, Int.cast_zero, abs_zero]
      rw [perimeter_eq (by rintro rfl; simp at hn)]
      have := lengthOf_nonneg (path.getLast (by rintro rfl; simp at hn) :: path)
      positivity
  · obtain ⟨flags, hmap, hr, hj⟩ := C09_int64 path s a h4 hsmall hs ha
    refine ⟨_, hr, area_of_flags (by rintro rfl; simp at hn) (s := if s = -1 then 100 else s) (a := if a = -1 then 25 else a) (by split <;> omega) hmap ?_⟩
    intro before q after h
    obtain ⟨prev, chain, next, h0, h1, h2, -⟩ := hj before q after h
    refine ⟨next, h1, fun hb => ?_⟩
    rw [← h0]
    exact h2 hb

/-- Non-vacuity: two of six vertices are removed and twice the area changes by 10000 µm², less than the bound of about 400000 µm². -/
example : simplifyM [⟨0, 0⟩, ⟨5000, 1⟩, ⟨10000, 0⟩, ⟨10000, 10000⟩, ⟨9998, 9999⟩, ⟨0, 10000⟩] (-1) (-1) =
      .ok [⟨0, 0⟩, ⟨10000, 0⟩, ⟨9998, 9999⟩, ⟨0, 10000⟩] ∧
    area2 [⟨0, 0⟩, ⟨5000, 1⟩, ⟨10000, 0⟩, ⟨10000, 10000⟩, ⟨9998, 9999⟩, ⟨0, 10000⟩] = 199980000 ∧
    area2 [⟨0, 0⟩, ⟨10000, 0⟩, ⟨9998, 9999⟩, ⟨0, 10000⟩] = 199970000 := by decide +kernel

/-- The bound is not a triviality: it does not hold when all but two vertices of a square with sides of 10 mm are removed. -/
example : ¬ |((area2 [⟨0, 0⟩, ⟨10000, 0⟩, ⟨10000, 10000⟩, ⟨0, 10000⟩] - area2 [⟨0, 0⟩, ⟨10000, 0⟩] : Int) : ℝ)| ≤
    2 * Real.sqrt 26 * perimeter [⟨0, 0⟩, ⟨10000, 0⟩, ⟨10000, 10000⟩, ⟨0, 10000⟩] := by
  have h1 : area2 [⟨0, 0⟩, ⟨10000, 0⟩, ⟨10000, 10000⟩, ⟨0, 10000⟩] - area2 [⟨0, 0⟩, ⟨10000, 0⟩] = 200000000 := by decide +kernel
  have hs : Real.sqrt 26 ≤ 6 := by
    rw [Real.sqrt_le_left (by norm_num)]
    norm_num
  have hd : ∀ a b : Pt, dist2 a b = 100000000 → euclid a b = 10000 := by
    intro a b h
    unfold euclid
    rw [h, show ((100000000 : Int) : ℝ) = 10000 ^ 2 by norm_num, Real.sqrt_sq (by norm_num)]
  have h2 : perimeter [⟨0, 0⟩, ⟨10000, 0⟩, ⟨10000, 10000⟩, ⟨0, 10000⟩] = 40000 := by
    simp only [perimeter, lengthOf, List.getLast_cons_cons, List.getLast_singleton]
    rw [hd ⟨0, 0⟩ ⟨10000, 0⟩ (by decide), hd ⟨10000, 0⟩ ⟨10000, 10000⟩ (by decide), hd ⟨10000, 10000⟩ ⟨0, 10000⟩ (by decide), hd ⟨0, 10000⟩ ⟨0, 0⟩ (by decide)]
    norm_num
  rw [h1, h2]
  norm_num
  linarith

end Verif
