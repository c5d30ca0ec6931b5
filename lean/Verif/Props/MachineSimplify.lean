import Verif.Props.Machine
import Verif.Props.Simplify

/-! # C08, C09 with int64 arithmetic -/
namespace Verif
open Verif.Go Verif.Model Verif.Spec

/-! ## All paths, whatever overflows -/

theorem simplifyNext_ok (path new : Path) (k : Nat) (hk : k < path.length) : ∃ q, simplifyNext path new k = .ok q := by
  unfold simplifyNext
  split
  · rename_i h
    have := index_ofNat path (k + 1) h
    push_cast at this
    exact ⟨_, this⟩
  · split
    · rename_i h
      exact ⟨_, index_ofNat new 0 (by omega)⟩
    · have h1 : (k : Int) + 1 = path.length := by
        rename_i h _
        have : k + 1 = path.length := by omega
        exact_mod_cast this
      rw [h1, Int.tmod_self]
      exact ⟨_, index_ofNat path 0 (by omega)⟩

theorem index_current (path : Path) (k : Nat) (hk : k < path.length) : index path (Int.tmod k path.length) = .ok path[k] := by
  have : Int.tmod (k : Int) path.length = (k : Int) := Int.tmod_eq_of_lt (by omega) (by exact_mod_cast hk)
  rw [this]; exact index_ofNat path k hk

theorem simplifyStepM_ok (path : Path) (s a : Int) (st : SimplifyState) (k : Nat) (hk : k < path.length) :
    ∃ st', simplifyStepM path s a st k = .ok st' ∧ (st'.newPath = st.newPath ∨ st'.newPath = st.newPath ++ [path[k]]) := by
  obtain ⟨q, hq⟩ := simplifyNext_ok path st.newPath k hk
  simp only [simplifyStepM, index_current path k hk, hq, bind, Except.bind]
  split
  · exact ⟨_, rfl, Or.inl rfl⟩
  · rename_i h
    unfold quo
    rw [if_neg h]
    simp only []
    split
    · exact ⟨_, rfl, Or.inl rfl⟩
    · exact ⟨_, rfl, Or.inr rfl⟩

theorem simplifyLoopM_sublist (path : Path) (s a : Int) (st : SimplifyState) (hst : st.newPath = []) (k : Nat) (hk : k ≤ path.length) :
    ∃ st', (List.range k).foldlM (simplifyStepM path s a) st = .ok st' ∧ st'.newPath.Sublist (path.take k) := by
  induction k with
  | zero => exact ⟨st, rfl, by simp [hst]⟩
  | succ k ih =>
    obtain ⟨st1, h1, h2⟩ := ih (by omega)
    obtain ⟨st2, h3, h4⟩ := simplifyStepM_ok path s a st1 k (by omega)
    refine ⟨st2, ?_, ?_⟩
    · rw [List.range_succ, List.foldlM_append, h1]
      simp only [bind, Except.bind, List.foldlM_cons, List.foldlM_nil, h3]; rfl
    · rw [List.take_succ_eq_append_getElem (by omega : k < path.length)]
      rcases h4 with h4 | h4
      · rw [h4]; exact h2.trans (List.sublist_append_left _ _)
      · rw [h4]; exact h2.append (List.Sublist.refl _)

/-- **C08** With int64 arithmetic: `Simplify` never panics, and returns only vertices of the path in their order, whatever overflows. -/
theorem C08_int64 (path : Path) (s a : Int) : ∃ r, simplifyM path s a = .ok r ∧ r.Sublist path := by
  unfold simplifyM
  simp only []
  by_cases h2 : path.length ≤ 2
  · rw [if_pos h2]; exact ⟨[], rfl, List.nil_sublist _⟩
  rw [if_neg h2]
  by_cases h3 : path.length = 3
  · rw [if_pos h3]; exact ⟨path, rfl, List.Sublist.refl _⟩
  rw [if_neg h3]
  have e1 : index path ((path.length : Int) - 1) = .ok path[path.length - 1] := by
    rw [← index_ofNat path (path.length - 1) (by omega)]; congr 1; omega
  have e2 : index path 0 = .ok path[0] := index_ofNat path 0 (by omega)
  simp only [e1, e2, bind, Except.bind]
  obtain ⟨st, h4, h5⟩ := simplifyLoopM_sublist path (if s = -1 then 100 else s) (if a = -1 then 25 else a)
    ⟨[], path[path.length - 1], crossM path[path.length - 1] path[0]⟩ rfl path.length (le_refl _)
  rw [h4]
  rw [List.take_length] at h5
  exact ⟨_, rfl, h5⟩

/-- **C08** Degenerate paths: at most two vertices give the empty path, three are kept. -/
theorem C08_int64_short (path : Path) (s a : Int) :
    (path.length ≤ 2 → simplifyM path s a = .ok []) ∧ (path.length = 3 → simplifyM path s a = .ok path) := by
  unfold simplifyM
  simp only []
  constructor
  · intro h; rw [if_pos h]; rfl
  · intro h; rw [if_neg (by omega), if_pos h]; rfl

/-! ## Coordinates below `2^26` µm (67 m) -/

theorem wrap_emod (n : Int) : ∃ k, wrap n = n - k * 2 ^ 64 := by
  unfold wrap
  refine ⟨n.bdiv (2 ^ 64), ?_⟩
  have := Int.bmod_add_bdiv' n (2 ^ 64)
  push_cast at this ⊢
  linarith

theorem wrap_range (n : Int) : -2 ^ 63 ≤ wrap n ∧ wrap n < 2 ^ 63 := by
  unfold wrap
  have h1 := Int.le_bmod (x := n) (m := 2 ^ 64) (by norm_num)
  have h2 := Int.bmod_lt (x := n) (m := 2 ^ 64) (by norm_num)
  norm_num at h1 h2 ⊢
  omega

theorem wrap_le {n : Int} (h : 0 ≤ n) : wrap n ≤ n := by
  obtain ⟨k, hk⟩ := wrap_emod n
  have := wrap_range n
  by_contra hc
  have : k ≤ -1 := by omega
  omega

/-- Two numbers in the int64 range which differ by a multiple of `2^64` are equal. -/
theorem wrap_add_wrap (a b : Int) : wrap (wrap a + b) = wrap (a + b) := by
  unfold wrap; rw [Int.bmod_add_bmod]

theorem tdiv_bounds (a : Int) {c : Int} (hc : 0 < c) :
    (0 ≤ a → 0 ≤ a.tdiv c ∧ a.tdiv c * c ≤ a) ∧ (a ≤ 0 → a ≤ a.tdiv c * c ∧ a.tdiv c ≤ 0) := by
  constructor
  · intro h
    rw [Int.tdiv_eq_ediv_of_nonneg h]
    exact ⟨Int.ediv_nonneg h hc.le, Int.ediv_mul_le a hc.ne'⟩
  · intro h
    have e : a.tdiv c = -((-a) / c) := by rw [← Int.tdiv_eq_ediv_of_nonneg (by omega), Int.neg_tdiv]; ring
    have h1 := Int.ediv_mul_le (-a) hc.ne'
    have h2 : 0 ≤ -a / c := Int.ediv_nonneg (by omega) hc.le
    rw [e]
    constructor
    · rw [neg_mul]; omega
    · omega

theorem tdiv_mono_left {a b c : Int} (h : a ≤ b) (hc : 0 < c) : a.tdiv c ≤ b.tdiv c := by
  rcases le_or_gt 0 a with ha | ha
  · rw [Int.tdiv_eq_ediv_of_nonneg ha, Int.tdiv_eq_ediv_of_nonneg (ha.trans h)]
    exact Int.ediv_le_ediv hc h
  · rcases le_or_gt 0 b with hb | hb
    · exact ((tdiv_bounds a hc).2 ha.le).2.trans ((tdiv_bounds b hc).1 hb).1
    · have e : ∀ x : Int, x.tdiv c = -((-x).tdiv c) := fun x => by rw [Int.neg_tdiv]; ring
      rw [e a, e b, Int.tdiv_eq_ediv_of_nonneg (by omega), Int.tdiv_eq_ediv_of_nonneg (by omega)]
      have := Int.ediv_le_ediv (a := -b) (b := -a) hc (by omega)
      omega

/-- Overflow can only increase a computed distance. -/
theorem perpendicularDistance2M_ge (a b p : Pt) (hbx : |b.x - a.x| < 2 ^ 27) (hby : |b.y - a.y| < 2 ^ 27)
    (hpx : |p.x - a.x| < 2 ^ 27) (hpy : |p.y - a.y| < 2 ^ 27) :
    perpendicularDistance2 a b p ≤ perpendicularDistance2M a b p := by
  by_cases hdot : ((b.x - a.x) * (p.x - a.x) + (b.y - a.y) * (p.y - a.y)) ^ 2 < 2 ^ 63
  · exact (perpendicularDistance2M_eq a b p (by omega) (by omega) (by omega) (by omega) hdot).ge
  unfold perpendicularDistance2M perpendicularDistance2
  rw [subM_eq b a (by omega) (by omega), subM_eq p a (by omega) (by omega)]
  have e1 : (b.sub a).x = b.x - a.x := rfl
  have e2 : (b.sub a).y = b.y - a.y := rfl
  have e3 : (p.sub a).x = p.x - a.x := rfl
  have e4 : (p.sub a).y = p.y - a.y := rfl
  rw [← e1] at hbx; rw [← e2] at hby; rw [← e3] at hpx; rw [← e4] at hpy
  rw [← e1, ← e2, ← e3, ← e4] at hdot
  generalize b.sub a = u at *
  generalize p.sub a = v at *
  have k1 := size2M_eq u (by omega) (by omega)
  have k2 := size2M_eq v (by omega) (by omega)
  have k3 := dotProductM_eq u v (by omega) (by omega) (by omega) (by omega)
  simp only [k1, k2, k3]
  have hd : 2 ^ 63 ≤ dotProduct u v * dotProduct u v := by unfold dotProduct; rw [← pow_two]; exact not_lt.1 hdot
  have hu := size2_nonneg u
  have hv := size2_nonneg v
  have s1 := mul_self_bounds hpx.le
  have s2 := mul_self_bounds hpy.le
  have hv2 : v.size2 ≤ 2 ^ 55 := by unfold Pt.size2; omega
  have hcs : dotProduct u v * dotProduct u v ≤ u.size2 * v.size2 := by
    unfold dotProduct Pt.size2; nlinarith [sq_nonneg (u.x * v.y - u.y * v.x)]
  have hu8 : 2 ^ 8 ≤ u.size2 := by
    by_contra hc
    have h1 : u.size2 * v.size2 ≤ 255 * 2 ^ 55 := mul_le_mul (by omega) hv2 hv (by norm_num)
    omega
  have hu0 : 0 < u.size2 := by omega
  rw [if_neg (by omega), if_neg (by omega)]
  have hd0 := mul_self_nonneg (dotProduct u v)
  generalize dotProduct u v * dotProduct u v = D at *
  have hw := wrap_range D
  have hwl := wrap_le hd0
  have hq1 := tdiv_mono_left hwl hu0
  have hq2 : -2 ^ 63 ≤ (wrap D).tdiv u.size2 * u.size2 ∧ (wrap D).tdiv u.size2 * u.size2 < 2 ^ 63 := by
    obtain ⟨h1, h2⟩ := tdiv_bounds (wrap D) hu0
    rcases le_or_gt 0 (wrap D) with h | h
    · have := mul_nonneg (h1 h).1 hu
      have := (h1 h).2
      omega
    · have := h2 h.le
      have : (wrap D).tdiv u.size2 * u.size2 ≤ 0 := mul_nonpos_of_nonpos_of_nonneg this.2 hu
      omega
  generalize (wrap D).tdiv u.size2 = q at *
  have hq3 : -2 ^ 55 ≤ q ∧ q < 2 ^ 55 := by
    constructor <;> nlinarith
  rw [wrap_of_lt (n := q) (by omega) (by omega), wrap_of_lt (n := v.size2 - q) (by omega) (by omega)]
  unfold maxM
  split <;> split <;> omega

/-- All coordinates are below `2^26` µm. -/
def SmallCoords (p : Pt) : Prop := |p.x| < 2 ^ 26 ∧ |p.y| < 2 ^ 26

theorem SmallCoords.sub {p q : Pt} (hp : SmallCoords p) (hq : SmallCoords q) : |p.x - q.x| < 2 ^ 27 ∧ |p.y - q.y| < 2 ^ 27 := by
  obtain ⟨h1, h2⟩ := hp
  obtain ⟨h3, h4⟩ := hq
  rw [abs_lt] at h1 h2 h3 h4
  constructor <;> rw [abs_lt] <;> constructor <;> omega

theorem SmallCoords.dist2 {p q : Pt} (hp : SmallCoords p) (hq : SmallCoords q) : dist2 p q ≤ 2 ^ 55 := by
  obtain ⟨h1, h2⟩ := hp.sub hq
  have s1 := mul_self_bounds h1.le
  have s2 := mul_self_bounds h2.le
  unfold Spec.dist2; rw [pow_two, pow_two]; omega

theorem size2M_sub {p q : Pt} (hp : SmallCoords p) (hq : SmallCoords q) : size2M (subM p q) = dist2 p q := by
  obtain ⟨h1, h2⟩ := hp.sub hq
  rw [subM_eq p q (by omega) (by omega), size2M_eq]
  · unfold Pt.size2 Pt.sub dist2; ring
  · show |p.x - q.x| < 2 ^ 30; omega
  · show |p.y - q.y| < 2 ^ 30; omega

theorem crossM_eq (p q : Pt) (hp : SmallCoords p) (hq : SmallCoords q) : crossM p q = cross p q := by
  have m1 := mul_bounds hp.1.le hq.2.le
  have m2 := mul_bounds hp.2.le hq.1.le
  unfold crossM cross
  rw [wrap_of_lt (n := p.x * q.y), wrap_of_lt (n := p.y * q.x), wrap_of_lt] <;> omega

/-- Twice the signed area of a triangle. -/
def tri (a b c : Pt) : Int := (b.x - a.x) * (c.y - a.y) - (b.y - a.y) * (c.x - a.x)

theorem polyArea2_snoc (a : Pt) (l : List Pt) (b c : Pt) : polyArea2 a (l ++ [b]) c = polyArea2 a l b + tri a b c := by
  unfold polyArea2
  have := chainArea_snoc2 (a :: l) b c
  simp only [List.cons_append, List.append_assoc, List.nil_append] at this ⊢
  rw [this]; unfold cross tri; ring

theorem polyArea2_nil (a b : Pt) : polyArea2 a [] b = 0 := by
  simp [polyArea2, chainArea, cross]; ring

theorem sq_le_bound {x b : Int} (hb : 0 ≤ b) (h : x ^ 2 ≤ b ^ 2) : |x| ≤ b := by
  rw [abs_le]; constructor <;> nlinarith

/-- The area of a nearly degenerate triangle is small. -/
theorem tri_near {a b c : Pt} (ha : SmallCoords a) (hb : SmallCoords b) (h : perpendicularDistance2 b a c ≤ 25) :
    |tri a b c| ≤ 2 ^ 30 := by
  refine sq_le_bound (by norm_num) ?_
  have hd := ha.dist2 hb
  have hl : lineDist2 b a c ≤ 25 := (C04_tight b a c).1.trans (by exact_mod_cast h)
  by_cases hab : b = a
  · subst hab; unfold tri; simp
  unfold lineDist2 at hl
  rw [if_neg hab] at hl
  have hpos : (0 : ℚ) < ((a.x - b.x : Int) : ℚ) ^ 2 + ((a.y - b.y : Int) : ℚ) ^ 2 := by
    have : 0 < (a.x - b.x) ^ 2 + (a.y - b.y) ^ 2 := by
      by_contra hc
      apply hab
      have h1 : a.x - b.x = 0 := by nlinarith [sq_nonneg (a.x - b.x), sq_nonneg (a.y - b.y)]
      have h2 : a.y - b.y = 0 := by nlinarith [sq_nonneg (a.x - b.x), sq_nonneg (a.y - b.y)]
      cases a; cases b; simp only [Pt.mk.injEq] at *; omega
    exact_mod_cast this
  rw [div_le_iff₀ hpos] at hl
  have hl' : ((a.x - b.x) * (c.y - b.y) - (a.y - b.y) * (c.x - b.x)) ^ 2 ≤ 25 * ((a.x - b.x) ^ 2 + (a.y - b.y) ^ 2) := by
    exact_mod_cast hl
  have e : tri a b c ^ 2 = ((a.x - b.x) * (c.y - b.y) - (a.y - b.y) * (c.x - b.x)) ^ 2 := by unfold tri; ring
  rw [e]
  unfold Spec.dist2 at hd
  omega

/-- The area of a triangle with two short sides is small. -/
theorem tri_short {a b c : Pt} {s : Int} (hs : s ≤ 2 ^ 30) (h1 : dist2 b a < s) (h2 : dist2 b c < s) : |tri a b c| ≤ 2 ^ 30 := by
  refine sq_le_bound (by norm_num) ?_
  have e : tri a b c ^ 2 ≤ dist2 b a * dist2 b c := by
    have : dist2 b a * dist2 b c = tri a b c ^ 2 + ((b.x - a.x) * (b.x - c.x) + (b.y - a.y) * (b.y - c.y)) ^ 2 := by
      unfold dist2 tri; ring
    rw [this]; linarith [sq_nonneg ((b.x - a.x) * (b.x - c.x) + (b.y - a.y) * (b.y - c.y))]
  have n1 : 0 ≤ dist2 b a := by unfold dist2; positivity
  have n2 : 0 ≤ dist2 b c := by unfold dist2; positivity
  nlinarith

/-- The decision with and without overflow. -/
theorem decision_eq {pv cur next : Pt} {ch : List Pt} {s a A : Int} (h1 : SmallCoords pv) (h2 : SmallCoords cur) (h3 : SmallCoords next)
    (hs : s ≤ 2 ^ 30) (hb : dist2 next pv ≠ 0) (hc : polyArea2 pv ch cur ^ 2 ≤ 208 * 2 ^ 52)
    (hA : A = wrap (polyArea2 pv (ch ++ [cur]) next)) :
    ((wrap ((wrap (A * A)).tdiv (dist2 next pv)) ≤ 25 ∧ perpendicularDistance2M cur pv next ≤ 25) ∨
      (dist2 cur pv < s ∧ dist2 cur next < s ∧ wrap ((wrap (A * A)).tdiv (dist2 next pv)) ≤ a)) ↔
    ((polyArea2 pv (ch ++ [cur]) next ^ 2 / dist2 next pv ≤ 25 ∧ perpendicularDistance2M cur pv next ≤ 25) ∨
      (dist2 cur pv < s ∧ dist2 cur next < s ∧ polyArea2 pv (ch ++ [cur]) next ^ 2 / dist2 next pv ≤ a)) := by
  have hbn : 0 ≤ dist2 next pv := by unfold dist2; positivity
  by_cases hcase : perpendicularDistance2M cur pv next ≤ 25 ∨ (dist2 cur pv < s ∧ dist2 cur next < s)
  · have ht : |tri pv cur next| ≤ 2 ^ 30 := by
      rcases hcase with h | ⟨h, h'⟩
      · obtain ⟨b1, b2⟩ := h1.sub h2
        obtain ⟨b3, b4⟩ := h3.sub h2
        exact tri_near h1 h2 ((perpendicularDistance2M_ge cur pv next b1 b2 b3 b4).trans h)
      · exact tri_short hs h h'
    have hc' : |polyArea2 pv ch cur| ≤ 2 ^ 30 := sq_le_bound (by norm_num) (by omega)
    have hP : |polyArea2 pv (ch ++ [cur]) next| ≤ 2 ^ 31 := by
      rw [polyArea2_snoc]
      have := abs_add_le (polyArea2 pv ch cur) (tri pv cur next)
      omega
    have hA' : A = polyArea2 pv (ch ++ [cur]) next := by rw [hA]; exact wrap_of_abs hP (by norm_num)
    rw [← hA'] at hP ⊢
    have hAA := mul_self_bounds hP
    have e : wrap ((wrap (A * A)).tdiv (dist2 next pv)) = A ^ 2 / dist2 next pv := by
      rw [wrap_of_lt (n := A * A) (by omega) (by omega), Int.tdiv_eq_ediv_of_nonneg hAA.1, pow_two]
      have l1 : 0 ≤ A * A / dist2 next pv := Int.ediv_nonneg hAA.1 hbn
      have l2 : A * A / dist2 next pv ≤ A * A := Int.ediv_le_self _ hAA.1
      exact wrap_of_lt (by omega) (by omega)
    rw [e]
  · constructor
    · rintro (⟨-, h⟩ | ⟨h, h', -⟩)
      · exact absurd (Or.inl h) hcase
      · exact absurd (Or.inr ⟨h, h'⟩) hcase
    · rintro (⟨-, h⟩ | ⟨h, h', -⟩)
      · exact absurd (Or.inl h) hcase
      · exact absurd (Or.inr ⟨h, h'⟩) hcase

/-- The judgement of one vertex, with the computed distance. -/
def JudgedM (smallest allowed : Int) (d : Pt) (path : List Pt) (before : List (Pt × Bool)) (q : Pt × Bool) : Prop :=
  ∃ next, nextVertex path before = some next ∧ SmallCoords next ∧ SmallCoords (lastKept d before).1 ∧
    (q.2 = false ↔ dist2 next (lastKept d before).1 = 0 ∨
      (polyArea2 (lastKept d before).1 ((lastKept d before).2 ++ [q.1]) next ^ 2 / dist2 next (lastKept d before).1 ≤ 25 ∧
        perpendicularDistance2M q.1 (lastKept d before).1 next ≤ 25) ∨
      (dist2 q.1 (lastKept d before).1 < smallest ∧ dist2 q.1 next < smallest ∧
        polyArea2 (lastKept d before).1 ((lastKept d before).2 ++ [q.1]) next ^ 2 / dist2 next (lastKept d before).1 ≤ allowed))

theorem kept_sub (flags : List (Pt × Bool)) : ∀ p ∈ kept flags, p ∈ flags.map (·.1) := by
  intro p hp
  obtain ⟨q, hq, rfl⟩ := List.mem_map.1 hp
  exact List.mem_map_of_mem (List.mem_of_mem_filter hq)

theorem simplifyLoopM_spec (path : Path) (smallest allowed : Int) (d : Pt) (hd : 0 < path.length) (hs : smallest ≤ 2 ^ 30)
    (ha : allowed ≤ 25) (hsmall : ∀ p ∈ path, SmallCoords p) (hdd : SmallCoords d) (k : Nat) (hk : k ≤ path.length) :
    ∃ (flags : List (Pt × Bool)) (st : SimplifyState),
      (List.range k).foldlM (simplifyStepM path smallest allowed)
        ⟨[], d, crossM d path[0]⟩ = .ok st ∧
      flags.map (·.1) = path.take k ∧
      st.newPath = kept flags ∧ st.previous = (lastKept d flags).1 ∧ SmallCoords (lastKept d flags).1 ∧
      (∀ h : k < path.length,
        st.areaRemoved = wrap (chainArea ((lastKept d flags).1 :: (lastKept d flags).2 ++ [path[k]])) ∧
        polyArea2 (lastKept d flags).1 (lastKept d flags).2 path[k] ^ 2 ≤ 208 * 2 ^ 52) ∧
      (∀ before q after, flags = before ++ q :: after → JudgedM smallest allowed d path before q) := by
  induction k with
  | zero =>
    have h0 := hsmall path[0] (List.getElem_mem _)
    refine ⟨[], ⟨[], d, crossM d path[0]⟩, rfl, rfl, rfl, rfl, hdd, ?_, ?_⟩
    · intro _
      refine ⟨?_, ?_⟩
      · simp [lastKept, chainArea, crossM, cross, wrap]
      · simp only [lastKept, List.foldl_nil, polyArea2_nil]; norm_num
    · intro before q after h; simp at h
  | succ k ih =>
    obtain ⟨flags, st, hrun, hmap, hnew, hprev, hpsmall, harea, hj⟩ := ih (by omega)
    have hklt : k < path.length := by omega
    have hlen : flags.length = k := by
      have := congrArg List.length hmap
      simpa [Nat.min_eq_left hklt.le] using this
    obtain ⟨harea, hbound⟩ := harea hklt
    rw [List.range_succ, List.foldlM_append, hrun]
    simp only [bind, Except.bind, List.foldlM_cons, List.foldlM_nil]
    -- the next vertex
    obtain ⟨next, hnext, hnextIdx, hnextPath, hnsmall⟩ : ∃ next, nextVertex path flags = some next ∧
        simplifyNext path st.newPath k = .ok next ∧
        (∀ h : k + 1 < path.length, next = path[k + 1]) ∧ SmallCoords next := by
      unfold simplifyNext
      by_cases h1 : k + 1 < path.length
      · refine ⟨path[k + 1], ?_, ?_, fun _ => rfl, hsmall _ (List.getElem_mem _)⟩
        · simp [nextVertex, hlen, h1]
        · rw [if_pos h1]
          have := index_ofNat path (k + 1) h1
          push_cast at this; exact this
      · have hke : k + 1 = path.length := by omega
        have hnone : path[flags.length + 1]? = none := by rw [hlen]; exact List.getElem?_eq_none (by omega)
        by_cases h2 : 1 < (kept flags).length
        · have hpos : 0 < (kept flags).length := by omega
          refine ⟨(kept flags)[0], ?_, ?_, fun h => absurd h h1, ?_⟩
          · simp only [nextVertex, hnone]
            rw [if_pos h2, List.head?_eq_getElem?, List.getElem?_eq_getElem hpos]
          · rw [if_neg h1, if_pos ⟨hke, by rw [hnew]; exact h2⟩, hnew]
            exact index_ofNat _ 0 hpos
          · have := kept_sub flags _ (List.getElem_mem hpos)
            rw [hmap] at this
            exact hsmall _ (List.mem_of_mem_take this)
        · refine ⟨path[0], ?_, ?_, fun h => absurd h h1, hsmall _ (List.getElem_mem _)⟩
          · simp only [nextVertex, hnone]
            rw [if_neg h2, List.head?_eq_getElem?, List.getElem?_eq_getElem hd]
          · rw [if_neg h1, if_neg (by rw [hnew]; exact fun h => h2 h.2)]
            have : Int.tmod ((k : Int) + 1) path.length = ((0 : Nat) : Int) := by
              have : (k : Int) + 1 = path.length := by exact_mod_cast hke
              rw [this]; exact Int.tmod_self
            rw [this]
            exact index_ofNat _ 0 hd
    have hcur := index_current path k hklt
    have hcsmall : SmallCoords path[k] := hsmall _ (List.getElem_mem _)
    -- quantities
    set pv := (lastKept d flags).1 with hpv
    set ch := (lastKept d flags).2 with hch
    set cur := path[k] with hcurdef
    have hA' : wrap (st.areaRemoved + cross cur next) = wrap (chainArea (pv :: (ch ++ [cur]) ++ [next])) := by
      rw [harea, wrap_add_wrap]
      have := chainArea_snoc2 (pv :: ch) cur next
      simp only [List.cons_append, List.append_assoc, List.nil_append] at this ⊢
      rw [this]
    have hA : wrap (wrap (st.areaRemoved + cross cur next) + cross next pv) = wrap (polyArea2 pv (ch ++ [cur]) next) := by
      rw [hA', wrap_add_wrap, polyArea2]
    have hbnn : 0 ≤ dist2 next pv := by unfold dist2; positivity
    -- the decision
    have hstep : ∃ (b : Bool) (st' : SimplifyState), simplifyStepM path smallest allowed st k = .ok st' ∧
        (b = false ↔ dist2 next pv = 0 ∨
          (polyArea2 pv (ch ++ [cur]) next ^ 2 / dist2 next pv ≤ 25 ∧ perpendicularDistance2M cur pv next ≤ 25) ∨
          (dist2 cur pv < smallest ∧ dist2 cur next < smallest ∧ polyArea2 pv (ch ++ [cur]) next ^ 2 / dist2 next pv ≤ allowed)) ∧
        (b = false → st' = { st with areaRemoved := wrap (st.areaRemoved + cross cur next) }) ∧
        (b = true → st' = ⟨st.newPath ++ [cur], cur, cross cur next⟩) := by
      simp only [simplifyStepM, hcur, bind, Except.bind, hnextIdx]
      rw [hprev, crossM_eq cur next hcsmall hnsmall, crossM_eq next pv hnsmall hpsmall, hA, size2M_sub hcsmall hpsmall,
        size2M_sub hcsmall hnsmall, size2M_sub hnsmall hpsmall]
      by_cases hb0 : dist2 next pv = 0
      · rw [if_pos hb0]
        exact ⟨false, _, rfl, by simp [hb0], fun _ => rfl, by simp⟩
      · rw [if_neg hb0]
        unfold quo
        rw [if_neg hb0]
        simp only []
        have hdec := decision_eq (a := allowed) hpsmall hcsmall hnsmall hs hb0 hbound rfl
        split
        · rename_i hc
          exact ⟨false, _, rfl, by simp only [true_iff]; exact Or.inr (hdec.1 hc), fun _ => rfl, by simp⟩
        · rename_i hc
          refine ⟨true, _, rfl, ?_, by simp, fun _ => rfl⟩
          simp only [Bool.true_eq_false, false_iff]
          rintro (h | h)
          · exact hb0 h
          · exact hc (hdec.2 h)
    obtain ⟨b, st', hst', hb, hbf, hbt⟩ := hstep
    have hpoly : b = false → polyArea2 pv (ch ++ [cur]) next ^ 2 ≤ 208 * 2 ^ 52 := by
      intro h
      have hq : dist2 next pv = 0 ∨ polyArea2 pv (ch ++ [cur]) next ^ 2 / dist2 next pv ≤ 25 := by
        rcases hb.1 h with h | ⟨h, -⟩ | ⟨-, -, h⟩
        · exact Or.inl h
        · exact Or.inr h
        · exact Or.inr (h.trans ha)
      by_cases h0 : dist2 next pv = 0
      · have : next = pv := by
          unfold dist2 at h0
          have h1 : next.x - pv.x = 0 := by nlinarith [sq_nonneg (next.x - pv.x), sq_nonneg (next.y - pv.y)]
          have h2 : next.y - pv.y = 0 := by nlinarith [sq_nonneg (next.x - pv.x), sq_nonneg (next.y - pv.y)]
          cases hn : next; cases hp : pv; rw [hn, hp] at h1 h2; simp only [Pt.mk.injEq] at *; omega
        rw [polyArea2_snoc, this]
        have : tri pv cur pv = 0 := by unfold tri; ring
        rw [this, add_zero]; exact hbound
      · have h1 := hq.resolve_left h0
        have hlt := Int.lt_ediv_add_one_mul_self (polyArea2 pv (ch ++ [cur]) next ^ 2) (lt_of_le_of_ne hbnn (Ne.symm h0))
        have hd2 := hnsmall.dist2 hpsmall
        nlinarith
    refine ⟨flags ++ [(cur, b)], st', ?_, ?_, ?_, ?_, ?_, ?_, ?_⟩
    · rw [hst']; rfl
    · rw [List.map_append, hmap, List.take_succ_eq_append_getElem hklt]; rfl
    · rw [kept_append]
      cases b with
      | false => rw [hbf rfl]; simpa using hnew
      | true => rw [hbt rfl]; simp [hnew]
    · rw [lastKept_append]
      cases b with
      | false => rw [hbf rfl]; simpa using hprev
      | true => rw [hbt rfl]; simp
    · rw [lastKept_append]
      cases b with
      | false => simpa using hpsmall
      | true => simpa using hcsmall
    · intro h
      rw [lastKept_append]
      have hn := hnextPath h
      cases b with
      | false =>
        rw [hbf rfl]; simp only [Bool.false_eq_true, if_false]
        rw [← hn]
        exact ⟨hA', hpoly rfl⟩
      | true =>
        rw [hbt rfl]
        simp only [if_true]
        rw [← hn]
        refine ⟨?_, ?_⟩
        · rw [← crossM_eq cur next hcsmall hnsmall]
          simp [chainArea, crossM, cross, wrap]
        · rw [polyArea2_nil]; norm_num
    · intro before q after hsplit
      rcases List.eq_nil_or_concat after with h0 | ⟨a', x, hx⟩
      · subst h0
        have := List.append_inj' hsplit rfl
        obtain ⟨h1, h2⟩ := this
        simp only [List.cons.injEq, and_true] at h2
        subst h1; subst h2
        exact ⟨next, hnext, hnsmall, hpsmall, hb⟩
      · subst hx
        have h1 : flags ++ [(cur, b)] = (before ++ q :: a') ++ [x] := by rw [hsplit]; simp
        have := List.append_inj' h1 rfl
        exact hj before q a' this.1

/-- **C09** With int64 arithmetic and coordinates below 67 m: every vertex which is removed fulfils the documented criteria (overflow never
removes a vertex which they protect). A vertex fulfilling them can stay only where the square of the dot product of the vectors
from it to its neighbours overflows. -/
theorem C09_int64 (path : Path) (s a : Int) (hn : 4 ≤ path.length) (hsmall : ∀ p ∈ path, |p.x| < 2 ^ 26 ∧ |p.y| < 2 ^ 26)
    (hs : s ≤ 2 ^ 30) (ha : a ≤ 25) :
    ∃ flags : List (Pt × Bool), flags.map (·.1) = path ∧ simplifyM path s a = .ok (kept flags) ∧
      ∀ before q after, flags = before ++ q :: after →
        ∃ prev chain next, (prev, chain) = lastKept (path.getLast (by rintro rfl; simp at hn)) before ∧
          nextVertex path before = some next ∧
          (q.2 = false → Removable (if s = -1 then 100 else s) (if a = -1 then 25 else a) prev chain q.1 next) ∧
          (Removable (if s = -1 then 100 else s) (if a = -1 then 25 else a) prev chain q.1 next →
            ((prev.x - q.1.x) * (next.x - q.1.x) + (prev.y - q.1.y) * (next.y - q.1.y)) ^ 2 < 2 ^ 63 → q.2 = false) := by
  have hne : path ≠ [] := by rintro rfl; simp at hn
  obtain ⟨flags, st, hrun, hmap, hnew, -, -, -, hj⟩ := simplifyLoopM_spec path (if s = -1 then 100 else s)
    (if a = -1 then 25 else a) (path.getLast hne) (by omega) (by split <;> omega) (by split <;> omega) hsmall
    (hsmall _ (List.getLast_mem hne)) path.length (le_refl _)
  rw [List.take_length] at hmap
  refine ⟨flags, hmap, ?_, ?_⟩
  · unfold simplifyM
    simp only []
    rw [if_neg (by omega), if_neg (by omega)]
    have h1 : index path ((path.length : Int) - 1) = .ok (path.getLast hne) := by
      have := index_ofNat path (path.length - 1) (by omega)
      rw [List.getLast_eq_getElem, ← this]
      congr 1; omega
    have h2 : index path 0 = .ok path[0] := index_ofNat path 0 (by omega)
    rw [h1, h2]
    simp only [bind, Except.bind]
    rw [hrun]
    simp [pure, Except.pure, hnew]
  · intro before q after hsplit
    obtain ⟨next, h1, h2, h3, h4⟩ := hj before q after hsplit
    have hq : SmallCoords q.1 := hsmall q.1 (by rw [← hmap, hsplit]; simp)
    refine ⟨(lastKept (path.getLast hne) before).1, (lastKept (path.getLast hne) before).2, next, rfl, h1, ?_, ?_⟩
    · intro h
      obtain ⟨b1, b2⟩ := h3.sub hq
      obtain ⟨b3, b4⟩ := h2.sub hq
      have hge := perpendicularDistance2M_ge q.1 _ next b1 b2 b3 b4
      rcases h4.1 h with h | ⟨h, h'⟩ | h
      · exact Or.inl h
      · exact Or.inr (Or.inl ⟨h, hge.trans h'⟩)
      · exact Or.inr (Or.inr h)
    · intro hr hdot
      obtain ⟨b1, b2⟩ := h3.sub hq
      obtain ⟨b3, b4⟩ := h2.sub hq
      have heq := perpendicularDistance2M_eq q.1 _ next (by omega) (by omega) (by omega) (by omega) hdot
      refine h4.2 ?_
      rcases hr with h | ⟨h, h'⟩ | h
      · exact Or.inl h
      · exact Or.inr (Or.inl ⟨h, by rw [heq]; exact h'⟩)
      · exact Or.inr (Or.inr h)

/-- A vertex on a straight line which stays because of overflow: the middle of an edge of 116 mm. -/
theorem C09_int64_stays :
    simplifyM [⟨0, 0⟩, ⟨58000, 0⟩, ⟨116000, 0⟩, ⟨116000, 10000⟩, ⟨0, 10000⟩] (-1) (-1) =
      .ok [⟨0, 0⟩, ⟨58000, 0⟩, ⟨116000, 0⟩, ⟨116000, 10000⟩, ⟨0, 10000⟩] ∧
    simplify [⟨0, 0⟩, ⟨58000, 0⟩, ⟨116000, 0⟩, ⟨116000, 10000⟩, ⟨0, 10000⟩] (-1) (-1) =
      .ok [⟨0, 0⟩, ⟨116000, 0⟩, ⟨116000, 10000⟩, ⟨0, 10000⟩] := by decide +kernel

/-- Non-vacuity: of the six vertices two are removed. -/
example : simplifyM [⟨0, 0⟩, ⟨5000, 1⟩, ⟨10000, 0⟩, ⟨10000, 10000⟩, ⟨9998, 9999⟩, ⟨0, 10000⟩] (-1) (-1) =
    .ok [⟨0, 0⟩, ⟨10000, 0⟩, ⟨9998, 9999⟩, ⟨0, 10000⟩] := by decide +kernel

end Verif
