import Verif.Model.Geom2d
import Verif.Spec.Polyline
import Mathlib.Tactic.Linarith
import Mathlib.Tactic.Ring
import Mathlib.Tactic.FieldSimp
import Mathlib.Tactic.Positivity

/-! # C04, C05, C06: distance to a line and Douglas-Peucker -/
namespace Verif
open Verif.Go Verif.Model Verif.Spec

/-! ## C04 -/

theorem size2_nonneg (p : Pt) : 0 ≤ p.size2 := by
  unfold Pt.size2; nlinarith [mul_self_nonneg p.x, mul_self_nonneg p.y]

theorem size2_eq_zero {p : Pt} : p.size2 = 0 ↔ p.x = 0 ∧ p.y = 0 := by
  unfold Pt.size2
  constructor
  · intro h
    constructor <;> nlinarith [mul_self_nonneg p.x, mul_self_nonneg p.y]
  · rintro ⟨h1, h2⟩; rw [h1, h2]; rfl

theorem sub_size2_eq_zero {a b : Pt} : (b.sub a).size2 = 0 ↔ a = b := by
  rw [size2_eq_zero]
  unfold Pt.sub
  constructor
  · rintro ⟨h1, h2⟩
    cases a; cases b; simp only [Pt.mk.injEq] at *; constructor <;> omega
  · rintro rfl; simp

/-- **C04** `PerpendicularDistance2` never panics (its division is never by zero). -/
theorem C04_no_panic (a b p : Pt) : perpendicularDistance2R a b p = .ok (perpendicularDistance2 a b p) := by
  unfold perpendicularDistance2R perpendicularDistance2 quo
  simp only []
  split
  · rfl
  · rfl

/-- **C04** Equal line points: the distance of the two points. -/
theorem C04_degenerate (a p : Pt) :
    perpendicularDistance2 a a p = (p.x - a.x) * (p.x - a.x) + (p.y - a.y) * (p.y - a.y) := by
  unfold perpendicularDistance2
  simp only []
  rw [if_pos (sub_size2_eq_zero.2 rfl)]; rfl

/-- **C04** The computed squared distance is between the exact one and the exact one plus 1. -/
theorem C04_tight (a b p : Pt) :
    lineDist2 a b p ≤ perpendicularDistance2 a b p ∧ (perpendicularDistance2 a b p : ℚ) < lineDist2 a b p + 1 := by
  by_cases hab : a = b
  · subst hab
    rw [C04_degenerate]; unfold lineDist2; rw [if_pos rfl]; push_cast
    constructor <;> linarith
  unfold perpendicularDistance2 lineDist2
  simp only []
  have hne : (b.sub a).size2 ≠ 0 := fun h => hab (sub_size2_eq_zero.1 h)
  rw [if_neg hne, if_neg hab]
  have hpos : 0 < (b.sub a).size2 := lt_of_le_of_ne (size2_nonneg _) (Ne.symm hne)
  set N := (b.sub a).size2 with hN
  set D := dotProduct (b.sub a) (p.sub a) with hD
  set S := (p.sub a).size2 with hS
  set C := (b.x - a.x) * (p.y - a.y) - (b.y - a.y) * (p.x - a.x) with hC
  have hNq : ((b.x - a.x : Int) : ℚ) ^ 2 + ((b.y - a.y : Int) : ℚ) ^ 2 = (N : ℚ) := by
    rw [hN]; unfold Pt.size2 Pt.sub; push_cast; ring
  rw [hNq]
  -- Lagrange identity
  have hL : C * C + D * D = N * S := by
    rw [hC, hD, hN, hS]; unfold dotProduct Pt.size2 Pt.sub; ring
  have htd : (D * D).tdiv N = D * D / N := Int.tdiv_eq_ediv_of_nonneg (mul_self_nonneg D)
  rw [htd]
  have e1 := Int.mul_ediv_add_emod (D * D) N
  have e2 := Int.emod_nonneg (D * D) hpos.ne'
  have e3 := Int.emod_lt_of_pos (D * D) hpos
  set Q := D * D / N with hQ
  set R := D * D % N
  have hNS : N * (S - Q) = C * C + R := by linarith [hL]
  have hSQ : 0 ≤ S - Q := by
    by_contra h
    have h : S - Q ≤ -1 := by omega
    nlinarith [mul_self_nonneg C]
  have hmax : maxM 0 (S - Q) = S - Q := by unfold maxM; split <;> omega
  rw [hmax]
  have hNp : (0 : ℚ) < N := by exact_mod_cast hpos
  have hNSq : (N : ℚ) * ((S - Q : Int) : ℚ) = (C : ℚ) * C + R := by exact_mod_cast hNS
  have hR0 : (0 : ℚ) ≤ R := by exact_mod_cast e2
  have hR1 : (R : ℚ) < N := by exact_mod_cast e3
  constructor
  · rw [div_le_iff₀ hNp]; nlinarith
  · rw [← sub_lt_iff_lt_add, lt_div_iff₀ hNp]; nlinarith

/-- **C04** never negative. -/
theorem C04_nonneg (a b p : Pt) : 0 ≤ perpendicularDistance2 a b p := by
  unfold perpendicularDistance2
  simp only []
  split
  · exact size2_nonneg _
  · unfold maxM; split <;> omega

example : perpendicularDistance2 ⟨0, 0⟩ ⟨3, 1⟩ ⟨1, 1⟩ = 1 ∧ lineDist2 ⟨0, 0⟩ ⟨3, 1⟩ ⟨1, 1⟩ = 2 / 5 := by
  constructor <;> decide +kernel

/-! ## C05, C06 -/

theorem seekLoop_spec (p1 p2 : Pt) (ps : List Pt) (i : Nat) (idx : Nat) (M : Micrometer) (hM : 0 ≤ M) :
    M ≤ (seekLoop p1 p2 ps i (idx, M)).2 ∧
    (∀ p ∈ ps, perpendicularDistance2 p1 p2 p ≤ (seekLoop p1 p2 ps i (idx, M)).2 * (seekLoop p1 p2 ps i (idx, M)).2) ∧
    ((seekLoop p1 p2 ps i (idx, M)).1 = idx ∨
      (i ≤ (seekLoop p1 p2 ps i (idx, M)).1 ∧ (seekLoop p1 p2 ps i (idx, M)).1 < i + ps.length)) := by
  induction ps generalizing i idx M with
  | nil => simp [seekLoop]
  | cons p ps ih =>
    simp only [seekLoop]
    by_cases hd : perpendicularDistance2 p1 p2 p > M * M
    · rw [if_pos hd]
      have hdn := C04_nonneg p1 p2 p
      obtain ⟨h1, h2, h3⟩ := ih (i + 1) i (perpendicularDistance2 p1 p2 p) hdn
      have hMd : M ≤ perpendicularDistance2 p1 p2 p := by
        rcases hM.lt_or_eq with h | h
        · nlinarith
        · rw [← h]; exact hdn
      refine ⟨hMd.trans h1, ?_, ?_⟩
      · intro q hq
        rcases List.mem_cons.1 hq with rfl | hq
        · set S := (seekLoop p1 p2 ps (i + 1) (i, perpendicularDistance2 p1 p2 q)).2
          set d := perpendicularDistance2 p1 p2 q
          have hS : 0 ≤ S := hdn.trans h1
          rcases hS.lt_or_eq with h | h
          · nlinarith
          · rw [← h] at h1 ⊢; simpa using h1
        · exact h2 q hq
      · right; simp only [List.length_cons]; omega
    · rw [if_neg hd]
      obtain ⟨h1, h2, h3⟩ := ih (i + 1) idx M hM
      refine ⟨h1, ?_, ?_⟩
      · intro q hq
        rcases List.mem_cons.1 hq with rfl | hq
        · have := not_lt.1 hd
          nlinarith
        · exact h2 q hq
      · simp only [List.length_cons]; omega

/-- Prepending and joining of thinned poly lines. -/
theorem _root_.Verif.Spec.Thinned.join {ok : Pt → Pt → Pt → Prop} {l : List Pt} {m : Pt} {rl ys ry : List Pt}
    (h1 : Thinned ok l rl) (hl : l.getLast? = some m) (h2 : Thinned ok (m :: ys) ry) :
    Thinned ok (l.dropLast ++ m :: ys) (rl.dropLast ++ ry) := by
  induction h1 with
  | single a =>
    simp only [List.getLast?_singleton, Option.some.injEq] at hl
    subst hl; simpa using h2
  | step a b dropped rest res hok hrec ih =>
    have hl' : (b :: rest).getLast? = some m := by
      rw [← hl, ← List.cons_append, List.getLast?_append]
      cases h : (b :: rest).getLast? with
      | none => simp at h
      | some v => simp
    have := ih hl'
    have e1 : (a :: (dropped ++ b :: rest)).dropLast ++ m :: ys = a :: (dropped ++ ((b :: rest).dropLast ++ m :: ys)) := by
      rw [← List.cons_append, List.dropLast_append_of_ne_nil (by simp)]; simp
    rw [e1]
    have hnn : ∀ {l : List Pt} {x y : Pt}, ¬ Thinned ok (x :: y :: l) [x] := by
      intro l x y h
      generalize hl : x :: y :: l = l' at h
      generalize hr : [x] = r' at h
      cases h <;> simp at hl hr
    have hs : ∀ {x : Pt} {r : List Pt}, Thinned ok [x] r → r = [x] := by
      intro x r h
      generalize hl : [x] = l' at h
      cases h <;> simp at hl ⊢
    have hhead : ∀ {l r : List Pt}, Thinned ok l r → ∃ c l' r', l = c :: l' ∧ r = c :: r' := by
      intro l r h; cases h
      · exact ⟨_, _, _, rfl, rfl⟩
      · exact ⟨_, _, _, rfl, rfl⟩
    cases rest with
    | nil =>
      -- b = m
      simp only [List.getLast?_singleton, Option.some.injEq] at hl'
      subst hl'
      have hres := hs hrec
      simp only [List.cons.injEq, true_and] at hres
      subst hres
      obtain ⟨c, l', r', hc, hr⟩ := hhead h2
      simp only [List.cons.injEq] at hc
      obtain ⟨rfl, rfl⟩ := hc
      subst hr
      simp only [List.dropLast_singleton, List.nil_append, List.dropLast_cons_cons, List.cons_append]
      exact Thinned.step a b dropped ys r' hok h2
    | cons c rest =>
      cases res with
      | nil =>
        exact absurd hrec hnn
      | cons d res =>
        simp only [List.dropLast_cons_cons, List.cons_append] at this ⊢
        exact Thinned.step a b dropped _ _ hok this

theorem _root_.Verif.Spec.Thinned.refl {ok : Pt → Pt → Pt → Prop} : ∀ {l : List Pt}, l ≠ [] → Thinned ok l l
  | [], h => absurd rfl h
  | [a], _ => .single a
  | a :: b :: l, _ => by
    simpa using Thinned.step (ok := ok) a b [] l l (by simp) (Thinned.refl (by simp))

theorem _root_.Verif.Spec.Thinned.sublist {ok : Pt → Pt → Pt → Prop} {l r : List Pt} (h : Thinned ok l r) : r.Sublist l := by
  induction h with
  | single a => exact List.Sublist.refl _
  | step a b dropped rest res _ _ ih =>
    exact (List.Sublist.trans ih (List.sublist_append_right dropped (b :: rest))).cons_cons a

theorem _root_.Verif.Spec.Thinned.ends {ok : Pt → Pt → Pt → Prop} {l r : List Pt} (h : Thinned ok l r) :
    r.head? = l.head? ∧ r.getLast? = l.getLast? := by
  induction h with
  | single a => exact ⟨rfl, rfl⟩
  | step a b dropped rest res _ _ ih =>
    refine ⟨rfl, ?_⟩
    rw [List.getLast?_cons_cons, ih.2, ← List.cons_append, List.getLast?_append]
    cases h : (b :: rest).getLast? with
    | none => simp at h
    | some v => simp

/-- The relation between kept and dropped points guaranteed for the threshold `ep`. -/
def withinEps (ep : Int) (a b p : Pt) : Prop := 1 ≤ ep ∧ lineDist2 a b p ≤ ((ep - 1 : Int) : ℚ) ^ 2

theorem getLast?_take_succ {l : List Pt} {i : Nat} (h : i < l.length) : (l.take (i + 1)).getLast? = some l[i] := by
  rw [List.take_succ_eq_append_getElem h, List.getLast?_append]; rfl

theorem dropLast_take_succ_append {l : List Pt} {i : Nat} (h : i < l.length) :
    (l.take (i + 1)).dropLast ++ l[i] :: l.drop (i + 1) = l := by
  rw [List.take_succ_eq_append_getElem h, List.dropLast_concat, ← List.drop_eq_getElem_cons h, List.take_append_drop]

theorem douglasPeuckerAux_thinned (ep : Int) (fuel : Nat) (points : Path) (h : points ≠ []) :
    Thinned (withinEps ep) points (douglasPeuckerAux ep fuel points) := by
  induction fuel generalizing points with
  | zero => exact Thinned.refl h
  | succ fuel ih =>
    unfold douglasPeuckerAux
    split
    · rename_i p0 p1 p2 rest
      simp only []
      set last := (p2 :: rest).getLast (by simp) with hlast
      set pts := p0 :: p1 :: p2 :: rest with hpts
      obtain ⟨hM, hd, hidx⟩ := seekLoop_spec p0 last pts 0 0 0 (le_refl _)
      have hs : seekMostDistantPoint p0 last pts = seekLoop p0 last pts 0 (0, 0) := rfl
      rw [hs]
      set idx := (seekLoop p0 last pts 0 (0, 0)).1 with hi
      set M := (seekLoop p0 last pts 0 (0, 0)).2 with hMd
      have hlt : idx < pts.length := by
        rcases hidx with h | h
        · rw [h]; simp [hpts]
        · omega
      split
      · have h1 : pts.take (idx + 1) ≠ [] := by simp [hpts]
        have h2 : pts.drop idx = pts[idx] :: pts.drop (idx + 1) := List.drop_eq_getElem_cons hlt
        have hl := getLast?_take_succ hlt
        have t1 := ih (pts.take (idx + 1)) h1
        have t2 := ih (pts.drop idx) (by rw [h2]; exact List.cons_ne_nil _ _)
        rw [h2] at t2 ⊢
        have := Thinned.join t1 hl t2
        have e := dropLast_take_succ_append hlt
        rw [e] at this
        exact this
      · rename_i hep
        have hep : M < ep := not_le.1 hep
        have hep1 : 1 ≤ ep := by omega
        have hsplit : pts = p0 :: ((p1 :: (p2 :: rest).dropLast) ++ [last]) := by
          rw [hpts, hlast, List.cons_append, List.dropLast_append_getLast]
        have key : ∀ p ∈ pts, withinEps ep p0 last p := by
          intro p hp
          refine ⟨hep1, ?_⟩
          refine (C04_tight p0 last p).1.trans ?_
          have h3 := hd p hp
          have h4 : perpendicularDistance2 p0 last p ≤ (ep - 1) ^ 2 := by nlinarith
          exact_mod_cast h4
        rw [hsplit]
        exact Thinned.step p0 last _ [] [] (fun p hp => key p (by
          rw [hsplit]; exact List.mem_cons_of_mem _ (List.mem_append_left _ hp))) (.single last)
    · exact Thinned.refl h

/-- **C06** Every point that `DouglasPeucker(path, eps)` drops lies within `eps - 1` (so strictly below `eps`) of the line
through the two neighbouring kept points around it; for `eps < 1` (other than the default -1) nothing is dropped at all.
The default -1 stands for 70. -/
theorem C06_error_bound (path : Path) (eps : Int) (h : path ≠ []) :
    Thinned (fun a b p => 1 ≤ (if eps = -1 then 70 else eps) ∧
        lineDist2 a b p ≤ (((if eps = -1 then 70 else eps) - 1 : Int) : ℚ) ^ 2)
      path (douglasPeucker path eps) :=
  douglasPeuckerAux_thinned _ 200 path h

/-- **C06** in terms of a single point, without the inductive predicate: the path can be cut at every dropped point. -/
theorem _root_.Verif.Spec.Thinned.dropped {ok : Pt → Pt → Pt → Prop} {l r : List Pt} (h : Thinned ok l r) :
    ∀ p ∈ l, p ∈ r ∨ ∃ a b, [a, b].Sublist r ∧ ok a b p := by
  induction h with
  | single a => intro p hp; exact Or.inl hp
  | step a b dropped rest res hok _ ih =>
    intro p hp
    rcases List.mem_cons.1 hp with rfl | hp
    · left; simp
    · rcases List.mem_append.1 hp with hp | hp
      · right; exact ⟨a, b, by simp, hok p hp⟩
      · rcases ih p hp with h | ⟨a', b', hs, h⟩
        · left; exact List.mem_cons_of_mem _ h
        · right; exact ⟨a', b', hs.trans (List.sublist_cons_self _ _), h⟩

/-- **C05** The result is a subsequence of the path (no point is invented, moved or duplicated) ... -/
theorem C05_subsequence (path : Path) (eps : Int) : (douglasPeucker path eps).Sublist path := by
  rcases eq_or_ne path [] with rfl | h
  · simp [douglasPeucker, douglasPeuckerAux]
  · exact (C06_error_bound path eps h).sublist

/-- **C05** ... with the same first and last point ... -/
theorem C05_ends (path : Path) (eps : Int) :
    (douglasPeucker path eps).head? = path.head? ∧ (douglasPeucker path eps).getLast? = path.getLast? := by
  rcases eq_or_ne path [] with rfl | h
  · simp [douglasPeucker, douglasPeuckerAux]
  · exact (C06_error_bound path eps h).ends

/-- **C05** ... and paths of at most two points are returned unchanged. -/
theorem C05_short (path : Path) (eps : Int) (h : path.length ≤ 2) : douglasPeucker path eps = path := by
  unfold douglasPeucker douglasPeuckerAux
  match path, h with
  | [], _ => rfl
  | [_], _ => rfl
  | [_, _], _ => rfl

/-- **C05** The slice expression `left[:len(left)-1]` never fails: no part of the recursion returns an empty path. -/
theorem C05_left_nonempty (ep : Int) (fuel : Nat) (points : Path) (h : points ≠ []) :
    douglasPeuckerAux ep fuel points ≠ [] := by
  have := (douglasPeuckerAux_thinned ep fuel points h).ends.1
  intro h0
  rw [h0] at this
  cases points with
  | nil => exact h rfl
  | cons => simp at this

/-- Non-vacuity: a path on which points are dropped and kept. -/
example : douglasPeucker [⟨0, 0⟩, ⟨0, 1000⟩, ⟨500, 1003⟩, ⟨1000, 1000⟩] 10 =
    [⟨0, 0⟩, ⟨0, 1000⟩, ⟨1000, 1000⟩] := by
  decide +kernel

end Verif
