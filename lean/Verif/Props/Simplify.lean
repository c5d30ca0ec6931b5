import Verif.Model.Layer
import Verif.Spec.Simplify
import Verif.Props.Polyline

/-! # C08, C09: path simplification -/
namespace Verif
open Verif.Go Verif.Model Verif.Spec

theorem lastKept_append (d : Pt) (f : List (Pt × Bool)) (q : Pt × Bool) :
    lastKept d (f ++ [q]) = if q.2 then (q.1, []) else ((lastKept d f).1, (lastKept d f).2 ++ [q.1]) := by
  simp [lastKept, List.foldl_append]

theorem kept_append (f : List (Pt × Bool)) (q : Pt × Bool) :
    kept (f ++ [q]) = if q.2 then kept f ++ [q.1] else kept f := by
  cases q with
  | mk p b => cases b <;> simp [kept]

theorem chainArea_snoc2 (l : List Pt) (a b : Pt) :
    chainArea (l ++ [a, b]) = chainArea (l ++ [a]) + cross a b := by
  induction l with
  | nil => simp [chainArea]
  | cons c l ih =>
    cases l with
    | nil => simp [chainArea]
    | cons e l =>
      simp only [List.cons_append, chainArea] at ih ⊢
      rw [ih]; ring

/-- The judgement of one vertex. -/
def Judged (smallest allowed : Int) (d : Pt) (path : List Pt) (before : List (Pt × Bool)) (q : Pt × Bool) : Prop :=
  ∃ next, nextVertex path before = some next ∧
    (q.2 = false ↔ Removable smallest allowed (lastKept d before).1 (lastKept d before).2 q.1 next)

theorem index_ofNat {α : Type} (l : List α) (i : Nat) (h : i < l.length) : index l (i : Int) = .ok l[i] := by
  unfold index
  rw [if_pos (by omega)]
  simp [h]

theorem simplifyLoop_spec (path : Path) (smallest allowed : Int) (d : Pt) (hd : 0 < path.length) (k : Nat) (hk : k ≤ path.length) :
    ∃ (flags : List (Pt × Bool)) (st : SimplifyState),
      (List.range k).foldlM (simplifyStep path smallest allowed)
        ⟨[], d, cross d path[0]⟩ = .ok st ∧
      flags.map (·.1) = path.take k ∧
      st.newPath = kept flags ∧ st.previous = (lastKept d flags).1 ∧
      (∀ h : k < path.length,
        st.areaRemoved = chainArea ((lastKept d flags).1 :: (lastKept d flags).2 ++ [path[k]])) ∧
      (∀ before q after, flags = before ++ q :: after → Judged smallest allowed d path before q) := by
  induction k with
  | zero =>
    refine ⟨[], ⟨[], d, cross d path[0]⟩, rfl, rfl, rfl, rfl, ?_, ?_⟩
    · intro _; simp [lastKept, chainArea]
    · intro before q after h; simp at h
  | succ k ih =>
    obtain ⟨flags, st, hrun, hmap, hnew, hprev, harea, hj⟩ := ih (by omega)
    have hklt : k < path.length := by omega
    have hlen : flags.length = k := by
      have := congrArg List.length hmap
      simpa [Nat.min_eq_left hklt.le] using this
    have harea := harea hklt
    rw [List.range_succ, List.foldlM_append, hrun]
    simp only [bind, Except.bind, List.foldlM_cons, List.foldlM_nil]
    -- the next vertex
    obtain ⟨next, hnext, hnextIdx, hnextPath⟩ : ∃ next, nextVertex path flags = some next ∧
        simplifyNext path st.newPath k = .ok next ∧
        (∀ h : k + 1 < path.length, next = path[k + 1]) := by
      unfold simplifyNext
      by_cases h1 : k + 1 < path.length
      · refine ⟨path[k + 1], ?_, ?_, fun _ => rfl⟩
        · simp [nextVertex, hlen, h1]
        · rw [if_pos h1]
          have := index_ofNat path (k + 1) h1
          push_cast at this; exact this
      · have hke : k + 1 = path.length := by omega
        have hnone : path[flags.length + 1]? = none := by rw [hlen]; exact List.getElem?_eq_none (by omega)
        by_cases h2 : 1 < (kept flags).length
        · have hpos : 0 < (kept flags).length := by omega
          refine ⟨(kept flags)[0], ?_, ?_, fun h => absurd h h1⟩
          · simp only [nextVertex, hnone]
            rw [if_pos h2, List.head?_eq_getElem?, List.getElem?_eq_getElem hpos]
          · rw [if_neg h1, if_pos ⟨hke, by rw [hnew]; exact h2⟩, hnew]
            exact index_ofNat _ 0 hpos
        · refine ⟨path[0], ?_, ?_, fun h => absurd h h1⟩
          · simp only [nextVertex, hnone]
            rw [if_neg h2, List.head?_eq_getElem?, List.getElem?_eq_getElem hd]
          · rw [if_neg h1, if_neg (by rw [hnew]; exact fun h => h2 h.2)]
            have : Int.tmod ((k : Int) + 1) path.length = ((0 : Nat) : Int) := by
              have : (k : Int) + 1 = path.length := by exact_mod_cast hke
              rw [this]; exact Int.tmod_self
            rw [this]
            exact index_ofNat _ 0 hd
    have hcur : index path (Int.tmod k path.length) = .ok path[k] := by
      have : Int.tmod (k : Int) path.length = (k : Int) := Int.tmod_eq_of_lt (by omega) (by exact_mod_cast hklt)
      rw [this]; exact index_ofNat path k hklt
    -- quantities
    set pv := (lastKept d flags).1 with hpv
    set ch := (lastKept d flags).2 with hch
    set cur := path[k] with hcurdef
    have hbase : (next.sub st.previous).size2 = dist2 next pv := by
      rw [hprev]; unfold Pt.size2 Pt.sub dist2; ring
    have hA : st.areaRemoved + (cur.x * next.y - cur.y * next.x) + (next.x * st.previous.y - next.y * st.previous.x) =
        polyArea2 pv (ch ++ [cur]) next := by
      rw [harea, hprev, polyArea2]
      have := chainArea_snoc2 (pv :: ch) cur next
      simp only [List.cons_append, List.append_assoc, List.nil_append] at this ⊢
      rw [this]; simp [cross]
    have hA' : st.areaRemoved + (cur.x * next.y - cur.y * next.x) = chainArea (pv :: (ch ++ [cur]) ++ [next]) := by
      rw [harea]
      have := chainArea_snoc2 (pv :: ch) cur next
      simp only [List.cons_append, List.append_assoc, List.nil_append] at this ⊢
      rw [this]; simp [cross]
    have hl1 : (cur.sub st.previous).size2 = dist2 cur pv := by
      rw [hprev]; unfold Pt.size2 Pt.sub dist2; ring
    have hl2 : (cur.sub next).size2 = dist2 cur next := by
      unfold Pt.size2 Pt.sub dist2; ring
    have hperp : perpendicularDistance2R cur st.previous next = .ok (perpendicularDistance2 cur pv next) := by
      rw [C04_no_panic, hprev]
    have hbnn : 0 ≤ dist2 next pv := by unfold dist2; positivity
    -- the decision
    have hstep : ∃ (b : Bool) (st' : SimplifyState), simplifyStep path smallest allowed st k = .ok st' ∧
        (b = false ↔ Removable smallest allowed pv ch cur next) ∧
        (b = false → st' = { st with areaRemoved := st.areaRemoved + (cur.x * next.y - cur.y * next.x) }) ∧
        (b = true → st' = ⟨st.newPath ++ [cur], cur, cur.x * next.y - cur.y * next.x⟩) := by
      simp only [simplifyStep, hcur, bind, Except.bind, hnextIdx]
      rw [hbase, hA, hl1, hl2, hperp]
      by_cases hb0 : dist2 next pv = 0
      · rw [if_pos hb0]
        exact ⟨false, _, rfl, by simp [Removable, hb0], fun _ => rfl, by simp⟩
      · rw [if_neg hb0]
        have hquo : quo (polyArea2 pv (ch ++ [cur]) next * polyArea2 pv (ch ++ [cur]) next) (dist2 next pv) =
            .ok (polyArea2 pv (ch ++ [cur]) next ^ 2 / dist2 next pv) := by
          unfold quo
          rw [if_neg hb0, Int.tdiv_eq_ediv_of_nonneg (mul_self_nonneg _), pow_two]
        rw [hquo]
        simp only []
        split
        · rename_i hc
          exact ⟨false, _, rfl, by simp only [true_iff]; exact Or.inr hc, fun _ => rfl, by simp⟩
        · rename_i hc
          refine ⟨true, _, rfl, ?_, by simp, fun _ => rfl⟩
          simp only [Bool.true_eq_false, false_iff]
          rintro (h | h)
          · exact hb0 h
          · exact hc h
    obtain ⟨b, st', hst', hb, hbf, hbt⟩ := hstep
    refine ⟨flags ++ [(cur, b)], st', ?_, ?_, ?_, ?_, ?_, ?_⟩
    · rw [hst']; rfl
    · rw [List.map_append, hmap, List.take_succ_eq_append_getElem hklt]; rfl
    · rw [kept_append]
      cases b with
      | false => rw [hbf rfl]; simpa using hnew
      | true => rw [hbt rfl]; simp [hnew]
    · rw [lastKept_append]
      cases b with
      | false => rw [hbf rfl]; simpa using hprev
      | true => rw [hbt rfl]; simp
    · intro h
      rw [lastKept_append]
      have hn := hnextPath h
      cases b with
      | false => rw [hbf rfl]; simp only [Bool.false_eq_true, if_false]; rw [hA', hn]
      | true => rw [hbt rfl]; simp [chainArea, cross, hn]
    · intro before q after hsplit
      rcases List.eq_nil_or_concat after with h0 | ⟨a', x, hx⟩
      · subst h0
        have := List.append_inj' hsplit rfl
        obtain ⟨h1, h2⟩ := this
        simp only [List.cons.injEq, and_true] at h2
        subst h1; subst h2
        exact ⟨next, hnext, hb⟩
      · subst hx
        have h1 : flags ++ [(cur, b)] = (before ++ q :: a') ++ [x] := by rw [hsplit]; simp
        have := List.append_inj' h1 rfl
        exact hj before q a' this.1

/-- **C09** For a path of at least four vertices there are flags (kept / removed) for its vertices such that the result consists
of the kept ones, and a vertex is removed exactly if the documented criteria hold for it. -/
theorem C09_criteria (path : Path) (s a : Int) (hn : 4 ≤ path.length) :
    ∃ flags : List (Pt × Bool), flags.map (·.1) = path ∧ simplify path s a = .ok (kept flags) ∧
      ∀ before q after, flags = before ++ q :: after →
        ∃ next, nextVertex path before = some next ∧
          (q.2 = false ↔ Removable (if s = -1 then 100 else s) (if a = -1 then 25 else a)
            (lastKept (path.getLast (by rintro rfl; simp at hn)) before).1
            (lastKept (path.getLast (by rintro rfl; simp at hn)) before).2 q.1 next) := by
  have hne : path ≠ [] := by rintro rfl; simp at hn
  obtain ⟨flags, st, hrun, hmap, hnew, -, -, hj⟩ := simplifyLoop_spec path (if s = -1 then 100 else s)
    (if a = -1 then 25 else a) (path.getLast hne) (by omega) path.length (le_refl _)
  refine ⟨flags, by rw [hmap, List.take_length], ?_, hj⟩
  unfold simplify
  simp only []
  rw [if_neg (by omega), if_neg (by omega)]
  have h1 : index path ((path.length : Int) - 1) = .ok (path.getLast hne) := by
    have := index_ofNat path (path.length - 1) (by omega)
    rw [List.getLast_eq_getElem, ← this]
    congr 1; omega
  have h2 : index path 0 = .ok path[0] := index_ofNat path 0 (by omega)
  rw [h1, h2]
  simp only [bind, Except.bind]
  unfold cross at hrun
  rw [hrun]
  simp [pure, Except.pure, hnew]

/-- **C08** `Simplify` never panics, and returns only vertices of the path in their order. -/
theorem C08_subsequence (path : Path) (s a : Int) : ∃ r, simplify path s a = .ok r ∧ r.Sublist path := by
  by_cases h4 : 4 ≤ path.length
  · obtain ⟨flags, hmap, hr, -⟩ := C09_criteria path s a h4
    refine ⟨_, hr, ?_⟩
    rw [← hmap, kept]
    exact List.Sublist.map _ List.filter_sublist
  · unfold simplify
    simp only []
    by_cases h2 : path.length ≤ 2
    · rw [if_pos h2]; exact ⟨[], rfl, List.nil_sublist _⟩
    · rw [if_neg h2, if_pos (by omega)]; exact ⟨path, rfl, List.Sublist.refl _⟩

/-- **C08** Degenerate paths: at most two vertices give the empty path, three are kept. -/
theorem C08_short (path : Path) (s a : Int) :
    (path.length ≤ 2 → simplify path s a = .ok []) ∧ (path.length = 3 → simplify path s a = .ok path) := by
  unfold simplify
  simp only []
  constructor
  · intro h; rw [if_pos h]; rfl
  · intro h; rw [if_neg (by omega), if_pos h]; rfl

/-- **C09** Consequence: a vertex with a long adjacent segment is kept unless the shortcut has length zero or the vertex is almost
exactly collinear (the neighbour `next` is less than `√26` µm off the line through the vertex and its predecessor). -/
theorem C09_long_segment_kept (smallest allowed : Int) (prev : Pt) (chain : List Pt) (cur next : Pt)
    (hlong : smallest ≤ dist2 cur prev ∨ smallest ≤ dist2 cur next) (hne : next ≠ prev)
    (hfar : 26 ≤ lineDist2 cur prev next) : ¬ Removable smallest allowed prev chain cur next := by
  rintro (h | ⟨-, h⟩ | ⟨h1, h2, -⟩)
  · apply hne
    unfold dist2 at h
    have h1 : next.x - prev.x = 0 := by nlinarith [sq_nonneg (next.x - prev.x), sq_nonneg (next.y - prev.y)]
    have h2 : next.y - prev.y = 0 := by nlinarith [sq_nonneg (next.x - prev.x), sq_nonneg (next.y - prev.y)]
    cases next; cases prev; simp only [Pt.mk.injEq] at *; omega
  · have := (C04_tight cur prev next).1
    have h' : (perpendicularDistance2 cur prev next : ℚ) ≤ 25 := by exact_mod_cast h
    linarith
  · omega

/-- Non-vacuity: of the six vertices two are removed. -/
example : simplify [⟨0, 0⟩, ⟨5000, 1⟩, ⟨10000, 0⟩, ⟨10000, 10000⟩, ⟨9998, 9999⟩, ⟨0, 10000⟩] (-1) (-1) =
    .ok [⟨0, 0⟩, ⟨10000, 0⟩, ⟨9998, 9999⟩, ⟨0, 10000⟩] := by decide +kernel

end Verif
