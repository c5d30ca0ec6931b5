import Mathlib.Data.List.Nodup
import Mathlib.Data.List.Perm.Subperm
import Mathlib.Tactic.Ring
import Mathlib.Tactic.Linarith
import Verif.Spec.Infill
import Verif.Model.Linear
import Verif.Props.Units
import Verif.Props.Clip

/-! # Properties of the linear infill (C43–C46) -/
namespace Verif
open Verif.Go Verif.Model Verif.Spec

/-! ## C43: scan lines -/

theorem scanLoop_lines (d top bottom maxX : Int) (hd : 0 < d) (fuel : Nat) (x : Int) (hf : maxX - x + 1 ≤ fuel) :
    ∃ n : Nat, Linear.scanLoop d top bottom maxX fuel x =
        some ((List.range n).map fun k => [⟨x + k * d, top⟩, ⟨x + k * d, bottom⟩]) ∧ ∀ k : Nat, k < n ↔ x + k * d ≤ maxX := by
  induction fuel generalizing x with
  | zero =>
    refine ⟨0, ?_, fun k => ?_⟩
    · rw [Linear.scanLoop, if_neg (by push_cast at hf; omega)]; rfl
    · have : 0 ≤ (k : Int) * d := by positivity
      push_cast at hf
      constructor
      · intro h; omega
      · intro h; omega
  | succ fuel ih =>
    by_cases hx : x ≤ maxX
    · obtain ⟨n, hn, hk⟩ := ih (x + d) (by push_cast at hf; omega)
      refine ⟨n + 1, ?_, fun k => ?_⟩
      · rw [Linear.scanLoop, if_pos hx, hn]
        simp only [Option.map_some, List.range_succ_eq_map, List.map_cons, List.map_map, Function.comp_def]
        congr 2
        · simp
        · apply List.map_congr_left
          intro k _
          have : x + d + (k : Int) * d = x + ((k + 1 : Nat) : Int) * d := by push_cast; ring
          rw [this]
      · cases k with
        | zero => simp [hx]
        | succ k =>
          rw [Nat.succ_lt_succ_iff, hk k]
          have : x + d + (k : Int) * d = x + ((k + 1 : Nat) : Int) * d := by push_cast; ring
          rw [this]
    · refine ⟨0, ?_, fun k => ?_⟩
      · rw [Linear.scanLoop, if_neg hx]; rfl
      · have : 0 ≤ (k : Int) * d := by positivity
        constructor
        · intro h; omega
        · intro h; omega

/-- C43: for a positive distance the infill lines are exactly those at `min.x + k * distance` up to `max.x`, from left to right, each over
the full height (from top to bottom). -/
theorem C43_lines (d : Int) (min max : Pt) (hd : 0 < d) :
    ∃ n : Nat, Linear.scanLines d min max =
        some ((List.range n).map fun k => [⟨min.x + k * d, max.y⟩, ⟨min.x + k * d, min.y⟩]) ∧
      ∀ k : Nat, k < n ↔ min.x + k * d ≤ max.x :=
  scanLoop_lines d max.y min.y max.x hd _ min.x (by omega)

/-- C43: a box with exchanged limits gets no lines, for any distance. -/
theorem C43_empty (d : Int) (min max : Pt) (h : max.x < min.x) : Linear.scanLines d min max = some [] := by
  unfold Linear.scanLines
  cases (max.x - min.x + 1).toNat <;> simp [Linear.scanLoop, h]

/-- C43: for a distance of 0 or less the loop does not end, whatever number of iterations is allowed. -/
theorem C43_endless (d : Int) (min max : Pt) (hd : d ≤ 0) (h : min.x ≤ max.x) (fuel : Nat) :
    Linear.scanLoop d max.y min.y max.x fuel min.x = none := by
  have : ∀ (fuel : Nat) (x : Int), x ≤ max.x → Linear.scanLoop d max.y min.y max.x fuel x = none := by
    intro fuel
    induction fuel with
    | zero => intro x hx; rw [Linear.scanLoop, if_pos hx]
    | succ fuel ih => intro x hx; rw [Linear.scanLoop, if_pos hx, ih (x + d) (by omega)]; rfl
  exact this fuel _ h

/-- The number of iterations allowed in the model is no restriction: if the loop ends at all, the model has its result. -/
theorem C43_fuel (d : Int) (min max : Pt) (fuel : Nat) (lines : List (List IntPoint))
    (h : Linear.scanLoop d max.y min.y max.x fuel min.x = some lines) : Linear.scanLines d min max = some lines := by
  by_cases hx : min.x ≤ max.x
  · by_cases hd : d ≤ 0
    · rw [C43_endless d min max hd hx] at h; cases h
    · have mono : ∀ (f g : Nat) (x : Int) (r : List (List IntPoint)), f ≤ g →
          Linear.scanLoop d max.y min.y max.x f x = some r → Linear.scanLoop d max.y min.y max.x g x = some r := by
        intro f
        induction f with
        | zero =>
          intro g x r _ hr
          rw [Linear.scanLoop] at hr
          by_cases hx' : x ≤ max.x
          · rw [if_pos hx'] at hr; cases hr
          · rw [if_neg hx'] at hr
            cases g <;> rw [Linear.scanLoop, if_neg hx', hr]
        | succ f ih =>
          intro g x r hg hr
          obtain ⟨g, rfl⟩ : ∃ g', g = g' + 1 := ⟨g - 1, by omega⟩
          rw [Linear.scanLoop] at hr ⊢
          by_cases hx' : x ≤ max.x
          · rw [if_pos hx'] at hr ⊢
            obtain ⟨r', hr', rfl⟩ := Option.map_eq_some_iff.1 hr
            rw [ih g _ r' (by omega) hr']
            rfl
          · rw [if_neg hx'] at hr ⊢; exact hr
      obtain ⟨n, hn, -⟩ := C43_lines d min max (by omega)
      have h1 := mono fuel (Nat.max fuel (max.x - min.x + 1).toNat) min.x lines (Nat.le_max_left _ _) h
      have h2 := mono (max.x - min.x + 1).toNat (Nat.max fuel (max.x - min.x + 1).toNat) min.x _ (Nat.le_max_right _ _) hn
      rw [hn, ← h2, h1]
  · rw [C43_empty d min max (by omega)]
    cases fuel <;> (rw [Linear.scanLoop, if_neg hx] at h; exact h)

example : Linear.scanLines 400 ⟨0, 0⟩ ⟨1000, 500⟩ =
    some [[⟨0, 500⟩, ⟨0, 0⟩], [⟨400, 500⟩, ⟨400, 0⟩], [⟨800, 500⟩, ⟨800, 0⟩]] := by decide +kernel

/-! ## C46: shortened lines -/

/-- C46: the ends of a shortened line lie on the vertical line between its old ends. -/
theorem C46_inside (w : Int) (hw : 0 ≤ w) (p1 p2 : IntPoint) :
    ∃ y1 y2, Linear.shorten w p1 p2 = [⟨p1.x, y1⟩, ⟨p2.x, y2⟩] ∧
      Min.min p1.y p2.y ≤ y1 ∧ y1 ≤ Max.max p1.y p2.y ∧ Min.min p1.y p2.y ≤ y2 ∧ y2 ≤ Max.max p1.y p2.y := by
  have e : w.tdiv 2 = w / 2 := Int.tdiv_eq_ediv_of_nonneg hw
  unfold Linear.shorten
  rw [e]
  split
  · exact ⟨_, _, rfl, by omega, by omega, by omega, by omega⟩
  · exact ⟨p1.y, p2.y, rfl, by omega, by omega, by omega, by omega⟩

/-- C46: a line from top to bottom which is longer than the line width loses half the width at both ends. -/
theorem C46_shortened (w : Int) (hw : 0 ≤ w) (p1 p2 : IntPoint) (h : p2.y + w < p1.y) :
    Linear.shorten w p1 p2 = [⟨p1.x, p1.y - w / 2⟩, ⟨p2.x, p2.y + w / 2⟩] ∧ p2.y + w / 2 < p1.y - w / 2 := by
  have e : w.tdiv 2 = w / 2 := Int.tdiv_eq_ediv_of_nonneg hw
  unfold Linear.shorten
  rw [e, if_pos (by omega)]
  exact ⟨rfl, by omega⟩

/-- C46: lines of at most half the width, and lines from bottom to top, are kept. -/
theorem C46_kept (w : Int) (hw : 0 ≤ w) (p1 p2 : IntPoint) (h : p1.y ≤ p2.y + w / 2) : Linear.shorten w p1 p2 = [p1, p2] := by
  have e : w.tdiv 2 = w / 2 := Int.tdiv_eq_ediv_of_nonneg hw
  unfold Linear.shorten
  rw [e, if_neg (by omega)]

/-- C46, violation: a line longer than half the width, but not longer than the width (rounded down to even), is turned around (or becomes a point)
instead of being kept. -/
theorem C46_turned (w : Int) (hw : 0 ≤ w) (p1 p2 : IntPoint) (h : p2.y + w / 2 < p1.y) (h' : p1.y ≤ p2.y + 2 * (w / 2)) :
    Linear.shorten w p1 p2 = [⟨p1.x, p1.y - w / 2⟩, ⟨p2.x, p2.y + w / 2⟩] ∧ p1.y - w / 2 ≤ p2.y + w / 2 := by
  have e : w.tdiv 2 = w / 2 := Int.tdiv_eq_ediv_of_nonneg hw
  unfold Linear.shorten
  rw [e, if_pos (by omega)]
  exact ⟨rfl, by omega⟩

example : Linear.shorten 400 ⟨5, 1000⟩ ⟨5, 0⟩ = [⟨5, 800⟩, ⟨5, 200⟩] ∧ Linear.shorten 400 ⟨5, 300⟩ ⟨5, 0⟩ = [⟨5, 100⟩, ⟨5, 200⟩] := by
  decide +kernel

/-! ## C44, C45: the order of the lines -/

/-- A line as a path. -/
def seg (l : Segment) : Path := [l.1, l.2]

theorem index_seg (l : Segment) (k : Nat) : index (seg l) ((k % 2 : Nat) : Int) = .ok (side k l) := by
  unfold side
  rcases Nat.mod_two_eq_zero_or_one k with h | h <;> rw [h] <;> simp [index, seg]

theorem index_get {α : Type} [Inhabited α] (l : List α) (i : Nat) (h : i < l.length) : index l (i : Int) = .ok (l.getD i default) := by
  unfold index
  simp [h]

theorem index_map_seg (lines : List Segment) (i : Nat) (h : i < lines.length) :
    index (lines.map seg) (i : Int) = .ok (seg (lines.getD i default)) := by
  unfold index
  simp [h]

section
variable (lines : List Segment) (point : Pt) (k : Nat) (used : List Bool)

/-- Differences whose length is calculated exactly. -/
def SmallDiff : Prop := ∀ j < lines.length, (point.sub (side k (lines.getD j default))).size2 < 2 ^ 52

/-- Loop invariant of the search for the nearest line. -/
def NearestInv (i : Nat) (best : Int × Int) : Prop :=
  (best = (-1, -1) ∧ ∀ j < i, used[j]? = some true) ∨
  ∃ b : Nat, b < i ∧ best.1 = b ∧ used[b]? = some false ∧ best.2 = (point.sub (side k (lines.getD b default))).size ∧
    (SmallDiff lines point k → ∀ j < i, used[j]? = some false → best.2 ≤ (point.sub (side k (lines.getD j default))).size)

theorem size_floor {p : Pt} (h : p.size2 < 2 ^ 52) : p.size = ⌊euclid2 p.x p.y⌋ := C73_point_size p h

theorem nearest_spec (ls : List Segment) (i : Nat) (best : Int × Int) (hls : lines.drop i = ls) (hi : i ≤ lines.length)
    (hu : used.length = lines.length) (hinv : NearestInv lines point k used i best) :
    ∃ r, Linear.nearestLoop point ((k % 2 : Nat) : Int) used i (ls.map seg) best = .ok r ∧
      NearestInv lines point k used lines.length r := by
  induction ls generalizing i best with
  | nil =>
    have : i = lines.length := le_antisymm hi (List.drop_eq_nil_iff.1 hls)
    subst this
    exact ⟨best, rfl, hinv⟩
  | cons l ls ih =>
    have hi' : i < lines.length := by
      by_contra hc
      rw [List.drop_eq_nil_of_le (by omega)] at hls
      cases hls
    have hl : lines.getD i default = l := by
      rw [List.drop_eq_getElem_cons hi'] at hls
      simp [hi', (List.cons.inj hls).1]
    have hls' : lines.drop (i + 1) = ls := by
      rw [List.drop_eq_getElem_cons hi'] at hls
      exact (List.cons.inj hls).2
    have hidx : index used (i : Int) = .ok (used.getD i default) := index_get used i (by omega)
    have huget : used[i]? = some (used.getD i default) := by simp [hu, hi']
    simp only [List.map_cons, Linear.nearestLoop]
    rw [hidx]
    simp only [Except.bind, bind]
    by_cases hused : used.getD i default = true
    · rw [if_pos hused]
      refine ih (i + 1) best hls' (by omega) ?_
      rcases hinv with ⟨hb, hall⟩ | ⟨b, hbi, hb1, hbu, hb2, hmin⟩
      · refine Or.inl ⟨hb, fun j hj => ?_⟩
        rcases Nat.lt_succ_iff_lt_or_eq.1 hj with h | rfl
        · exact hall j h
        · rw [huget, hused]
      · refine Or.inr ⟨b, by omega, hb1, hbu, hb2, fun hs j hj hju => ?_⟩
        rcases Nat.lt_succ_iff_lt_or_eq.1 hj with h | rfl
        · exact hmin hs j h hju
        · rw [huget, hused] at hju; cases hju
    · rw [if_neg hused, index_seg]
      simp only []
      have hfalse : used[i]? = some false := by rw [huget]; simpa using hused
      by_cases hc : best.2 = -1 ∨ (point.sub (side k l)).shorterThanOrEqual best.2 = true
      · rw [if_pos hc]
        refine ih (i + 1) _ hls' (by omega) (Or.inr ⟨i, by omega, rfl, hfalse, by rw [hl], fun hs j hj hju => ?_⟩)
        have hsi := hs i hi'
        rw [hl] at hsi
        rcases Nat.lt_succ_iff_lt_or_eq.1 hj with h | rfl
        · rcases hinv with ⟨hb, hall⟩ | ⟨b, hbi, hb1, hbu, hb2, hmin⟩
          · rw [hall j h] at hju; cases hju
          · refine le_trans ?_ (hmin hs j h hju)
            show (point.sub (side k l)).size ≤ best.2
            rcases hc with hc | hc
            · exfalso
              rw [hb2, size_floor (hs b (by omega))] at hc
              have : (0 : Int) ≤ ⌊euclid2 (point.sub (side k (lines.getD b default))).x (point.sub (side k (lines.getD b default))).y⌋ :=
                Int.floor_nonneg.2 (Real.sqrt_nonneg _)
              omega
            · rw [size_floor hsi]
              have := (C02_point _ _).1 hc
              exact Int.le_of_lt_add_one (Int.floor_lt.2 (by push_cast; linarith))
        · show (point.sub (side k l)).size ≤ _
          rw [hl]
      · rw [if_neg hc]
        refine ih (i + 1) best hls' (by omega) ?_
        rcases hinv with ⟨hb, hall⟩ | ⟨b, hbi, hb1, hbu, hb2, hmin⟩
        · exact absurd (Or.inl (by rw [hb])) hc
        · refine Or.inr ⟨b, by omega, hb1, hbu, hb2, fun hs j hj hju => ?_⟩
          rcases Nat.lt_succ_iff_lt_or_eq.1 hj with h | rfl
          · exact hmin hs j h hju
          · have hsi := hs j hi'
            rw [hl] at hsi ⊢
            rw [size_floor hsi]
            have h1 : ¬ (euclid2 (point.sub (side k l)).x (point.sub (side k l)).y ≤ best.2) := by
              rw [← C02_point]; exact fun h => hc (Or.inr h)
            exact Int.le_floor.2 (le_of_lt (not_le.1 h1))
end

theorem weave_snoc (lk : Segment → Segment → Paths) (r : List Segment) (a b : Segment) :
    weave lk (r ++ [a] ++ [b]) = weave lk (r ++ [a]) ++ lk a b ++ [seg b] := by
  induction r with
  | nil => simp [weave, seg]
  | cons c r ih =>
    cases r with
    | nil => simp [weave, seg]
    | cons d r =>
      simp only [List.cons_append, weave, List.append_assoc] at ih ⊢
      rw [ih]

theorem weave_last (lk : Segment → Segment → Paths) (r : List Segment) (a : Segment) :
    (weave lk (r ++ [a])).getLast? = some (seg a) := by
  induction r with
  | nil => rfl
  | cons c r ih =>
    cases r with
    | nil => simp [weave, seg, List.getLast?_cons]
    | cons d r =>
      simp only [List.cons_append, weave] at ih ⊢
      rw [List.getLast?_cons]
      simp [List.getLast?_append, ih]

theorem route_snoc (lines : List Segment) (order : List Nat) (i : Nat) :
    route lines (order ++ [i]) = route lines order ++ [turned order.length (lines.getD i default)] := by
  simp [route, List.zipIdx_append]

theorem index_last {α : Type} (l : List α) (a : α) (h : l.getLast? = some a) : index l ((l.length : Int) - 1) = .ok a := by
  have hne : l ≠ [] := by rintro rfl; cases h
  have hpos : 0 < l.length := List.length_pos_of_ne_nil hne
  unfold index
  rw [if_pos (by omega)]
  have : ((l.length : Int) - 1).toNat = l.length - 1 := by omega
  rw [this, ← List.getLast?_eq_getElem?, h]

/-- The connection made by the code is that of the specification, if the library never fails. -/
theorem connection_eq (cross : Path → Bool × Bool) (hcross : ∀ p, (cross p).2 = true) (limit : Int) (a b : Segment) :
    Linear.connection cross limit a.2 b.1 = .ok (link true limit (fun p => (cross p).1) a b) := by
  have hs : (a.2.sub b.1).shorterThanOrEqual limit = true ↔
      0 ≤ limit ∧ (a.2.x - b.1.x) ^ 2 + (a.2.y - b.1.y) ^ 2 ≤ limit ^ 2 := by
    rw [C02_point]
    unfold euclid2
    constructor
    · intro h
      have h0 : (0 : ℝ) ≤ limit := le_trans (Real.sqrt_nonneg _) h
      have hl : 0 ≤ limit := by exact_mod_cast h0
      refine ⟨hl, ?_⟩
      rw [Real.sqrt_le_left h0] at h
      exact_mod_cast h
    · rintro ⟨h0, h⟩
      rw [Real.sqrt_le_left (by exact_mod_cast h0)]
      exact_mod_cast h
  unfold Linear.connection link
  simp only [hcross, Bool.not_true, Bool.false_eq_true, if_false, true_and]
  by_cases h : (a.2.sub b.1).shorterThanOrEqual limit = true
  · rw [if_pos h]
    obtain ⟨h1, h2⟩ := hs.1 h
    cases hx : (cross [a.2, b.1]).1 <;> simp [h1, h2]
  · rw [if_neg h, if_neg (fun hh => h (hs.2 ⟨hh.1, hh.2.1⟩))]

section
variable (cross : Path → Bool × Bool) (zigZag : Bool) (limit : Int) (lines : List Segment)

/-- State of the main loop: the lines used so far in their order. -/
structure SortInv (order : List Nat) (s : Linear.SortState) : Prop where
  first : order.head? = some 0
  nodup : order.Nodup
  lt : ∀ i ∈ order, i < lines.length
  length : s.isUsed.length = lines.length
  used : ∀ j < lines.length, s.isUsed[j]? = some (decide (j ∈ order))
  lastIndex : ∃ i, order.getLast? = some i ∧ s.lastIndex = (i : Int)
  lastPoint : s.lastPoint = (((order.length - 1) % 2 : Nat) : Int)
  sorted : s.sorted = weave (link zigZag limit (fun p => (cross p).1)) (route lines order)
  greedy : (∀ k i, i < lines.length → SmallDiff lines (side k (lines.getD i default)) k) → Greedy lines order

theorem sortStep_spec (hcross : ∀ p, (cross p).2 = true) (order : List Nat) (s : Linear.SortState)
    (h : SortInv cross zigZag limit lines order s) (hlt : order.length < lines.length) :
    ∃ i s', Linear.sortStep cross zigZag limit (lines.map seg) s = .ok s' ∧ SortInv cross zigZag limit lines (order ++ [i]) s' := by
  obtain ⟨hfirst, hnd, hin, hlen, hused, ⟨last, hlast, hlastI⟩, hlastP, hsorted, hgreedy⟩ := h
  have hne : order ≠ [] := by rintro rfl; cases hfirst
  have hpos : 0 < order.length := List.length_pos_of_ne_nil hne
  obtain ⟨init, rfl⟩ : ∃ init, order = init ++ [last] := by
    refine ⟨order.dropLast, ?_⟩
    have h1 := List.dropLast_append_getLast hne
    rw [List.getLast?_eq_some_getLast hne] at hlast
    rw [← Option.some.inj hlast, h1]
  set k := init.length with hk
  have hkk : (init ++ [last]).length - 1 = k := by simp [hk]
  rw [hkk] at hlastP
  have hlastlt : last < lines.length := hin last (by simp)
  set point := side k (lines.getD last default) with hpoint
  obtain ⟨best, hbest, hbinv⟩ := nearest_spec lines point k s.isUsed lines 0 (-1, -1) (by simp) (by omega) hlen
    (Or.inl ⟨rfl, fun j hj => by omega⟩)
  -- there is an unused line
  obtain ⟨free, hfreelt, hfree⟩ : ∃ j < lines.length, j ∉ init ++ [last] := by
    by_contra hc
    push Not at hc
    have hsub : List.range lines.length ⊆ init ++ [last] := fun j hj => hc j (List.mem_range.1 hj)
    have := (List.nodup_range.subperm hsub).length_le
    simp at this
    simp at hlt
    omega
  rcases hbinv with ⟨-, hall⟩ | ⟨b, hblt, hb1, hbu, hb2, hmin⟩
  · have := hall free hfreelt
    rw [hused free hfreelt] at this
    simp [hfree] at this
  have hbnot : b ∉ init ++ [last] := by
    have := hused b hblt
    rw [hbu] at this
    simpa using this.symm
  set r := route lines init with hr
  have hroute : route lines (init ++ [last]) = r ++ [turned k (lines.getD last default)] := route_snoc _ _ _
  have hhead : s.sorted.getLast? = some (seg (turned k (lines.getD last default))) := by
    rw [hsorted, hroute, weave_last]
  have hcast : (1 : Int) - ((k % 2 : Nat) : Int) = (((k + 1) % 2 : Nat) : Int) := by omega
  have hstart : side (k + 1) (lines.getD b default) = (turned (k + 1) (lines.getD b default)).1 := by
    unfold side turned; split <;> rfl
  have hextra : (if zigZag = true then (do
        let p1 ← index (seg (turned k (lines.getD last default))) 1
        let p2 ← index (seg (lines.getD b default)) ((((k + 1) % 2 : Nat) : Int))
        Linear.connection cross limit p1 p2) else pure []) =
      Except.ok (link zigZag limit (fun p => (cross p).1) (turned k (lines.getD last default)) (turned (k + 1) (lines.getD b default))) := by
    cases zigZag with
    | false => simp [link]; rfl
    | true =>
      rw [if_pos rfl, index_seg, hstart]
      have : index (seg (turned k (lines.getD last default))) 1 = .ok (turned k (lines.getD last default)).2 := rfl
      rw [this]
      exact connection_eq cross hcross limit _ _
  have hline : (if (((k + 1) % 2 : Nat) : Int) = 1 then (do
        let a ← index (seg (lines.getD b default)) 1
        let b ← index (seg (lines.getD b default)) 0
        pure [a, b]) else pure (seg (lines.getD b default))) = (Except.ok (seg (turned (k + 1) (lines.getD b default))) : Res Path) := by
    unfold turned
    rcases Nat.mod_two_eq_zero_or_one (k + 1) with h1 | h1 <;> rw [h1] <;> rfl
  refine ⟨b, ⟨s.sorted ++ link zigZag limit (fun p => (cross p).1) (turned k (lines.getD last default)) (turned (k + 1) (lines.getD b default)) ++
      [seg (turned (k + 1) (lines.getD b default))], s.isUsed.set b true, b, (((k + 1) % 2 : Nat) : Int)⟩, ?_, ?_⟩
  · unfold Linear.sortStep
    rw [hlastI, index_map_seg lines last hlastlt, hlastP]
    simp only [bind, Except.bind]
    rw [index_seg, ← hpoint]
    simp only []
    rw [hbest]
    simp only []
    rw [hb1, if_pos (by omega : (b : Int) > -1), index_map_seg lines b hblt, index_last _ _ hhead]
    simp only []
    rw [hcast]
    simp only [bind, Except.bind] at hextra hline
    rw [hextra]
    simp only []
    rw [hline]
    simp [pure, Except.pure]
  · refine ⟨?_, ?_, ?_, ?_, ?_, ⟨b, by simp, rfl⟩, ?_, ?_, ?_⟩
    · simpa [List.head?_append] using hfirst
    · exact List.nodup_append.2 ⟨hnd, List.nodup_singleton _, fun a ha c hc => by
        rintro rfl; rw [List.mem_singleton] at hc; subst hc; exact hbnot ha⟩
    · intro i hi
      rcases List.mem_append.1 hi with h | h
      · exact hin i h
      · rw [List.mem_singleton.1 h]; exact hblt
    · simpa using hlen
    · intro j hj
      simp only [List.getElem?_set]
      by_cases hjb : b = j
      · subst hjb
        rw [if_pos rfl, if_pos (by omega)]
        simp
      · rw [if_neg hjb, hused j hj]
        congr 1
        simp [Ne.symm hjb]
    · show (((k + 1) % 2 : Nat) : Int) = _
      simp [hk]
    · show s.sorted ++ _ ++ _ = _
      rw [route_snoc, hroute, weave_snoc, hsorted, hroute]
      simp [hk]
    · intro hs m i next hm hnext j hj hjn
      by_cases hmk : m + 1 < (init ++ [last]).length
      · rw [List.getElem?_append_left (by omega)] at hm
        rw [List.getElem?_append_left hmk] at hnext
        rw [List.take_append_of_le_length (by omega)] at hjn
        exact hgreedy hs m i next hm hnext j hj hjn
      · have hmlen : m + 1 < (init ++ [last] ++ [b]).length := by
          by_contra hc
          rw [List.getElem?_eq_none (by omega)] at hnext
          cases hnext
        have hmk' : m = k := by simp [hk] at hmk hmlen ⊢; omega
        subst hmk'
        have hi : i = last := by
          rw [List.getElem?_append_left (by simp [hk]), List.getElem?_append_right (by omega)] at hm
          simpa [hk] using hm.symm
        have hnx : next = b := by
          rw [List.getElem?_append_right (by simp [hk])] at hnext
          simpa [hk] using hnext.symm
        subst hi hnx
        have hjn' : j ∉ init ++ [i] := by
          rw [List.take_append_of_le_length (by simp [hk])] at hjn
          rwa [List.take_of_length_le (by simp [hk])] at hjn
        have hsmall := hs k i hlastlt
        have hju : s.isUsed[j]? = some false := by rw [hused j hj]; simpa using hjn'
        have := hmin hsmall j hj hju
        rw [hb2, size_floor (hsmall _ hblt), size_floor (hsmall j hj)] at this
        exact this

theorem sortLoop_spec (hcross : ∀ p, (cross p).2 = true) (n : Nat) (order : List Nat) (s : Linear.SortState)
    (h : SortInv cross zigZag limit lines order s) (hlt : order.length + n = lines.length) :
    ∃ order' s', Linear.sortLoop cross zigZag limit (lines.map seg) n s = .ok s' ∧ SortInv cross zigZag limit lines order' s' ∧
      order'.length = lines.length := by
  induction n generalizing order s with
  | zero => exact ⟨order, s, rfl, h, by simpa using hlt⟩
  | succ n ih =>
    obtain ⟨i, s', hs', hinv⟩ := sortStep_spec cross zigZag limit lines hcross order s h (by omega)
    obtain ⟨order', s'', h1, h2, h3⟩ := ih (order ++ [i]) s' hinv (by simp; omega)
    refine ⟨order', s'', ?_, h2, h3⟩
    rw [Linear.sortLoop, hs']
    exact h1
end

/-- Lines with coordinates of at most 16 m. -/
def SmallLines (lines : List Segment) : Prop :=
  ∀ l ∈ lines, |l.1.x| ≤ 2 ^ 24 ∧ |l.1.y| ≤ 2 ^ 24 ∧ |l.2.x| ≤ 2 ^ 24 ∧ |l.2.y| ≤ 2 ^ 24

theorem smallDiff_of_small (lines : List Segment) (h : SmallLines lines) (k i : Nat) (hi : i < lines.length) :
    SmallDiff lines (side k (lines.getD i default)) k := by
  intro j hj
  have hside : ∀ m < lines.length, |(side k (lines.getD m default)).x| ≤ 2 ^ 24 ∧ |(side k (lines.getD m default)).y| ≤ 2 ^ 24 := by
    intro m hm
    have hmem : lines.getD m default ∈ lines := by simp [List.getD_eq_getElem?_getD, hm]
    obtain ⟨h1, h2, h3, h4⟩ := h _ hmem
    unfold side
    split
    · exact ⟨h1, h2⟩
    · exact ⟨h3, h4⟩
  obtain ⟨hx, hy⟩ := hside i hi
  obtain ⟨hx', hy'⟩ := hside j hj
  generalize side k (lines.getD i default) = a at *
  generalize side k (lines.getD j default) = b at *
  unfold Pt.sub Pt.size2
  simp only []
  rw [abs_le] at hx hy hx' hy'
  norm_num at hx hy hx' hy' ⊢
  nlinarith

/-- C44, C45: the order of the infill lines. For all lines with two ends and every library which does not fail, the sorting does not panic
and gives the lines in some order in which each is used exactly once, starting with the first one; every second line is turned around.
The only additional lines are, with zig zag, connections from the end of one line to the start of the next one, and only if they are short
and cross no perimeter. If the coordinates are below 16 m, each line is (at the compared ends) one of the nearest of the remaining ones. -/
theorem sortInfill_order (p : Linear) (cross : Path → Bool × Bool) (hcross : ∀ q, (cross q).2 = true) (lines : List Segment)
    (hne : lines ≠ []) :
    ∃ order, UsesAll lines.length order ∧ order.head? = some 0 ∧
      p.sortInfill cross (lines.map fun l => [l.1, l.2]) =
        .ok (weave (link p.zigZag (p.lineWidth + 2 * p.lineDistance) (fun q => (cross q).1)) (route lines order)) ∧
      (SmallLines lines → Greedy lines order) := by
  obtain ⟨first, rest, rfl⟩ := List.exists_cons_of_ne_nil hne
  have hinit : SortInv cross p.zigZag (p.lineWidth + p.lineDistance * 2) (first :: rest) [0]
      ⟨[seg first], true :: List.replicate rest.length false, 0, 0⟩ := by
    refine ⟨rfl, by simp, by simp, by simp, ?_, ⟨0, rfl, rfl⟩, rfl, by simp [route, turned, weave, seg], ?_⟩
    · intro j hj
      cases j with
      | zero => simp
      | succ j =>
        simp only [List.length_cons, Nat.succ_lt_succ_iff] at hj
        simp [hj]
    · intro _ k i next hk hk1
      simp at hk1
  obtain ⟨order, s, h1, hinv, hlen⟩ := sortLoop_spec cross p.zigZag _ (first :: rest) hcross rest.length [0] _ hinit
    (by simp; omega)
  refine ⟨order, ?_, hinv.first, ?_, fun hs => hinv.greedy (fun k i hi => smallDiff_of_small _ hs k i hi)⟩
  · have hsub : order ⊆ List.range (first :: rest).length := fun i hi => List.mem_range.2 (hinv.lt i hi)
    exact (hinv.nodup.subperm hsub).perm_of_length_le (by rw [hlen, List.length_range])
  · have e : (fun l : Segment => [l.1, l.2]) = seg := rfl
    rw [e]
    simp only [List.map_cons, Linear.sortInfill, List.length_cons, List.length_map, Nat.add_sub_cancel]
    simp only [List.map_cons] at h1
    rw [h1]
    show Except.ok s.sorted = _
    rw [hinv.sorted, mul_comm p.lineDistance 2]

/-- C44: every line exactly once. -/
theorem C44_each_once (p : Linear) (cross : Path → Bool × Bool) (hcross : ∀ q, (cross q).2 = true) (lines : List Segment) :
    ∃ order, UsesAll lines.length order ∧
      p.sortInfill cross (lines.map fun l => [l.1, l.2]) =
        .ok (weave (link p.zigZag (p.lineWidth + 2 * p.lineDistance) (fun q => (cross q).1)) (route lines order)) := by
  by_cases h : lines = []
  · subst h; exact ⟨[], by simp [UsesAll], rfl⟩
  · obtain ⟨order, h1, -, h2, -⟩ := sortInfill_order p cross hcross lines h
    exact ⟨order, h1, h2⟩

/-- C44: without zig zag the result has exactly the given lines, some turned around. -/
theorem C44_no_zigzag (p : Linear) (hz : p.zigZag = false) (cross : Path → Bool × Bool) (hcross : ∀ q, (cross q).2 = true)
    (lines : List Segment) :
    ∃ order, UsesAll lines.length order ∧
      p.sortInfill cross (lines.map fun l => [l.1, l.2]) = .ok ((route lines order).map fun l => [l.1, l.2]) := by
  obtain ⟨order, h1, h2⟩ := C44_each_once p cross hcross lines
  refine ⟨order, h1, h2.trans ?_⟩
  congr 1
  rw [hz]
  generalize route lines order = r
  induction r with
  | nil => rfl
  | cons a t ih =>
    cases t with
    | nil => rfl
    | cons b t => simp only [weave, link, List.map_cons] at ih ⊢; simp [ih]

/-- C45: the next line is one of the nearest ones, at the compared ends. -/
theorem C45_nearest (p : Linear) (cross : Path → Bool × Bool) (hcross : ∀ q, (cross q).2 = true) (lines : List Segment)
    (hs : SmallLines lines) :
    ∃ order, UsesAll lines.length order ∧ Greedy lines order ∧
      p.sortInfill cross (lines.map fun l => [l.1, l.2]) =
        .ok (weave (link p.zigZag (p.lineWidth + 2 * p.lineDistance) (fun q => (cross q).1)) (route lines order)) := by
  by_cases h : lines = []
  · subst h
    exact ⟨[], by simp [UsesAll], fun k i next hk => by simp at hk, rfl⟩
  · obtain ⟨order, h1, -, h2, h3⟩ := sortInfill_order p cross hcross lines h
    exact ⟨order, h1, h3 hs, h2⟩

/-- Three lines: the second one is near to the start of the first one, the third one near to its end. -/
def threeLines : List Segment := [(⟨0, 1000⟩, ⟨0, 0⟩), (⟨400, 1000⟩, ⟨400, 500⟩), (⟨800, 500⟩, ⟨400, 0⟩)]

/-- C45, violation: the compared ends are those at which the head is not. After the first line the head is at (0, 0); the
next line drawn starts at (400, 500), though there is a line which would start at (400, 0). -/
theorem C45_head_not_used : (⟨400, 400, 0, ⟨0, 0⟩, ⟨0, 0⟩, true, false⟩ : Linear).sortInfill (fun _ => (false, true)) (threeLines.map fun l => [l.1, l.2]) =
    .ok [[⟨0, 1000⟩, ⟨0, 0⟩], [⟨400, 500⟩, ⟨400, 1000⟩], [⟨800, 500⟩, ⟨400, 0⟩]] ∧
    distance ⟨0, 0⟩ ⟨400, 0⟩ < distance ⟨0, 0⟩ ⟨400, 500⟩ := by
  constructor
  · decide +kernel
  · unfold distance
    apply Real.sqrt_lt_sqrt <;> norm_num

example : SmallLines threeLines := by
  intro l hl
  simp only [threeLines, List.mem_cons, List.not_mem_nil, or_false] at hl
  rcases hl with rfl | rfl | rfl <;> norm_num

example : (⟨400, 400, 0, ⟨0, 0⟩, ⟨0, 0⟩, true, true⟩ : Linear).sortInfill (fun _ => (false, true)) (threeLines.map fun l => [l.1, l.2]) =
    .ok [[⟨0, 1000⟩, ⟨0, 0⟩], [⟨0, 0⟩, ⟨400, 500⟩], [⟨400, 500⟩, ⟨400, 1000⟩], [⟨400, 1000⟩, ⟨800, 500⟩], [⟨800, 500⟩, ⟨400, 0⟩]] := by
  decide +kernel

end Verif
