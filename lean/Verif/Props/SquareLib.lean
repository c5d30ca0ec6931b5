import Verif.Props.Squares
import Verif.Spec.PrintArea
import Verif.Spec.Clear
import Verif.Spec.Travel
import Verif.Spec.Solid
import Verif.Props.Patterns
import Verif.Props.Support
import Mathlib.Order.Interval.Finset.Basic
import Mathlib.Data.Int.Interval

/-! # A clipper library which meets all assumptions

It rounds every area to unit squares: the result consists of the squares whose centres are in the exact area. -/
namespace Verif
open Verif.Go Verif.Model Verif.Spec CellSide

/-- The centre of a square. -/
def centre (c : Cell) : ℚ × ℚ := (c.1 + 1 / 2, c.2 + 1 / 2)

theorem cellOf_centre (c : Cell) : cellOf (centre c) = c := by
  unfold cellOf centre
  ext <;> simp only [Int.floor_eq_iff] <;> constructor <;> linarith

theorem near_centre (x : ℚ × ℚ) : NearPt 1 x (centre (cellOf x)) := by
  refine ⟨zero_le_one, ?_⟩
  unfold centre cellOf
  have h1 := Int.floor_le x.1
  have h2 := Int.lt_floor_add_one x.1
  have h3 := Int.floor_le x.2
  have h4 := Int.lt_floor_add_one x.2
  simp only
  nlinarith

/-- The points of a side are near the centres of both squares. -/
theorem near_side (e : CellSide) {t : ℚ} (h0 : 0 ≤ t) (h1 : t ≤ 1) :
    NearPt 1 (lineAt (corner (tail e)) (corner (head e)) t) (centre e.1) ∧ NearPt 1 (lineAt (corner (tail e)) (corner (head e)) t) (centre (across e)) := by
  obtain ⟨⟨x, y⟩, d⟩ := e
  cases d <;> refine ⟨⟨zero_le_one, ?_⟩, ⟨zero_le_one, ?_⟩⟩ <;> simp [lineAt, corner, tail, head, across, centre, Dir.vec, Dir.right] <;> nlinarith

theorem near_across (e : CellSide) : NearPt 1 (centre e.1) (centre (across e)) := by
  obtain ⟨⟨x, y⟩, d⟩ := e
  cases d <;> refine ⟨zero_le_one, ?_⟩ <;> simp [across, centre, Dir.vec, Dir.right]

/-! ## Areas of squares -/

/-- The squares with their centres in a set. -/
def cellsIn (A : Set (ℚ × ℚ)) : Set Cell := {c | centre c ∈ A}

/-- All contours in one area. -/
def oneArea : List (List IntPoint) → List PolyNode
  | [] => []
  | k :: ks => [.node k (ks.map fun c => .node c [])]

open Classical in
/-- The contours of the squares with their centres in a set. -/
noncomputable def pixelContours (A : Set (ℚ × ℚ)) : List (List IntPoint) := if h : (cellsIn A).Finite then contoursOf h else []

/-- A set rounded to squares. -/
noncomputable def pixelate (A : Set (ℚ × ℚ)) : List PolyNode := oneArea (pixelContours A)

theorem treesContours_leaves (ks : List (List IntPoint)) : treesContours (ks.map fun c => .node c []) = ks := by
  induction ks with
  | nil => simp [treesContours]
  | cons k ks ih => simp [treesContours, treeContours, ih]

theorem contours_oneArea (ks : List (List IntPoint)) : treesContours (oneArea ks) = ks := by
  cases ks with
  | nil => simp [oneArea, treesContours]
  | cons k ks => simp [oneArea, treesContours, treeContours, treesContours_leaves]

theorem areasInside_leaves (ks : List (List IntPoint)) : areasInside (ks.map fun c => .node c []) = [] := by
  induction ks with
  | nil => simp [areasInside]
  | cons k ks ih => simp [areasInside, areas, ih]

open Classical in
theorem areaCount_oneArea (ks : List (List IntPoint)) (x : ℚ × ℚ) : areaCount (areas (oneArea ks)) x = if x ∈ evenOdd enclosedBy ks then 1 else 0 := by
  cases ks with
  | nil =>
    rw [if_neg (evenOdd_none x)]
    simp [oneArea, areas, areaCount]
  | cons k ks =>
    have : areas (oneArea (k :: ks)) = [k :: ks] := by
      simp [oneArea, areas, areasOf, areasInside_leaves, PolyNode.contour, Function.comp_def]
    rw [this]
    unfold areaCount
    by_cases h : x ∈ evenOdd enclosedBy (k :: ks) <;> simp [h]

theorem isArea_oneArea {ks a : List (List IntPoint)} (h : IsArea (oneArea ks) a) : a = ks := by
  obtain ⟨root, hr, n, hn, rfl⟩ := h
  cases ks with
  | nil => cases hr
  | cons k ks =>
    have hr : root = .node k (ks.map fun c => .node c []) := by simpa [oneArea] using hr
    have : n = root := by
      induction hn with
      | refl => rfl
      | step h1 h2 h3 ih =>
        rw [ih, hr] at h2
        obtain ⟨c, hc, rfl⟩ := List.mem_map.1 (show _ ∈ ks.map _ from h2)
        cases h3
    rw [this, hr]
    simp [PolyNode.contour, PolyNode.childs, Function.comp_def]

/-! ## Limits -/

/-- A point of the plane in a rectangle. -/
def InRectangle (R : Rect) (x : ℚ × ℚ) : Prop := (R.minX : ℚ) ≤ x.1 ∧ x.1 ≤ R.maxX ∧ (R.minY : ℚ) ≤ x.2 ∧ x.2 ≤ R.maxY

theorem cells_finite {A : Set (ℚ × ℚ)} {R : Rect} (h : ∀ x ∈ A, InRectangle R x) : (cellsIn A).Finite := by
  refine ((Set.finite_Icc R.minX R.maxX).prod (Set.finite_Icc R.minY R.maxY)).subset fun c hc => ?_
  obtain ⟨h1, h2, h3, h4⟩ := h _ hc
  unfold centre at h1 h2 h3 h4
  simp only at h1 h2 h3 h4
  have e1 : R.minX < c.1 + 1 := by have : (R.minX : ℚ) < (c.1 : ℚ) + 1 := by linarith
                                   exact_mod_cast this
  have e2 : c.1 < R.maxX + 1 := by have : (c.1 : ℚ) < (R.maxX : ℚ) + 1 := by linarith
                                   exact_mod_cast this
  have e3 : R.minY < c.2 + 1 := by have : (R.minY : ℚ) < (c.2 : ℚ) + 1 := by linarith
                                   exact_mod_cast this
  have e4 : c.2 < R.maxY + 1 := by have : (c.2 : ℚ) < (R.maxY : ℚ) + 1 := by linarith
                                   exact_mod_cast this
  exact ⟨⟨by omega, by omega⟩, ⟨by omega, by omega⟩⟩

theorem exists_enclosing {cs : List (List IntPoint)} {x : ℚ × ℚ} (h : x ∈ evenOdd enclosedBy cs) : ∃ c ∈ cs, Encloses (asPath c) x := by
  have h : Odd (crossings enclosedBy cs x) := h
  unfold crossings at h
  obtain ⟨c, hc, hx⟩ := List.countP_pos_iff.1 h.pos
  exact ⟨c, hc, show x ∈ enclosedBy c by simpa using hx⟩

theorem evenOdd_within {cs : List (List IntPoint)} {R : Rect} (hR : R.HasContours cs) {x : ℚ × ℚ} (h : x ∈ evenOdd enclosedBy cs) : InRectangle R x := by
  obtain ⟨c, hc, hx⟩ := exists_enclosing h
  have hp : ∀ q ∈ asPath c, R.Has q.x q.y := fun q hq => by
    obtain ⟨p, hp, rfl⟩ := List.mem_map.1 hq
    exact hR c hc p hp
  have e1 := encloses_half hx (u := -1) (v := 0) (w := -R.minX) fun q hq => by
    have : (R.minX : ℚ) ≤ q.x := by exact_mod_cast (hp q hq).1
    simp only [exactPt]; linarith
  have e2 := encloses_half hx (u := 1) (v := 0) (w := R.maxX) fun q hq => by
    have : (q.x : ℚ) ≤ R.maxX := by exact_mod_cast (hp q hq).2.1
    simp only [exactPt]; linarith
  have e3 := encloses_half hx (u := 0) (v := -1) (w := -R.minY) fun q hq => by
    have : (R.minY : ℚ) ≤ q.y := by exact_mod_cast (hp q hq).2.2.1
    simp only [exactPt]; linarith
  have e4 := encloses_half hx (u := 0) (v := 1) (w := R.maxY) fun q hq => by
    have : (q.y : ℚ) ≤ R.maxY := by exact_mod_cast (hp q hq).2.2.2
    simp only [exactPt]; linarith
  exact ⟨by linarith, by linarith, by linarith, by linarith⟩

theorem exists_rect (cs : List (List IntPoint)) : ∃ R : Rect, R.HasContours cs := by
  have h : ∀ ps : List IntPoint, ∃ M : Int, ∀ p ∈ ps, |p.x| ≤ M ∧ |p.y| ≤ M := by
    intro ps
    induction ps with
    | nil => exact ⟨0, by simp⟩
    | cons p ps ih =>
      obtain ⟨M, hM⟩ := ih
      refine ⟨max M (max |p.x| |p.y|), fun q hq => ?_⟩
      rcases List.mem_cons.1 hq with rfl | hq
      · exact ⟨by omega, by omega⟩
      · have := hM q hq
        exact ⟨by omega, by omega⟩
  obtain ⟨M, hM⟩ := h cs.flatten
  refine ⟨⟨-M, M, -M, M⟩, fun c hc q hq => ?_⟩
  have := hM q (List.mem_flatten.2 ⟨c, hc, hq⟩)
  rw [abs_le, abs_le] at this
  exact ⟨this.1.1, this.1.2, this.2.1, this.2.2⟩

/-! ## What is known about a rounded set -/

section
variable {A : Set (ℚ × ℚ)} {R : Rect}

theorem pixelContours_eq (h : ∀ x ∈ A, InRectangle R x) : pixelContours A = contoursOf (cells_finite h) := by
  unfold pixelContours
  rw [dif_pos]

theorem mem_square (h : ∀ x ∈ A, InRectangle R x) (x : ℚ × ℚ) : x ∈ evenOdd enclosedBy (pixelContours A) ↔ centre (cellOf x) ∈ A := by
  rw [pixelContours_eq h, mem_contours]
  rfl

/-- Each point of a contour is near the centre of a square which belongs to the set, and near the centre of one which does not. -/
theorem square_border (h : ∀ x ∈ A, InRectangle R x) {k : List IntPoint} (hk : k ∈ pixelContours A) {s : Pt × Pt} (hs : s ∈ sidesOf (asPath k)) {t : ℚ} (h0 : 0 ≤ t) (h1 : t ≤ 1) :
    ∃ p p', p ∈ A ∧ p' ∉ A ∧ NearPt 1 p p' ∧ NearPt 1 (lineAt (exactPt s.1) (exactPt s.2) t) p ∧ NearPt 1 (lineAt (exactPt s.1) (exactPt s.2) t) p' := by
  rw [pixelContours_eq h] at hk
  obtain ⟨e, he, e1, e2⟩ := contours_sides _ hk hs
  rw [e1, e2]
  exact ⟨centre e.1, centre (across e), he.1, he.2, near_across e, (near_side e h0 h1).1, (near_side e h0 h1).2⟩

theorem square_touches (h : ∀ x ∈ A, InRectangle R x) {x : ℚ × ℚ} (hx : Touches enclosedBy (pixelContours A) x) :
    ∃ p, p ∈ A ∧ NearPt 1 x p ∧ p ∈ evenOdd enclosedBy (pixelContours A) := by
  rcases hx with hx | ⟨k, hk, a, b, hab, t, h0, h1, rfl⟩
  · refine ⟨_, (mem_square h x).1 hx, near_centre x, ?_⟩
    rw [mem_square h, cellOf_centre]
    exact (mem_square h x).1 hx
  · rw [pathLines_sides] at hab
    rw [pixelContours_eq h] at hk
    obtain ⟨e, he, e1, e2⟩ := contours_sides _ hk hab
    refine ⟨centre e.1, he.1, ?_, ?_⟩
    · rw [show exactPt a = _ from e1, show exactPt b = _ from e2]
      exact (near_side e h0 h1).1
    · rw [mem_square h, cellOf_centre]
      exact he.1

theorem square_within (h : ∀ x ∈ A, InRectangle R x) : R.HasContours (pixelContours A) := by
  intro k hk q hq
  rw [pixelContours_eq h] at hk
  obtain ⟨⟨⟨x, y⟩, d⟩, he, rfl⟩ := contours_point _ hk hq
  obtain ⟨h1, h2, h3, h4⟩ := h _ he.1
  unfold centre at h1 h2 h3 h4
  simp only at h1 h2 h3 h4
  have e1 : R.minX < x + 1 := by have : (R.minX : ℚ) < (x : ℚ) + 1 := by linarith
                                 exact_mod_cast this
  have e2 : x < R.maxX := by have : (x : ℚ) < (R.maxX : ℚ) := by linarith
                             exact_mod_cast this
  have e3 : R.minY < y + 1 := by have : (R.minY : ℚ) < (y : ℚ) + 1 := by linarith
                                 exact_mod_cast this
  have e4 : y < R.maxY := by have : (y : ℚ) < (R.maxY : ℚ) := by linarith
                             exact_mod_cast this
  cases d <;> refine ⟨?_, ?_, ?_, ?_⟩ <;> simp only [tail, Prod.mk_add_mk, add_zero] <;> omega

end

/-! ## The library -/

/-- The exact offset of a set, with round corners. -/
def offsetSet (A : Set (ℚ × ℚ)) (d : ℚ) : Set (ℚ × ℚ) := if 0 < d then {p | ∃ q ∈ A, NearPt d p q} else {p | ∀ q, q ∉ A → ¬ NearPt (-d) p q}

/-- The piece from `r.1` to `r.2` of a vertical line belongs to a set. -/
def PieceIn (A : Set (ℚ × ℚ)) (x : Int) (r : Int × Int) : Prop := r.1 ≤ r.2 ∧ ∀ y : ℚ, (r.1 : ℚ) ≤ y → y ≤ r.2 → ((x : ℚ), y) ∈ A

/-- The piece is not part of a larger one. -/
def LargestIn (A : Set (ℚ × ℚ)) (x : Int) (rs : Finset (Int × Int)) (r : Int × Int) : Prop := PieceIn A x r ∧ ∀ r' ∈ rs, PieceIn A x r' → r'.1 ≤ r.1 → r.2 ≤ r'.2 → r' = r

open Classical in
/-- The pieces of a line in a set. Only vertical lines are cut; nothing remains of others. -/
noncomputable def piecesIn (A : Set (ℚ × ℚ)) : List IntPoint → List PolyNode
  | [p, q] =>
    if p.x = q.x then
      let rs := Finset.Icc (min p.y q.y) (max p.y q.y) ×ˢ Finset.Icc (min p.y q.y) (max p.y q.y)
      (rs.filter (LargestIn A p.x rs)).toList.map fun r => .node [⟨p.x, r.2⟩, ⟨p.x, r.1⟩] []
    else []
  | _ => []

open Classical in
/-- A line, if it is not completely in a set. -/
noncomputable def restOf (A : Set (ℚ × ℚ)) : List IntPoint → List PolyNode
  | [p, q] => if ∀ x, OnLine p q x → x ∈ A then [] else [.node [p, q] []]
  | l => [.node l []]

/-- A library which rounds all areas to unit squares. It does not compute hulls. -/
noncomputable def squareLib : ClipperLib where
  execute t s c := some (pixelate (clipSets t (evenOdd enclosedBy s) (evenOdd enclosedBy c)))
  executeOpen t lines c := some (match t with
    | .intersection => lines.flatMap (piecesIn (evenOdd enclosedBy c))
    | .difference => lines.flatMap (restOf (evenOdd enclosedBy c))
    | .union => [])
  offset s d := pixelate (offsetSet (evenOdd enclosedBy s) d)
  hull p := p

theorem offset_sub {A : Set (ℚ × ℚ)} {d : ℚ} (hd : d ≤ 0) {p : ℚ × ℚ} (h : p ∈ offsetSet A d) : p ∈ A := by
  unfold offsetSet at h
  rw [if_neg (not_lt.2 hd)] at h
  by_contra hp
  exact h p hp (NearPt.refl (by linarith) p)

theorem clip_within {t : ClipType} {s c : List (List IntPoint)} {R : Rect} (hs : R.HasContours s) (hc : R.HasContours c) :
    ∀ x ∈ clipSets t (evenOdd enclosedBy s) (evenOdd enclosedBy c), InRectangle R x := by
  intro x hx
  cases t with
  | union => exact hx.elim (evenOdd_within hs) (evenOdd_within hc)
  | difference => exact evenOdd_within hs hx.1
  | intersection => exact evenOdd_within hs hx.1

theorem near_abs {d : ℚ} {p q : ℚ × ℚ} (h : NearPt d p q) : |p.1 - q.1| ≤ d ∧ |p.2 - q.2| ≤ d := by
  constructor <;> apply abs_le_of_sq_le_sq _ h.1 <;> nlinarith [h.2, sq_nonneg (p.1 - q.1), sq_nonneg (p.2 - q.2)]

theorem offset_within {s : List (List IntPoint)} {R : Rect} (hs : R.HasContours s) (d : ℚ) : ∀ x ∈ offsetSet (evenOdd enclosedBy s) d, InRectangle (R.grow (reach d)) x := by
  intro x hx
  by_cases hd : 0 < d
  · unfold offsetSet at hx
    rw [if_pos hd] at hx
    obtain ⟨q, hq, hn⟩ := hx
    obtain ⟨h1, h2, h3, h4⟩ := evenOdd_within hs hq
    obtain ⟨e1, e2⟩ := near_abs hn
    rw [abs_le] at e1 e2
    have hr : d ≤ (reach d : ℚ) := by
      unfold reach
      rw [if_neg (not_le.2 hd)]
      have := Int.le_ceil (3 / 2 * d)
      push_cast
      linarith
    unfold InRectangle Rect.grow
    push_cast
    exact ⟨by linarith, by linarith, by linarith, by linarith⟩
  · have h := evenOdd_within hs (offset_sub (not_lt.1 hd) hx)
    have hr : reach d = 0 := by unfold reach; rw [if_pos (not_lt.1 hd)]
    unfold InRectangle Rect.grow at *
    rw [hr]
    simpa using h

/-- All areas of the library are bounded. -/
theorem clip_bounded (t : ClipType) (s c : List (List IntPoint)) : ∃ R : Rect, ∀ x ∈ clipSets t (evenOdd enclosedBy s) (evenOdd enclosedBy c), InRectangle R x := by
  obtain ⟨R, hR⟩ := exists_rect (s ++ c)
  exact ⟨R, clip_within (fun k hk => hR k (List.mem_append_left _ hk)) fun k hk => hR k (List.mem_append_right _ hk)⟩

theorem offset_bounded (s : List (List IntPoint)) (d : ℚ) : ∃ R : Rect, ∀ x ∈ offsetSet (evenOdd enclosedBy s) d, InRectangle R x := by
  obtain ⟨R, hR⟩ := exists_rect s
  exact ⟨_, offset_within hR d⟩

theorem square_never : NeverFails squareLib := fun _ _ _ => rfl

theorem square_open : OpenClipping squareLib where
  ok _ _ _ := ⟨_, rfl⟩
  lines s c tree h hs n hn := by
    obtain rfl := Option.some.inj h
    obtain ⟨l, hl, hn⟩ := List.mem_flatMap.1 hn
    unfold piecesIn at hn
    split at hn
    · split at hn
      · obtain ⟨r, _, rfl⟩ := List.mem_map.1 hn
        rfl
      · cases hn
    · cases hn

theorem clipSets_move {t : ClipType} {s c : List (List IntPoint)} {d : ℚ} {q q' : ℚ × ℚ} (hq : NearPt d q q')
    (h : ¬ (q' ∈ clipSets t (evenOdd enclosedBy s) (evenOdd enclosedBy c) ↔ q ∈ clipSets t (evenOdd enclosedBy s) (evenOdd enclosedBy c))) :
    ∃ k ∈ s ++ c, ∃ e ∈ sidesOf (asPath k), ∃ u, 0 ≤ u ∧ u ≤ 1 ∧ NearPt d (lineAt (exactPt e.1) (exactPt e.2) u) q := by
  by_cases hs : q' ∈ evenOdd enclosedBy s ↔ q ∈ evenOdd enclosedBy s
  · by_cases hc : q' ∈ evenOdd enclosedBy c ↔ q ∈ evenOdd enclosedBy c
    · refine absurd ?_ h
      cases t
      · exact or_congr hs hc
      · exact and_congr hs (not_congr hc)
      · exact and_congr hs hc
    · obtain ⟨k, hk, r⟩ := contour_close hq hc
      exact ⟨k, List.mem_append_right _ hk, r⟩
  · obtain ⟨k, hk, r⟩ := contour_close hq hs
    exact ⟨k, List.mem_append_left _ hk, r⟩

/-- The contours of a rounded set are near the contours of the set. -/
theorem square_far {A : Set (ℚ × ℚ)} {R : Rect} (hR : ∀ x ∈ A, InRectangle R x) {D e : ℚ} (hD : 0 ≤ D) {cs : List (List IntPoint)} {x : ℚ × ℚ}
    (hf : ∀ k ∈ cs, FarFromPath (D + (e + 1)) (asPath k) x)
    (hA : ∀ p p', p ∈ A → p' ∉ A → NearPt 1 p p' → ∃ q, (q = p ∨ q = p') ∧ ∃ k ∈ cs, ∃ s ∈ sidesOf (asPath k), ∃ u, 0 ≤ u ∧ u ≤ 1 ∧ NearPt e (lineAt (exactPt s.1) (exactPt s.2) u) q) :
    ∀ k ∈ pixelContours A, FarFromPath D (asPath k) x := by
  intro k hk s hs t h0 h1
  obtain ⟨p, p', hp, hp', hn, n1, n2⟩ := square_border hR hk hs h0 h1
  obtain ⟨q, hq, k', hk', s', hs', u, u0, u1, hu⟩ := hA p p' hp hp' hn
  have hqy : NearPt 1 q (lineAt (exactPt s.1) (exactPt s.2) t) := by
    rcases hq with rfl | rfl
    · exact n1.symm
    · exact n2.symm
  have h := far_point (hf k' hk') hD hs' u0 u1 (hu.trans hqy)
  simpa only [lineAt] using h

theorem offset_between {cs : List (List IntPoint)} {d : ℚ} {p p' : ℚ × ℚ} (hp : p ∈ offsetSet (evenOdd enclosedBy cs) d) (hp' : p' ∉ offsetSet (evenOdd enclosedBy cs) d)
    (hn : NearPt 1 p p') : ∃ q, (q = p ∨ q = p') ∧ ∃ k ∈ cs, ∃ s ∈ sidesOf (asPath k), ∃ u, 0 ≤ u ∧ u ≤ 1 ∧ NearPt (|d| + 1) (lineAt (exactPt s.1) (exactPt s.2) u) q := by
  unfold offsetSet at hp hp'
  by_cases hd : 0 < d
  · rw [if_pos hd] at hp hp'
    obtain ⟨q, hq, hpq⟩ := hp
    refine ⟨p', Or.inr rfl, contour_close (q' := q) ?_ fun h => ?_⟩
    · rw [abs_of_pos hd, add_comm]
      exact hn.symm.trans hpq
    · exact hp' ⟨p', h.1 hq, NearPt.refl hd.le _⟩
  · rw [if_neg hd] at hp hp'
    have hp' : ∃ q, q ∉ evenOdd enclosedBy cs ∧ NearPt (-d) p' q := by
      by_contra hc
      exact hp' fun q hq hq' => hc ⟨q, hq, hq'⟩
    obtain ⟨q, hq, hpq⟩ := hp'
    refine ⟨p, Or.inl rfl, contour_close (q' := q) ?_ fun h => ?_⟩
    · rw [abs_of_nonpos (not_lt.1 hd), add_comm]
      exact hn.trans hpq
    · exact hp p (fun hpe => hq (h.2 hpe)) (NearPt.refl (by linarith) p)

theorem offset_same {cs : List (List IntPoint)} {d : ℚ} {x : ℚ × ℚ} (hf : ∀ k ∈ cs, FarFromPath (|d| + 1) (asPath k) x) :
    centre (cellOf x) ∈ offsetSet (evenOdd enclosedBy cs) d ↔ x ∈ evenOdd enclosedBy cs := by
  have hn := near_centre x
  have hc : centre (cellOf x) ∈ evenOdd enclosedBy cs ↔ x ∈ evenOdd enclosedBy cs :=
    evenOdd_move (hn.mono (by linarith [abs_nonneg d])) hf
  unfold offsetSet
  by_cases hd : 0 < d
  · rw [if_pos hd]
    constructor
    · rintro ⟨q, hq, hpq⟩
      refine (evenOdd_move ?_ hf).1 hq
      rw [abs_of_pos hd, add_comm]
      exact hn.trans hpq
    · intro hx
      exact ⟨_, hc.2 hx, NearPt.refl hd.le _⟩
  · rw [if_neg hd]
    constructor
    · intro h
      by_contra hx
      exact h _ (fun h' => hx (hc.1 h')) (NearPt.refl (by linarith) _)
    · intro hx q hq hpq
      refine hq ((evenOdd_move ?_ hf).2 hx)
      rw [abs_of_nonpos (not_lt.1 hd), add_comm]
      exact hn.trans hpq

theorem square_sides : KeepsSides squareLib 2 where
  execute t s c tree h D x hD hf := by
    classical
    obtain rfl := Option.some.inj h
    obtain ⟨R, hR⟩ := clip_bounded t s c
    unfold pixelate
    rw [contours_oneArea, areaCount_oneArea]
    refine ⟨square_far hR (e := 1) hD (by simpa only [one_add_one_eq_two] using hf) fun p p' hp hp' hn => ⟨p, Or.inl rfl, ?_⟩, ?_⟩
    · exact clipSets_move hn fun h => hp' (h.2 hp)
    · rw [mem_square hR]
      have : centre (cellOf x) ∈ clipSets t (evenOdd enclosedBy s) (evenOdd enclosedBy c) ↔ x ∈ clipSets t (evenOdd enclosedBy s) (evenOdd enclosedBy c) := by
        by_contra hc
        obtain ⟨k, hk, e, he, u, u0, u1, hu⟩ := clipSets_move (near_centre x) hc
        have := farFromPath_le (hf k hk) zero_le_one (by linarith) e he u u0 u1
        exact absurd hu.2 (not_le.2 this)
      exact if_congr this rfl rfl
  offset s d _ D x hD hf := by
    classical
    obtain ⟨R, hR⟩ := offset_bounded s d
    change (∀ k ∈ treesContours (pixelate _), _) ∧ areaCount (areas (pixelate _)) x = _
    unfold pixelate
    rw [contours_oneArea, areaCount_oneArea]
    have h0 := abs_nonneg d
    refine ⟨square_far hR (e := |d| + 1) hD (fun k hk => farFromPath_le (hf k hk) (by linarith) (by linarith)) fun p p' hp hp' hn => offset_between hp hp' hn, ?_⟩
    rw [mem_square hR]
    have := offset_same (d := d) fun k hk => farFromPath_le (hf k hk) (show 0 ≤ |d| + 1 by linarith) (by linarith)
    exact if_congr this rfl rfl

theorem near_of_square {A : Set (ℚ × ℚ)} {R : Rect} (hR : ∀ x ∈ A, InRectangle R x) {cs : List (List IntPoint)} (hA : ∀ p ∈ A, p ∈ evenOdd enclosedBy cs)
    {x : ℚ × ℚ} (hx : Touches enclosedBy (pixelContours A) x) : NearArea enclosedBy 2 cs x := by
  obtain ⟨p, hp, hn, _⟩ := square_touches hR hx
  exact ⟨p, Or.inl (hA p hp), hn.mono (by norm_num)⟩

theorem square_nothing : NothingOutside enclosedBy squareLib 2 where
  intersection s c tree h a ha x hx := by
    obtain rfl := Option.some.inj h
    rw [isArea_oneArea ha] at hx
    obtain ⟨R, hR⟩ := clip_bounded .intersection s c
    exact near_of_square hR (fun p hp => hp.2) hx
  difference s c tree h a ha x hx := by
    obtain rfl := Option.some.inj h
    rw [isArea_oneArea ha] at hx
    obtain ⟨R, hR⟩ := clip_bounded .difference s c
    exact near_of_square hR (fun p hp => hp.1) hx
  union s c tree h a ha x hx := by
    obtain rfl := Option.some.inj h
    rw [isArea_oneArea ha] at hx
    obtain ⟨R, hR⟩ := clip_bounded .union s c
    obtain ⟨p, hp, hn, _⟩ := square_touches hR hx
    rcases hp with hp | hp
    · exact Or.inl ⟨p, Or.inl hp, hn.mono (by norm_num)⟩
    · exact Or.inr ⟨p, Or.inl hp, hn.mono (by norm_num)⟩
  inset s d _ hd a ha x hx := by
    rw [isArea_oneArea ha] at hx
    obtain ⟨R, hR⟩ := offset_bounded s d
    exact near_of_square hR (fun p hp => offset_sub hd hp) hx
  cut lines c tree h n hn x hx := by
    classical
    obtain rfl := Option.some.inj h
    obtain ⟨l, hl, hn⟩ := List.mem_flatMap.1 hn
    unfold piecesIn at hn
    split at hn
    · rename_i p q
      split at hn
      · obtain ⟨r, hr, rfl⟩ := List.mem_map.1 hn
        rw [Finset.mem_toList, Finset.mem_filter] at hr
        obtain ⟨hr1, hr2⟩ := hr.2.1
        obtain ⟨a, b, hab, t, t0, t1, rfl⟩ := hx
        have hab : a = ⟨p.x, r.2⟩ ∧ b = ⟨p.x, r.1⟩ := by simpa [PolyNode.contour, asPath, pathLines] using hab
        obtain ⟨rfl, rfl⟩ := hab
        have h12 : (r.1 : ℚ) ≤ r.2 := by exact_mod_cast hr1
        refine ⟨_, Or.inl ?_, NearPt.refl (by norm_num) _⟩
        have := hr2 ((r.2 : ℚ) + t * (r.1 - r.2)) (by nlinarith) (by nlinarith)
        simpa [lineAt, exactPt] using this
      · cases hn
    · cases hn
  left a b c _ h x hx := by
    have h := Option.some.inj h
    simp only [List.flatMap_cons, List.flatMap_nil, List.append_nil, restOf] at h
    split at h
    · rename_i hin
      obtain ⟨a', b', hab, t, t0, t1, rfl⟩ := hx
      have hab : a' = ⟨a.x, a.y⟩ ∧ b' = ⟨b.x, b.y⟩ := by simpa [asPath, pathLines] using hab
      obtain ⟨rfl, rfl⟩ := hab
      exact ⟨_, Or.inl (hin _ ⟨t, t0, t1, rfl⟩), NearPt.refl (by norm_num) _⟩
    · cases h
  vertical lines c tree h hv n hn p hp q hq := by
    obtain rfl := Option.some.inj h
    obtain ⟨l, hl, hn⟩ := List.mem_flatMap.1 hn
    unfold piecesIn at hn
    split at hn
    · split at hn
      · obtain ⟨r, hr, rfl⟩ := List.mem_map.1 hn
        simp only [PolyNode.contour, List.mem_cons, List.not_mem_nil, or_false] at hp hq
        rcases hp with rfl | rfl <;> rcases hq with rfl | rfl <;> rfl
      · cases hn
    · cases hn

theorem square_insets : InsetsKeep enclosedBy squareLib 2 := by
  intro paths d _ hd c hc x hx q hq
  obtain ⟨R, hR⟩ := offset_bounded paths (-d)
  change c ∈ treesContours (pixelate _) at hc
  unfold pixelate at hc
  rw [contours_oneArea] at hc
  obtain ⟨a, b, hab, t, t0, t1, rfl⟩ := hx
  rw [pathLines_sides] at hab
  obtain ⟨p, p', hp, hp', hn, n1, n2⟩ := square_border hR hc hab t0 t1
  unfold offsetSet at hp
  rw [if_neg (by linarith), neg_neg] at hp
  have := hp q hq
  by_contra hap
  unfold Apart at hap
  rw [not_or, not_le, not_le] at hap
  have h2 : NearPt (d - 2) (lineAt (exactPt a) (exactPt b) t) q := ⟨by linarith [hap.1], hap.2.le⟩
  exact this ((n1.symm.trans h2).mono (by linarith))

theorem square_clear : KeepsClear enclosedBy squareLib 2 where
  removed s c tree h a ha x hx := by
    obtain rfl := Option.some.inj h
    rw [isArea_oneArea ha] at hx
    obtain ⟨R, hR⟩ := clip_bounded .difference s c
    obtain ⟨p, hp, hn, _⟩ := square_touches hR hx
    exact ⟨p, hp.2, hn.mono (by norm_num)⟩
  enlarged s d hs hd z hz y hy := by
    obtain ⟨R, hR⟩ := offset_bounded s d
    change y ∈ evenOdd enclosedBy (treesContours (pixelate _))
    unfold pixelate
    rw [contours_oneArea, mem_square hR]
    -- the given area consists of squares, too
    obtain ⟨w, hw, hn⟩ : ∃ w, w ∈ evenOdd enclosedBy s ∧ NearPt 1 z w := by
      obtain ⟨tree, htree, ha⟩ := hs
      obtain ⟨A, R', hR', rfl⟩ : ∃ A R', (∀ x ∈ A, InRectangle R' x) ∧ tree = pixelate A := by
        rcases htree with ⟨t, s, c, h⟩ | ⟨s, d, rfl⟩
        · obtain rfl := Option.some.inj h
          obtain ⟨R', hR'⟩ := clip_bounded t s c
          exact ⟨_, R', hR', rfl⟩
        · obtain ⟨R', hR'⟩ := offset_bounded s d
          exact ⟨_, R', hR', rfl⟩
      rw [isArea_oneArea ha] at hz ⊢
      obtain ⟨p, hp, hn, he⟩ := square_touches hR' hz
      exact ⟨p, he, hn⟩
    unfold Apart at hy
    rw [not_or, not_le, not_le] at hy
    have h2 : NearPt (d - 2) y z := ⟨by linarith [hy.1], hy.2.le⟩
    unfold offsetSet
    rw [if_pos (by linarith [hy.1])]
    exact ⟨w, hw, (((near_centre y).symm.trans h2).trans hn).mono (by linarith)⟩

theorem square_union : UnionKeeps squareLib 2 := by
  intro s tree h q hf
  obtain rfl := Option.some.inj h
  obtain ⟨R, hR⟩ := clip_bounded .union s []
  unfold pixelate
  rw [contours_oneArea, mem_square hR]
  have e : ∀ x, x ∈ clipSets .union (evenOdd enclosedBy s) (evenOdd enclosedBy []) ↔ x ∈ evenOdd enclosedBy s := fun x => or_iff_left (evenOdd_none x)
  rw [e]
  exact evenOdd_move ((near_centre q).mono (by norm_num)) hf

theorem pixel_cuts : CutsLines enclosedBy squareLib := by
  intro a b clip tree h
  obtain rfl := Option.some.inj h
  simp only [List.flatMap_cons, List.flatMap_nil, List.append_nil, restOf]
  split
  · rename_i h
    exact ⟨fun _ => h, fun _ => rfl⟩
  · rename_i h
    exact ⟨fun h' => absurd h' (List.cons_ne_nil _ _), fun h' => absurd h' h⟩

/-- On the centres of the squares the library is exact. -/
theorem square_exact : Exact (fun c => {i : Cell | centre i ∈ enclosedBy c}) squareLib := by
  intro t s c tree h
  obtain rfl := Option.some.inj h
  obtain ⟨R, hR⟩ := clip_bounded t s c
  unfold pixelate
  rw [contours_oneArea]
  have e : ∀ (cs : List (List IntPoint)) (i : Cell), i ∈ evenOdd (fun c => {i : Cell | centre i ∈ enclosedBy c}) cs ↔ centre i ∈ evenOdd enclosedBy cs := fun _ _ => Iff.rfl
  ext i
  rw [e, mem_square hR, cellOf_centre]
  cases t <;> exact Iff.rfl

theorem square_keeps : KeepsInside enclosedBy squareLib := by
  intro lines clip tree h x top bottom hl lo hi hlh hb ht hin
  obtain rfl := Option.some.inj h
  have h1 : bottom ≤ ⌊lo⌋ := Int.le_floor.2 hb
  have h2 : ⌈hi⌉ ≤ top := Int.ceil_le.2 ht
  have h3 : ⌊lo⌋ ≤ ⌈hi⌉ := by
    have : (⌊lo⌋ : ℚ) ≤ ⌈hi⌉ := ((Int.floor_le lo).trans hlh).trans (Int.le_ceil hi)
    exact_mod_cast this
  have hmin : min top bottom = bottom := min_eq_right (by omega)
  have hmax : max top bottom = top := max_eq_left (by omega)
  have h0 : PieceIn (evenOdd enclosedBy clip) x (⌊lo⌋, ⌈hi⌉) := by
    refine ⟨h3, fun y y1 y2 => hin y ?_ ?_⟩
    · have := Int.lt_floor_add_one lo
      simp only at y1
      linarith
    · have := Int.ceil_lt_add_one hi
      simp only at y2
      linarith
  classical
  let rs : Finset (Int × Int) := Finset.Icc bottom top ×ˢ Finset.Icc bottom top
  let rs' := rs.filter fun r => PieceIn (evenOdd enclosedBy clip) x r ∧ r.1 ≤ ⌊lo⌋ ∧ ⌈hi⌉ ≤ r.2
  obtain ⟨r, hr, hmaxr⟩ := rs'.exists_max_image (fun r => r.2 - r.1) ⟨(⌊lo⌋, ⌈hi⌉), by
    simp only [rs', rs, Finset.mem_filter, Finset.mem_product, Finset.mem_Icc]
    exact ⟨⟨⟨h1, by omega⟩, ⟨by omega, h2⟩⟩, h0, le_rfl, le_rfl⟩⟩
  simp only [rs', Finset.mem_filter] at hr hmaxr
  refine ⟨.node [⟨x, r.2⟩, ⟨x, r.1⟩] [], List.mem_flatMap.2 ⟨_, hl, ?_⟩, ⟨x, r.2⟩, ⟨x, r.1⟩, rfl, rfl, rfl, Or.inl ⟨?_, ?_⟩⟩
  · simp only [piecesIn, if_true, hmin, hmax]
    refine List.mem_map.2 ⟨r, ?_, rfl⟩
    rw [Finset.mem_toList, Finset.mem_filter]
    refine ⟨hr.1, hr.2.1, fun r' hr' hp g1 g2 => ?_⟩
    have := hmaxr r' ⟨hr', hp, g1.trans hr.2.2.1, hr.2.2.2.trans g2⟩
    exact Prod.ext (by omega) (by omega)
  · exact (Int.cast_le.2 hr.2.2.1).trans (Int.floor_le lo)
  · exact (Int.le_ceil hi).trans (Int.cast_le.2 hr.2.2.2)

theorem has_of_half {cs : List (List IntPoint)} {a b c : ℝ} (h : ∀ contour ∈ cs, ∀ q ∈ contour, a * q.x + b * q.y ≤ c) {x : ℚ × ℚ} (hx : x ∈ evenOdd enclosedBy cs) :
    a * x.1 + b * x.2 ≤ c := by
  obtain ⟨k, hk, hx⟩ := exists_enclosing hx
  by_contra hc
  rw [not_le] at hc
  obtain ⟨R, hR⟩ := exists_rect [k]
  -- a bound for the distances of the corners
  obtain ⟨M, hM0, hM⟩ : ∃ M : ℝ, 0 < M ∧ ∀ q ∈ k, |(q.x : ℝ) - x.1| ≤ M ∧ |(q.y : ℝ) - x.2| ≤ M := by
    refine ⟨|(R.minX : ℝ) - x.1| + |(R.maxX : ℝ) - x.1| + |(R.minY : ℝ) - x.2| + |(R.maxY : ℝ) - x.2| + 1, by positivity, fun q hq => ?_⟩
    obtain ⟨h1, h2, h3, h4⟩ := hR k (by simp) q hq
    have h1 : (R.minX : ℝ) ≤ q.x := by exact_mod_cast h1
    have h2 : (q.x : ℝ) ≤ R.maxX := by exact_mod_cast h2
    have h3 : (R.minY : ℝ) ≤ q.y := by exact_mod_cast h3
    have h4 : (q.y : ℝ) ≤ R.maxY := by exact_mod_cast h4
    have n1 := neg_abs_le ((R.minX : ℝ) - x.1)
    have n2 := le_abs_self ((R.maxX : ℝ) - x.1)
    have n3 := neg_abs_le ((R.minY : ℝ) - x.2)
    have n4 := le_abs_self ((R.maxY : ℝ) - x.2)
    have p1 := abs_nonneg ((R.minX : ℝ) - x.1)
    have p2 := abs_nonneg ((R.maxX : ℝ) - x.1)
    have p3 := abs_nonneg ((R.minY : ℝ) - x.2)
    have p4 := abs_nonneg ((R.maxY : ℝ) - x.2)
    exact ⟨abs_le.2 ⟨by linarith, by linarith⟩, abs_le.2 ⟨by linarith, by linarith⟩⟩
  obtain ⟨δ, hδ⟩ : ∃ δ, δ = a * x.1 + b * x.2 - c := ⟨_, rfl⟩
  have hδ0 : 0 < δ := by rw [hδ]; linarith
  have hε : 0 < δ / (4 * M) := by positivity
  obtain ⟨u, u1, u2⟩ := exists_rat_btwn (show a < a + δ / (4 * M) by linarith)
  obtain ⟨v, v1, v2⟩ := exists_rat_btwn (show b < b + δ / (4 * M) by linarith)
  obtain ⟨η, η1, η2⟩ := exists_rat_btwn (show (0 : ℝ) < δ / 2 by linarith)
  have := encloses_half hx (u := u) (v := v) (w := u * x.1 + v * x.2 - η) fun q hq => by
    obtain ⟨p, hp, rfl⟩ := List.mem_map.1 hq
    have h1 := h k hk p hp
    obtain ⟨m1, m2⟩ := hM p hp
    have b1 : ((u : ℝ) - a) * ((p.x : ℝ) - x.1) ≤ δ / 4 := by
      have : ((u : ℝ) - a) * ((p.x : ℝ) - x.1) ≤ δ / (4 * M) * M :=
        (le_abs_self _).trans (by rw [abs_mul]; exact mul_le_mul (abs_le.2 ⟨by linarith, by linarith⟩) m1 (abs_nonneg _) hε.le)
      have e : δ / (4 * M) * M = δ / 4 := by field_simp
      linarith
    have b2 : ((v : ℝ) - b) * ((p.y : ℝ) - x.2) ≤ δ / 4 := by
      have : ((v : ℝ) - b) * ((p.y : ℝ) - x.2) ≤ δ / (4 * M) * M :=
        (le_abs_self _).trans (by rw [abs_mul]; exact mul_le_mul (abs_le.2 ⟨by linarith, by linarith⟩) m2 (abs_nonneg _) hε.le)
      have e : δ / (4 * M) * M = δ / 4 := by field_simp
      linarith
    have : (u : ℝ) * p.x + v * p.y ≤ u * x.1 + v * x.2 - η := by nlinarith
    simp only [exactPt]
    exact_mod_cast this
  have h0 : (0 : ℚ) < η := by exact_mod_cast η1
  linarith

theorem square_stays : StaysInside squareLib where
  union R s c tree h hs hc := by
    obtain rfl := Option.some.inj h
    unfold pixelate
    rw [contours_oneArea]
    exact square_within (clip_within hs hc)
  difference R s c tree h hs := by
    obtain rfl := Option.some.inj h
    unfold pixelate
    rw [contours_oneArea]
    exact square_within fun x hx => evenOdd_within hs hx.1
  intersection R s c tree h hc := by
    obtain rfl := Option.some.inj h
    unfold pixelate
    rw [contours_oneArea]
    exact square_within fun x hx => evenOdd_within hc hx.2
  offset R s d hs := by
    change (R.grow (reach d)).HasContours (treesContours (pixelate _))
    unfold pixelate
    rw [contours_oneArea]
    exact square_within (offset_within hs d)
  hull _ _ h := h
  lines a b c s clip tree _ h hclip n hn q hq := by
    classical
    obtain rfl := Option.some.inj h
    obtain ⟨l, hl, hn⟩ := List.mem_flatMap.1 hn
    unfold piecesIn at hn
    split at hn
    · rename_i p p'
      split at hn
      · obtain ⟨r, hr, rfl⟩ := List.mem_map.1 hn
        rw [Finset.mem_toList, Finset.mem_filter] at hr
        obtain ⟨hr1, hr2⟩ := hr.2.1
        have h12 : (r.1 : ℚ) ≤ r.2 := by exact_mod_cast hr1
        have k1 := has_of_half hclip (hr2 r.2 h12 le_rfl)
        have k2 := has_of_half hclip (hr2 r.1 le_rfl h12)
        push_cast at k1 k2
        simp only [PolyNode.contour, List.mem_cons, List.not_mem_nil, or_false] at hq
        rcases hq with rfl | rfl
        · simp only; linarith
        · simp only; linarith
      · cases hn
    · cases hn
  vertical := square_nothing.vertical

end Verif
