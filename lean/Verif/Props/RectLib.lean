import Verif.Props.SidesExample

/-! # A library for rectangles, with real insets -/
namespace Verif
open Verif.Go Verif.Model Verif.Spec

/-- A rectangle as a contour. -/
def contour4 (r : Int × Int × Int × Int) : List IntPoint := [⟨r.2.2.1, r.2.1⟩, ⟨r.2.2.1, r.2.2.2⟩, ⟨r.1, r.2.2.2⟩, ⟨r.1, r.2.1⟩]

/-- A contour as a rectangle `(x0, y0, x1, y1)`. -/
def asRect : List IntPoint → Option (Int × Int × Int × Int)
  | [a, b, c, d] => if a.x = b.x ∧ c.x = d.x ∧ b.y = c.y ∧ a.y = d.y ∧ d.x < a.x ∧ a.y < b.y then some (d.x, a.y, a.x, b.y) else none
  | _ => none

/-- The rectangle is not empty. -/
def Proper4 (r : Int × Int × Int × Int) : Prop := r.1 < r.2.2.1 ∧ r.2.1 < r.2.2.2

instance (r : Int × Int × Int × Int) : Decidable (Proper4 r) := by unfold Proper4; infer_instance

/-- One rectangle is inside of the other one. -/
def Within4 (r s : Int × Int × Int × Int) : Prop := s.1 ≤ r.1 ∧ s.2.1 ≤ r.2.1 ∧ r.2.2.1 ≤ s.2.2.1 ∧ r.2.2.2 ≤ s.2.2.2

instance (r s : Int × Int × Int × Int) : Decidable (Within4 r s) := by unfold Within4; infer_instance

/-- One rectangle is at the left or the right of the other one. -/
def Beside4 (r s : Int × Int × Int × Int) : Prop := r.2.2.1 ≤ s.1 ∨ s.2.2.1 ≤ r.1

instance (r s : Int × Int × Int × Int) : Decidable (Beside4 r s) := by unfold Beside4; infer_instance

/-- The rectangle with its sides moved outwards. -/
def growRect (r : Int × Int × Int × Int) (e : Int) : Int × Int × Int × Int := (r.1 - e, r.2.1 - e, r.2.2.1 + e, r.2.2.2 + e)

/-- The result with one contour. -/
def rectLeaf (r : Int × Int × Int × Int) : List PolyNode := [.node (contour4 r) []]

/-- Set operations for rectangles, one inside of the other or side by side. -/
def rectExecute (t : ClipType) (s c : List (List IntPoint)) : Option (List PolyNode) :=
  match s.mapM asRect, c.mapM asRect with
  | some [], some [] => some []
  | some [a], some [] => some (match t with | .intersection => [] | _ => rectLeaf a)
  | some [], some [b] => some (match t with | .union => rectLeaf b | _ => [])
  | some [a], some [b] =>
    if Within4 a b then some (match t with | .union => rectLeaf b | .intersection => rectLeaf a | .difference => [])
    else if Within4 b a then (match t with | .union => some (rectLeaf a) | .intersection => some (rectLeaf b) | .difference => none)
    else if Beside4 a b then (match t with | .union => none | .intersection => some [] | .difference => some (rectLeaf a))
    else none
  | _, _ => none

/-- Offsets of rectangles. -/
def rectOffset (s : List (List IntPoint)) (d : ℚ) : List PolyNode :=
  match s.mapM asRect with
  | some [a] => if Proper4 (growRect a ⌊d⌋) then rectLeaf (growRect a ⌊d⌋) else []
  | _ => []

/-- A library which is exact, but only works for rectangles, one inside of the other or side by side. -/
noncomputable def rectLib : ClipperLib := { pieceLib with execute := rectExecute, offset := rectOffset }

theorem asRect_some {c : List IntPoint} {r : Int × Int × Int × Int} (h : asRect c = some r) : c = contour4 r ∧ Proper4 r := by
  unfold asRect at h
  split at h
  · rename_i a b c d
    split at h
    · rename_i hc
      obtain ⟨h1, h2, h3, h4, h5, h6⟩ := hc
      cases h
      refine ⟨?_, h5, h6⟩
      cases a; cases b; cases c; cases d
      simp only at h1 h2 h3 h4
      simp [contour4, h1, h2, h3, h4]
    · cases h
  · cases h

theorem mapM_asRect {s : List (List IntPoint)} {rs : List (Int × Int × Int × Int)} (h : s.mapM asRect = some rs) : s = rs.map contour4 ∧ ∀ r ∈ rs, Proper4 r := by
  induction s generalizing rs with
  | nil => simp at h; subst h; simp
  | cons c s ih =>
    rw [List.mapM_cons] at h
    cases hc : asRect c with
    | none => rw [hc] at h; cases h
    | some r =>
      rw [hc] at h
      cases hs : s.mapM asRect with
      | none => rw [hs] at h; cases h
      | some rs' =>
        rw [hs] at h
        cases h
        obtain ⟨e1, e2⟩ := asRect_some hc
        obtain ⟨e3, e4⟩ := ih hs
        refine ⟨by rw [e1, e3]; rfl, fun q hq => ?_⟩
        rcases List.mem_cons.1 hq with rfl | hq
        · exact e2
        · exact e4 q hq

/-- The points of a rectangle. -/
def inRect (r : Int × Int × Int × Int) (x : ℚ × ℚ) : Prop := (r.1 : ℚ) ≤ x.1 ∧ x.1 < r.2.2.1 ∧ (r.2.1 : ℚ) ≤ x.2 ∧ x.2 < r.2.2.2

theorem rect_sides (r : Int × Int × Int × Int) : sidesOf (asPath (contour4 r)) =
    [(⟨r.2.2.1, r.2.1⟩, ⟨r.2.2.1, r.2.2.2⟩), (⟨r.2.2.1, r.2.2.2⟩, ⟨r.1, r.2.2.2⟩), (⟨r.1, r.2.2.2⟩, ⟨r.1, r.2.1⟩), (⟨r.1, r.2.1⟩, ⟨r.2.2.1, r.2.1⟩)] := rfl

theorem rect_encloses {r : Int × Int × Int × Int} (hr : Proper4 r) (x : ℚ × ℚ) : Encloses (asPath (contour4 r)) x ↔ inRect r x := by
  have h1 : (r.1 : ℚ) < r.2.2.1 := by exact_mod_cast hr.1
  have h2 : (r.2.1 : ℚ) < r.2.2.2 := by exact_mod_cast hr.2
  unfold Encloses inRect
  rw [rect_sides]
  have up : ∀ a b : ℚ, a < b → (¬(x.2 < a ↔ x.2 < b) ↔ a ≤ x.2 ∧ x.2 < b) := fun a b hab => by
    constructor
    · intro h
      by_contra hc
      refine h ⟨fun k => k.trans hab, fun k => ?_⟩
      by_contra hk
      exact hc ⟨not_lt.1 hk, k⟩
    · rintro ⟨k1, k2⟩ h
      exact not_lt.2 k1 (h.2 k2)
  have e1 : RayCrosses x ((r.2.2.1 : ℚ), (r.2.1 : ℚ)) ((r.2.2.1 : ℚ), (r.2.2.2 : ℚ)) ↔ ((r.2.1 : ℚ) ≤ x.2 ∧ x.2 < r.2.2.2) ∧ x.1 < r.2.2.1 := by
    unfold RayCrosses
    simp only [sub_self, zero_mul, zero_div, add_zero]
    rw [up _ _ h2]
  have e2 : RayCrosses x ((r.1 : ℚ), (r.2.2.2 : ℚ)) ((r.1 : ℚ), (r.2.1 : ℚ)) ↔ ((r.2.1 : ℚ) ≤ x.2 ∧ x.2 < r.2.2.2) ∧ x.1 < r.1 := by
    unfold RayCrosses
    simp only [sub_self, zero_mul, zero_div, add_zero]
    rw [show (x.2 < (r.2.2.2 : ℚ) ↔ x.2 < (r.2.1 : ℚ)) ↔ (x.2 < (r.2.1 : ℚ) ↔ x.2 < (r.2.2.2 : ℚ)) from iff_comm, up _ _ h2]
  have e3 : ∀ a b c : ℚ, ¬ RayCrosses x (a, c) (b, c) := fun a b c h => h.1 Iff.rfl
  simp only [List.countP_cons, List.countP_nil, exactPt, e1, e2, e3, decide_false, Bool.false_eq_true, if_false, decide_eq_true_eq, add_zero, zero_add]
  by_cases c : (r.2.1 : ℚ) ≤ x.2 ∧ x.2 < r.2.2.2
  · by_cases d1 : x.1 < (r.1 : ℚ)
    · simp [c.1, c.2, d1, d1.trans h1, not_le.2 d1]
    · by_cases d2 : x.1 < (r.2.2.1 : ℚ)
      · simp [c.1, c.2, d1, d2, not_lt.1 d1]
      · simp [c.1, c.2, d1, d2]
  · simp only [c, false_and, if_false, and_false, iff_false, add_zero]
    exact Nat.not_odd_zero

theorem mem_evenOdd_rect {r : Int × Int × Int × Int} (hr : Proper4 r) (x : ℚ × ℚ) : x ∈ evenOdd enclosedBy [contour4 r] ↔ inRect r x := by
  rw [← rect_encloses hr]
  by_cases h : x ∈ enclosedBy (contour4 r)
  · have e : Encloses (asPath (contour4 r)) x := h
    simp [evenOdd, crossings, h, e]
  · have e : ¬ Encloses (asPath (contour4 r)) x := h
    simp [evenOdd, crossings, h, e]

theorem inRect_mono {r s : Int × Int × Int × Int} (h : Within4 r s) {x : ℚ × ℚ} (hx : inRect r x) : inRect s x := by
  obtain ⟨h1, h2, h3, h4⟩ := h
  have h1 : (s.1 : ℚ) ≤ r.1 := by exact_mod_cast h1
  have h2 : (s.2.1 : ℚ) ≤ r.2.1 := by exact_mod_cast h2
  have h3 : (r.2.2.1 : ℚ) ≤ s.2.2.1 := by exact_mod_cast h3
  have h4 : (r.2.2.2 : ℚ) ≤ s.2.2.2 := by exact_mod_cast h4
  obtain ⟨a, b, c, d⟩ := hx
  exact ⟨h1.trans a, b.trans_le h3, h2.trans c, d.trans_le h4⟩

theorem inRect_beside {r s : Int × Int × Int × Int} (h : Beside4 r s) {x : ℚ × ℚ} (hx : inRect r x) : ¬ inRect s x := by
  rintro ⟨h1, h2, -, -⟩
  obtain ⟨h3, h4, -, -⟩ := hx
  rcases h with h | h
  · have : (r.2.2.1 : ℚ) ≤ s.1 := by exact_mod_cast h
    linarith
  · have : (s.2.2.1 : ℚ) ≤ r.1 := by exact_mod_cast h
    linarith

/-- The results of the library: nothing, or a rectangle which was given. -/
theorem rect_tree {t : ClipType} {s c : List (List IntPoint)} {tree : List PolyNode} (h : rectExecute t s c = some tree) :
    (tree = [] ∧ ∀ x, x ∉ clipSets t (evenOdd enclosedBy s) (evenOdd enclosedBy c)) ∨
    ∃ r, Proper4 r ∧ tree = rectLeaf r ∧ contour4 r ∈ s ++ c ∧ ∀ x, x ∈ clipSets t (evenOdd enclosedBy s) (evenOdd enclosedBy c) ↔ inRect r x := by
  unfold rectExecute at h
  have hn := evenOdd_none
  split at h
  · rename_i h1 h2
    cases h
    obtain ⟨rfl, -⟩ := mapM_asRect h1
    obtain ⟨rfl, -⟩ := mapM_asRect h2
    refine .inl ⟨rfl, fun x => ?_⟩
    cases t <;> simp [clipSets, hn]
  · rename_i a h1 h2
    obtain ⟨rfl, p1⟩ := mapM_asRect h1
    obtain ⟨rfl, -⟩ := mapM_asRect h2
    have pa := p1 a (by simp)
    simp only [List.map_cons, List.map_nil]
    cases t <;> simp only [Option.some.injEq] at h <;> subst h
    · exact .inr ⟨a, pa, rfl, by simp, fun x => by simp [clipSets, hn, mem_evenOdd_rect pa]⟩
    · exact .inr ⟨a, pa, rfl, by simp, fun x => by simp [clipSets, hn, mem_evenOdd_rect pa]⟩
    · exact .inl ⟨rfl, fun x => by simp [clipSets, hn]⟩
  · rename_i b h1 h2
    obtain ⟨rfl, -⟩ := mapM_asRect h1
    obtain ⟨rfl, p1⟩ := mapM_asRect h2
    have pb := p1 b (by simp)
    simp only [List.map_cons, List.map_nil]
    cases t <;> simp only [Option.some.injEq] at h <;> subst h
    · exact .inr ⟨b, pb, rfl, by simp, fun x => by simp [clipSets, hn, mem_evenOdd_rect pb]⟩
    · exact .inl ⟨rfl, fun x => by simp [clipSets, hn]⟩
    · exact .inl ⟨rfl, fun x => by simp [clipSets, hn]⟩
  · rename_i a b h1 h2
    obtain ⟨rfl, p1⟩ := mapM_asRect h1
    obtain ⟨rfl, p2⟩ := mapM_asRect h2
    have pa := p1 a (by simp)
    have pb := p2 b (by simp)
    simp only [List.map_cons, List.map_nil]
    split at h
    · rename_i hab
      have sub := fun x => inRect_mono hab (x := x)
      cases t <;> simp only [Option.some.injEq] at h <;> subst h
      · exact .inr ⟨b, pb, rfl, by simp, fun x => by simp only [clipSets, mem_evenOdd_rect pa, mem_evenOdd_rect pb]; exact ⟨fun h => h.elim (sub x) id, .inr⟩⟩
      · exact .inl ⟨rfl, fun x => by simp only [clipSets, mem_evenOdd_rect pa, mem_evenOdd_rect pb]; exact fun h => h.2 (sub x h.1)⟩
      · exact .inr ⟨a, pa, rfl, by simp, fun x => by simp only [clipSets, mem_evenOdd_rect pa, mem_evenOdd_rect pb]; exact ⟨fun h => h.1, fun h => ⟨h, sub x h⟩⟩⟩
    · split at h
      · rename_i hba
        have sub := fun x => inRect_mono hba (x := x)
        cases t <;> simp only [Option.some.injEq, reduceCtorEq] at h <;> try subst h
        · exact .inr ⟨a, pa, rfl, by simp, fun x => by simp only [clipSets, mem_evenOdd_rect pa, mem_evenOdd_rect pb]; exact ⟨fun h => h.elim id (sub x), .inl⟩⟩
        · exact .inr ⟨b, pb, rfl, by simp, fun x => by simp only [clipSets, mem_evenOdd_rect pa, mem_evenOdd_rect pb]; exact ⟨fun h => h.2, fun h => ⟨sub x h, h⟩⟩⟩
      · split at h
        · rename_i hbe
          have no := fun x => inRect_beside hbe (x := x)
          cases t <;> simp only [Option.some.injEq, reduceCtorEq] at h <;> try subst h
          · exact .inr ⟨a, pa, rfl, by simp, fun x => by simp only [clipSets, mem_evenOdd_rect pa, mem_evenOdd_rect pb]; exact ⟨fun h => h.1, fun h => ⟨h, no x h⟩⟩⟩
          · exact .inl ⟨rfl, fun x => by simp only [clipSets, mem_evenOdd_rect pa, mem_evenOdd_rect pb]; exact fun h => no x h.1 h.2⟩
        · cases h
  · cases h

theorem rect_area {s : List (List IntPoint)} (h : LibArea rectLib s) : ∃ r, Proper4 r ∧ s = [contour4 r] := by
  obtain ⟨tree, ⟨t, u, c, h⟩ | ⟨u, d, rfl⟩, ha⟩ := h
  · rcases rect_tree h with ⟨rfl, -⟩ | ⟨r, hr, rfl, -⟩
    · exact (isArea_nil ha).elim
    · exact ⟨r, hr, isArea_leaf ha⟩
  · change IsArea (rectOffset u d) s at ha
    unfold rectOffset at ha
    split at ha
    · split at ha
      · rename_i hp
        exact ⟨_, hp, isArea_leaf ha⟩
      · exact (isArea_nil ha).elim
    · exact (isArea_nil ha).elim

theorem asRect_rect {r : Int × Int × Int × Int} (hr : Proper4 r) : asRect (contour4 r) = some r := by
  obtain ⟨a, b, c, d⟩ := r
  simp only [Proper4] at hr
  simp [asRect, contour4, hr]

theorem rect_offset {r : Int × Int × Int × Int} (hr : Proper4 r) (d : ℚ) : rectLib.offset [contour4 r] d = if Proper4 (growRect r ⌊d⌋) then rectLeaf (growRect r ⌊d⌋) else [] := by
  show rectOffset _ _ = _
  unfold rectOffset
  simp [asRect_rect hr]

theorem rectLeaf_count {r : Int × Int × Int × Int} (hr : Proper4 r) (x : ℚ × ℚ) [Decidable (inRect r x)] : areaCount (areas (rectLeaf r)) x = if inRect r x then 1 else 0 := by
  classical
  unfold rectLeaf
  rw [leaf_count]
  simp only [mem_evenOdd_rect hr]

/-- The distance from the sides of a rectangle. -/
theorem rect_far {r : Int × Int × Int × Int} (hr : Proper4 r) {D : ℚ} {x : ℚ × ℚ} (hf : FarFromPath D (asPath (contour4 r)) x) :
    (∀ v : ℚ, (r.2.1 : ℚ) ≤ v → v ≤ r.2.2.2 → D ^ 2 < (r.2.2.1 - x.1) ^ 2 + (v - x.2) ^ 2 ∧ D ^ 2 < (r.1 - x.1) ^ 2 + (v - x.2) ^ 2) ∧
    (∀ u : ℚ, (r.1 : ℚ) ≤ u → u ≤ r.2.2.1 → D ^ 2 < (u - x.1) ^ 2 + (r.2.2.2 - x.2) ^ 2 ∧ D ^ 2 < (u - x.1) ^ 2 + (r.2.1 - x.2) ^ 2) := by
  have hl1 : (r.1 : ℚ) < r.2.2.1 := by exact_mod_cast hr.1
  have hl2 : (r.2.1 : ℚ) < r.2.2.2 := by exact_mod_cast hr.2
  unfold FarFromPath at hf
  rw [rect_sides] at hf
  have n1 : (r.2.2.2 : ℚ) - r.2.1 ≠ 0 := by linarith
  have n2 : (r.2.2.1 : ℚ) - r.1 ≠ 0 := by linarith
  constructor
  · intro v h3 h4
    have f1 := hf (⟨r.2.2.1, r.2.1⟩, ⟨r.2.2.1, r.2.2.2⟩) (by simp) ((v - r.2.1) / (r.2.2.2 - r.2.1)) (div_nonneg (by linarith) (by linarith)) ((div_le_one (by linarith)).2 (by linarith))
    have f3 := hf (⟨r.1, r.2.2.2⟩, ⟨r.1, r.2.1⟩) (by simp) ((r.2.2.2 - v) / (r.2.2.2 - r.2.1)) (div_nonneg (by linarith) (by linarith)) ((div_le_one (by linarith)).2 (by linarith))
    simp only [exactPt] at f1 f3
    rw [div_mul_cancel₀ _ n1, show (r.2.2.1 : ℚ) + (v - r.2.1) / (r.2.2.2 - r.2.1) * (r.2.2.1 - r.2.2.1) - x.1 = r.2.2.1 - x.1 by ring, show (r.2.1 : ℚ) + (v - r.2.1) - x.2 = v - x.2 by ring] at f1
    rw [show (r.2.2.2 : ℚ) + (r.2.2.2 - v) / (r.2.2.2 - r.2.1) * (r.2.1 - r.2.2.2) - x.2 = v - x.2 by field_simp; ring, show (r.1 : ℚ) + (r.2.2.2 - v) / (r.2.2.2 - r.2.1) * (r.1 - r.1) - x.1 = r.1 - x.1 by ring] at f3
    exact ⟨f1, f3⟩
  · intro u h1 h2
    have f2 := hf (⟨r.2.2.1, r.2.2.2⟩, ⟨r.1, r.2.2.2⟩) (by simp) ((r.2.2.1 - u) / (r.2.2.1 - r.1)) (div_nonneg (by linarith) (by linarith)) ((div_le_one (by linarith)).2 (by linarith))
    have f4 := hf (⟨r.1, r.2.1⟩, ⟨r.2.2.1, r.2.1⟩) (by simp) ((u - r.1) / (r.2.2.1 - r.1)) (div_nonneg (by linarith) (by linarith)) ((div_le_one (by linarith)).2 (by linarith))
    simp only [exactPt] at f2 f4
    rw [show (r.2.2.1 : ℚ) + (r.2.2.1 - u) / (r.2.2.1 - r.1) * (r.1 - r.2.2.1) - x.1 = u - x.1 by field_simp; ring, show (r.2.2.2 : ℚ) + (r.2.2.1 - u) / (r.2.2.1 - r.1) * (r.2.2.2 - r.2.2.2) - x.2 = r.2.2.2 - x.2 by ring] at f2
    rw [div_mul_cancel₀ _ n2, show (r.2.1 : ℚ) + (u - r.1) / (r.2.2.1 - r.1) * (r.2.1 - r.2.1) - x.2 = r.2.1 - x.2 by ring, show (r.1 : ℚ) + (u - r.1) - x.1 = u - x.1 by ring] at f4
    exact ⟨f2, f4⟩

/-- Inside of a rectangle, the sides are far away in all directions. -/
theorem rect_deep {r : Int × Int × Int × Int} (hr : Proper4 r) {D : ℚ} {x : ℚ × ℚ} (hf : FarFromPath D (asPath (contour4 r)) x) (hx : inRect r x) :
    (r.1 : ℚ) + D < x.1 ∧ x.1 + D < r.2.2.1 ∧ (r.2.1 : ℚ) + D < x.2 ∧ x.2 + D < r.2.2.2 := by
  obtain ⟨h1, h2, h3, h4⟩ := hx
  obtain ⟨f1, f2⟩ := rect_far hr hf
  obtain ⟨f1, f3⟩ := f1 x.2 h3 h4.le
  obtain ⟨f2, f4⟩ := f2 x.1 h1 h2.le
  rw [sub_self] at f1 f2 f3 f4
  refine ⟨?_, ?_, ?_, ?_⟩
  · have := abs_lt_of_sq_lt_sq (show D ^ 2 < (x.1 - r.1) ^ 2 by linarith) (by linarith)
    linarith [le_abs_self D]
  · have := abs_lt_of_sq_lt_sq (show D ^ 2 < (r.2.2.1 - x.1) ^ 2 by linarith) (by linarith)
    linarith [le_abs_self D]
  · have := abs_lt_of_sq_lt_sq (show D ^ 2 < (x.2 - r.2.1) ^ 2 by linarith) (by linarith)
    linarith [le_abs_self D]
  · have := abs_lt_of_sq_lt_sq (show D ^ 2 < (r.2.2.2 - x.2) ^ 2 by linarith) (by linarith)
    linarith [le_abs_self D]

/-- Outside of a rectangle, a bigger rectangle does not reach the point. -/
theorem rect_beyond {r : Int × Int × Int × Int} (hr : Proper4 r) {e : Int} (he : 0 ≤ e) {D : ℚ} (hD : 3 / 2 * (e : ℚ) ≤ D) {x : ℚ × ℚ} (hf : FarFromPath D (asPath (contour4 r)) x)
    (hx : ¬ inRect r x) : ¬ inRect (growRect r e) x := by
  rintro ⟨h1, h2, h3, h4⟩
  obtain ⟨f1, f2⟩ := rect_far hr hf
  have hl1 : (r.1 : ℚ) < r.2.2.1 := by exact_mod_cast hr.1
  have hl2 : (r.2.1 : ℚ) < r.2.2.2 := by exact_mod_cast hr.2
  have he' : (0 : ℚ) ≤ e := by exact_mod_cast he
  simp only [growRect, Int.cast_sub, Int.cast_add] at h1 h2 h3 h4
  have hDs : (3 / 2 * (e : ℚ)) ^ 2 ≤ D ^ 2 := by nlinarith
  have sq : ∀ a : ℚ, -e ≤ a → a ≤ e → a ^ 2 ≤ (e : ℚ) ^ 2 := fun a l u => by nlinarith
  -- the nearest height
  obtain ⟨v, v1, v2, v3, v4⟩ : ∃ v : ℚ, (r.2.1 : ℚ) ≤ v ∧ v ≤ r.2.2.2 ∧ -e ≤ v - x.2 ∧ v - x.2 ≤ e := by
    rcases lt_or_ge x.2 (r.2.1 : ℚ) with k | k
    · exact ⟨r.2.1, le_rfl, hl2.le, by linarith, by linarith⟩
    · rcases lt_or_ge x.2 (r.2.2.2 : ℚ) with k' | k'
      · exact ⟨x.2, k, k'.le, by linarith, by linarith⟩
      · exact ⟨r.2.2.2, hl2.le, le_rfl, by linarith, by linarith⟩
  obtain ⟨g1, g2⟩ := f1 v v1 v2
  rcases lt_or_ge x.1 (r.1 : ℚ) with k | k
  · have s1 := sq _ v3 v4
    have s2 := sq (r.1 - x.1) (by linarith) (by linarith)
    nlinarith
  rcases lt_or_ge x.1 (r.2.2.1 : ℚ) with k' | k'
  swap
  · have s1 := sq _ v3 v4
    have s2 := sq (r.2.2.1 - x.1) (by linarith) (by linarith)
    nlinarith
  obtain ⟨g3, g4⟩ := f2 x.1 k k'.le
  rw [sub_self] at g3 g4
  rcases lt_or_ge x.2 (r.2.1 : ℚ) with m | m
  · have s2 := sq (r.2.1 - x.2) (by linarith) (by linarith)
    nlinarith
  rcases lt_or_ge x.2 (r.2.2.2 : ℚ) with m' | m'
  · exact hx ⟨k, k', m, m'⟩
  · have s2 := sq (r.2.2.2 - x.2) (by linarith) (by linarith)
    nlinarith

/-- If both coordinates are moved by at most `E`, the distance shrinks by at most `3/2·E`. -/
theorem moved_far {D E a b a' b' : ℚ} (hD : 0 ≤ D) (hE : 0 ≤ E) (h : (D + 3 / 2 * E) ^ 2 < a ^ 2 + b ^ 2) (h1 : |a' - a| ≤ E) (h2 : |b' - b| ≤ E) : D ^ 2 < a' ^ 2 + b' ^ 2 := by
  by_contra hc
  push Not at hc
  obtain ⟨u1, u2⟩ := abs_le.1 h1
  obtain ⟨w1, w2⟩ := abs_le.1 h2
  set u := a' - a
  set w := b' - b
  have ea : a = a' - u := by simp [u]
  have eb : b = b' - w := by simp [w]
  have su : u ^ 2 ≤ E ^ 2 := by nlinarith
  have sw : w ^ 2 ≤ E ^ 2 := by nlinarith
  have cs : (a' * u + b' * w) ^ 2 ≤ (a' ^ 2 + b' ^ 2) * (u ^ 2 + w ^ 2) := by nlinarith [sq_nonneg (a' * w - b' * u)]
  have cs2 : (a' ^ 2 + b' ^ 2) * (u ^ 2 + w ^ 2) ≤ D ^ 2 * (2 * E ^ 2) := mul_le_mul hc (by linarith) (by positivity) (by positivity)
  have cs3 : (a' * u + b' * w) ^ 2 ≤ (3 / 2 * D * E) ^ 2 := by nlinarith [sq_nonneg (D * E)]
  have := abs_le_of_sq_le_sq cs3 (by positivity)
  have := (abs_le.1 this).1
  rw [ea, eb] at h
  nlinarith

theorem rect_moved {r : Int × Int × Int × Int} {e : Int} {D : ℚ} (hD : 0 ≤ D) {x : ℚ × ℚ} (hf : FarFromPath (D + 3 / 2 * |(e : ℚ)|) (asPath (contour4 r)) x) :
    FarFromPath D (asPath (contour4 (growRect r e))) x := by
  unfold FarFromPath at hf ⊢
  rw [rect_sides] at hf ⊢
  have shift : ∀ (a b e1 e2 t : ℚ), 0 ≤ t → t ≤ 1 → |e1| ≤ |(e : ℚ)| → |e2| ≤ |(e : ℚ)| → ∀ c : ℚ, |(a + e1 + t * (b + e2 - (a + e1)) - c) - (a + t * (b - a) - c)| ≤ |(e : ℚ)| := by
    intro a b e1 e2 t h0 h1 k1 k2 c
    rw [show (a + e1 + t * (b + e2 - (a + e1)) - c) - (a + t * (b - a) - c) = (1 - t) * e1 + t * e2 by ring]
    refine (abs_add_le _ _).trans ?_
    rw [abs_mul, abs_mul, abs_of_nonneg h0, abs_of_nonneg (show 0 ≤ 1 - t by linarith)]
    nlinarith
  have ep : |(e : ℚ)| ≤ |(e : ℚ)| := le_rfl
  have en : |-(e : ℚ)| ≤ |(e : ℚ)| := (abs_neg _).le
  simp only [List.mem_cons, List.not_mem_nil, or_false, forall_eq_or_imp, forall_eq, growRect, exactPt, Int.cast_sub, Int.cast_add, FarFrom, sub_eq_add_neg (_ : ℚ) (e : ℚ)] at hf ⊢
  obtain ⟨f1, f2, f3, f4⟩ := hf
  refine ⟨fun t h0 h1 => ?_, fun t h0 h1 => ?_, fun t h0 h1 => ?_, fun t h0 h1 => ?_⟩
  · exact moved_far hD (abs_nonneg _) (f1 t h0 h1) (shift _ _ _ _ t h0 h1 ep ep _) (shift _ _ _ _ t h0 h1 en ep _)
  · exact moved_far hD (abs_nonneg _) (f2 t h0 h1) (shift _ _ _ _ t h0 h1 ep en _) (shift _ _ _ _ t h0 h1 ep ep _)
  · exact moved_far hD (abs_nonneg _) (f3 t h0 h1) (shift _ _ _ _ t h0 h1 en en _) (shift _ _ _ _ t h0 h1 ep en _)
  · exact moved_far hD (abs_nonneg _) (f4 t h0 h1) (shift _ _ _ _ t h0 h1 en ep _) (shift _ _ _ _ t h0 h1 en en _)

open Classical in
theorem rect_keeps : KeepsSides rectLib 2 where
  execute := by
    intro t s c tree h D x hD hf
    rcases rect_tree h with ⟨rfl, hx⟩ | ⟨r, hr, rfl, hm, hx⟩
    · refine ⟨fun k hk => by simp [treesContours] at hk, ?_⟩
      rw [if_neg (hx x)]
      simp [areas, areaCount]
    · refine ⟨fun k hk => ?_, ?_⟩
      · unfold rectLeaf at hk
        rw [contours_leaf, List.mem_singleton] at hk
        subst hk
        exact farFromPath_le (hf _ hm) hD (by linarith)
      · rw [rectLeaf_count hr]
        simp only [hx]
  offset := by
    intro s d hs D x hD hf
    obtain ⟨r, hr, rfl⟩ := rect_area hs
    have hf := hf _ (List.mem_singleton_self _)
    have he : |((⌊d⌋ : Int) : ℚ)| ≤ |d| + 1 := by
      have h1 := Int.floor_le d
      have h2 := Int.lt_floor_add_one d
      rw [abs_le]
      constructor
      · linarith [neg_abs_le d]
      · linarith [le_abs_self d]
    have hE : (0 : ℚ) ≤ |((⌊d⌋ : Int) : ℚ)| := abs_nonneg _
    have hf' : FarFromPath (D + 3 / 2 * |((⌊d⌋ : Int) : ℚ)|) (asPath (contour4 r)) x := farFromPath_le hf (by positivity) (by linarith)
    have hin : inRect r x ↔ inRect (growRect r ⌊d⌋) x := by
      constructor
      · intro h
        obtain ⟨k1, k2, k3, k4⟩ := rect_deep hr hf' h
        have := neg_abs_le ((⌊d⌋ : Int) : ℚ)
        refine ⟨?_, ?_, ?_, ?_⟩ <;> simp only [growRect, Int.cast_sub, Int.cast_add] <;> linarith
      · intro h
        rcases le_total 0 ⌊d⌋ with h0 | h0
        · by_contra hc
          refine rect_beyond hr h0 ?_ hf' hc h
          have := le_abs_self ((⌊d⌋ : Int) : ℚ)
          linarith
        · exact inRect_mono ⟨by simp only [growRect]; omega, by simp only [growRect]; omega, by simp only [growRect]; omega, by simp only [growRect]; omega⟩ h
    rw [rect_offset hr]
    split
    · rename_i hp
      refine ⟨fun k hk => ?_, ?_⟩
      · unfold rectLeaf at hk
        rw [contours_leaf, List.mem_singleton] at hk
        subst hk
        exact rect_moved hD hf'
      · rw [rectLeaf_count hp]
        simp only [mem_evenOdd_rect hr, hin]
    · rename_i hp
      refine ⟨fun k hk => by simp [treesContours] at hk, ?_⟩
      rw [if_neg]
      · simp [areas, areaCount]
      · rw [mem_evenOdd_rect hr, hin]
        rintro ⟨k1, k2, k3, k4⟩
        refine hp ⟨?_, ?_⟩
        · exact_mod_cast k1.trans_lt k2
        · exact_mod_cast k3.trans_lt k4

theorem on_between {a b c d t : ℚ} (h0 : 0 ≤ t) (h1 : t ≤ 1) (ha : c ≤ a) (ha' : a ≤ d) (hb : c ≤ b) (hb' : b ≤ d) : c ≤ a + t * (b - a) ∧ a + t * (b - a) ≤ d :=
  ⟨by nlinarith, by nlinarith⟩

theorem rect_insets : InsetsKeep enclosedBy rectLib 2 := by
  intro paths d hs hd c hc z hz q hq
  obtain ⟨r, hr, rfl⟩ := rect_area hs
  rw [mem_evenOdd_rect hr] at hq
  rw [rect_offset hr] at hc
  split at hc
  swap
  · simp [treesContours] at hc
  rename_i hp
  unfold rectLeaf at hc
  rw [contours_leaf, List.mem_singleton] at hc
  subst hc
  have hfl := Int.floor_le (-d)
  set e := ⌊-d⌋
  have p1 : ((growRect r e).1 : ℚ) < (growRect r e).2.2.1 := by exact_mod_cast hp.1
  have p2 : ((growRect r e).2.1 : ℚ) < (growRect r e).2.2.2 := by exact_mod_cast hp.2
  -- the point is in the smaller rectangle
  obtain ⟨z1, z2, z3, z4⟩ : ((growRect r e).1 : ℚ) ≤ z.1 ∧ z.1 ≤ (growRect r e).2.2.1 ∧ ((growRect r e).2.1 : ℚ) ≤ z.2 ∧ z.2 ≤ (growRect r e).2.2.2 := by
    obtain ⟨a, b, hab, t, h0, h1, rfl⟩ := hz
    rw [pathLines_sides] at hab
    have hab : (a, b) ∈ sidesOf (asPath (contour4 (growRect r e))) := hab
    rw [rect_sides] at hab
    simp only [List.mem_cons, List.not_mem_nil, or_false, Prod.mk.injEq] at hab
    rcases hab with ⟨rfl, rfl⟩ | ⟨rfl, rfl⟩ | ⟨rfl, rfl⟩ | ⟨rfl, rfl⟩ <;> simp only [lineAt, exactPt]
    · obtain ⟨i1, i2⟩ := on_between h0 h1 p1.le le_rfl p1.le le_rfl
      obtain ⟨i3, i4⟩ := on_between h0 h1 le_rfl p2.le p2.le le_rfl
      exact ⟨i1, i2, i3, i4⟩
    · obtain ⟨i1, i2⟩ := on_between h0 h1 p1.le le_rfl le_rfl p1.le
      obtain ⟨i3, i4⟩ := on_between h0 h1 p2.le le_rfl p2.le le_rfl
      exact ⟨i1, i2, i3, i4⟩
    · obtain ⟨i1, i2⟩ := on_between h0 h1 le_rfl p1.le le_rfl p1.le
      obtain ⟨i3, i4⟩ := on_between h0 h1 p2.le le_rfl le_rfl p2.le
      exact ⟨i1, i2, i3, i4⟩
    · obtain ⟨i1, i2⟩ := on_between h0 h1 le_rfl p1.le p1.le le_rfl
      obtain ⟨i3, i4⟩ := on_between h0 h1 le_rfl p2.le le_rfl p2.le
      exact ⟨i1, i2, i3, i4⟩
  simp only [growRect, Int.cast_sub, Int.cast_add] at z1 z2 z3 z4
  by_cases hd2 : d - 2 ≤ 0
  · exact .inl hd2
  have big : ∀ a : ℚ, d ≤ a → (d - 2) ^ 2 ≤ a ^ 2 := fun a ha => by nlinarith
  refine .inr ?_
  by_cases k1 : (r.1 : ℚ) ≤ q.1
  swap
  · nlinarith [big (z.1 - q.1) (by linarith), sq_nonneg (z.2 - q.2)]
  by_cases k2 : q.1 < (r.2.2.1 : ℚ)
  swap
  · nlinarith [big (q.1 - z.1) (by linarith), sq_nonneg (z.2 - q.2)]
  by_cases k3 : (r.2.1 : ℚ) ≤ q.2
  swap
  · nlinarith [big (z.2 - q.2) (by linarith), sq_nonneg (z.1 - q.1)]
  by_cases k4 : q.2 < (r.2.2.2 : ℚ)
  swap
  · nlinarith [big (q.2 - z.2) (by linarith), sq_nonneg (z.1 - q.1)]
  exact absurd ⟨k1, k2, k3, k4⟩ hq

/-- What the areas of the results are made from. -/
theorem rect_made {t : ClipType} {s c : List (List IntPoint)} {tree : List PolyNode} (h : rectExecute t s c = some tree) {a : List (List IntPoint)} (ha : IsArea tree a) :
    ∃ r, Proper4 r ∧ a = [contour4 r] ∧ (t = .intersection → ∃ b, Proper4 b ∧ c = [contour4 b] ∧ Within4 r b) ∧ (t = .difference → s = [contour4 r]) ∧
      (s = [contour4 r] ∨ c = [contour4 r]) := by
  have refl : ∀ r, Within4 r r := fun r => ⟨le_rfl, le_rfl, le_rfl, le_rfl⟩
  unfold rectExecute at h
  split at h
  · cases h; exact (isArea_nil ha).elim
  · rename_i r h1 h2
    obtain ⟨rfl, p1⟩ := mapM_asRect h1
    cases t <;> simp only [Option.some.injEq] at h <;> subst h
    · exact ⟨r, p1 r (by simp), isArea_leaf ha, nofun, nofun, .inl rfl⟩
    · exact ⟨r, p1 r (by simp), isArea_leaf ha, nofun, fun _ => rfl, .inl rfl⟩
    · exact (isArea_nil ha).elim
  · rename_i r h1 h2
    obtain ⟨rfl, p1⟩ := mapM_asRect h2
    cases t <;> simp only [Option.some.injEq] at h <;> subst h
    · exact ⟨r, p1 r (by simp), isArea_leaf ha, nofun, nofun, .inr rfl⟩
    · exact (isArea_nil ha).elim
    · exact (isArea_nil ha).elim
  · rename_i r q h1 h2
    obtain ⟨rfl, p1⟩ := mapM_asRect h1
    obtain ⟨rfl, p2⟩ := mapM_asRect h2
    have pr := p1 r (by simp)
    have pq := p2 q (by simp)
    split at h
    · rename_i hw
      cases t <;> simp only [Option.some.injEq] at h <;> subst h
      · exact ⟨q, pq, isArea_leaf ha, nofun, nofun, .inr rfl⟩
      · exact (isArea_nil ha).elim
      · exact ⟨r, pr, isArea_leaf ha, fun _ => ⟨q, pq, rfl, hw⟩, nofun, .inl rfl⟩
    · split at h
      · cases t <;> simp only [Option.some.injEq, reduceCtorEq] at h <;> subst h
        · exact ⟨r, pr, isArea_leaf ha, nofun, nofun, .inl rfl⟩
        · exact ⟨q, pq, isArea_leaf ha, fun _ => ⟨q, pq, rfl, refl q⟩, nofun, .inr rfl⟩
      · split at h
        · cases t <;> simp only [Option.some.injEq, reduceCtorEq] at h <;> subst h
          · exact ⟨r, pr, isArea_leaf ha, nofun, fun _ => rfl, .inl rfl⟩
          · exact (isArea_nil ha).elim
        · cases h
  · cases h

/-- The closed area of a rectangle within another one is near to it. -/
theorem rect_near {r s : Int × Int × Int × Int} (hr : Proper4 r) (hs : Proper4 s) (h : Within4 r s) {x : ℚ × ℚ} (hx : Touches enclosedBy [contour4 r] x) :
    NearArea enclosedBy 2 [contour4 s] x := by
  have p1 : (r.1 : ℚ) < r.2.2.1 := by exact_mod_cast hr.1
  have p2 : (r.2.1 : ℚ) < r.2.2.2 := by exact_mod_cast hr.2
  obtain ⟨z1, z2, z3, z4⟩ : (r.1 : ℚ) ≤ x.1 ∧ x.1 ≤ r.2.2.1 ∧ (r.2.1 : ℚ) ≤ x.2 ∧ x.2 ≤ r.2.2.2 := by
    rcases hx with hx | ⟨c, hc, hx⟩
    · obtain ⟨h1, h2, h3, h4⟩ := (mem_evenOdd_rect hr x).1 hx
      exact ⟨h1, h2.le, h3, h4.le⟩
    rw [List.mem_singleton] at hc
    subst hc
    obtain ⟨a, b, hab, t, h0, h1, rfl⟩ := hx
    rw [pathLines_sides] at hab
    have hab : (a, b) ∈ sidesOf (asPath (contour4 r)) := hab
    rw [rect_sides] at hab
    simp only [List.mem_cons, List.not_mem_nil, or_false, Prod.mk.injEq] at hab
    rcases hab with ⟨rfl, rfl⟩ | ⟨rfl, rfl⟩ | ⟨rfl, rfl⟩ | ⟨rfl, rfl⟩ <;> simp only [lineAt, exactPt]
    · obtain ⟨i1, i2⟩ := on_between h0 h1 p1.le le_rfl p1.le le_rfl
      obtain ⟨i3, i4⟩ := on_between h0 h1 le_rfl p2.le p2.le le_rfl
      exact ⟨i1, i2, i3, i4⟩
    · obtain ⟨i1, i2⟩ := on_between h0 h1 p1.le le_rfl le_rfl p1.le
      obtain ⟨i3, i4⟩ := on_between h0 h1 p2.le le_rfl p2.le le_rfl
      exact ⟨i1, i2, i3, i4⟩
    · obtain ⟨i1, i2⟩ := on_between h0 h1 le_rfl p1.le le_rfl p1.le
      obtain ⟨i3, i4⟩ := on_between h0 h1 p2.le le_rfl le_rfl p2.le
      exact ⟨i1, i2, i3, i4⟩
    · obtain ⟨i1, i2⟩ := on_between h0 h1 le_rfl p1.le p1.le le_rfl
      obtain ⟨i3, i4⟩ := on_between h0 h1 le_rfl p2.le le_rfl p2.le
      exact ⟨i1, i2, i3, i4⟩
  obtain ⟨w1, w2, w3, w4⟩ := h
  have w1 : (s.1 : ℚ) ≤ r.1 := by exact_mod_cast w1
  have w2 : (s.2.1 : ℚ) ≤ r.2.1 := by exact_mod_cast w2
  have w3 : (r.2.2.1 : ℚ) ≤ s.2.2.1 := by exact_mod_cast w3
  have w4 : (r.2.2.2 : ℚ) ≤ s.2.2.2 := by exact_mod_cast w4
  have o1 : (s.1 : ℚ) + 1 ≤ s.2.2.1 := by exact_mod_cast hs.1
  have o2 : (s.2.1 : ℚ) + 1 ≤ s.2.2.2 := by exact_mod_cast hs.2
  have one : ∀ a lo hi : ℚ, lo ≤ a → a ≤ hi → lo + 1 ≤ hi → ∃ b, lo ≤ b ∧ b < hi ∧ (a - b) ^ 2 ≤ 1 := by
    intro a lo hi h1 h2 h3
    by_cases hlt : a < hi
    · exact ⟨a, h1, hlt, by norm_num⟩
    · exact ⟨hi - 1, by linarith, by linarith, by
        rw [show a = hi by linarith]
        norm_num⟩
  obtain ⟨u, u1, u2, u3⟩ := one x.1 s.1 s.2.2.1 (by linarith) (by linarith) o1
  obtain ⟨v, v1, v2, v3⟩ := one x.2 s.2.1 s.2.2.2 (by linarith) (by linarith) o2
  exact ⟨(u, v), .inl ((mem_evenOdd_rect hs _).2 ⟨u1, u2, v1, v2⟩), by norm_num, by linarith⟩

theorem rect_nothing : NothingOutside enclosedBy rectLib 2 where
  intersection := by
    intro s c tree h a ha x hx
    obtain ⟨r, hr, rfl, h1, -, -⟩ := rect_made (show rectExecute .intersection s c = some tree from h) ha
    obtain ⟨b, hb, rfl, hw⟩ := h1 rfl
    exact rect_near hr hb hw hx
  difference := by
    intro s c tree h a ha x hx
    obtain ⟨r, hr, rfl, -, h1, -⟩ := rect_made (show rectExecute .difference s c = some tree from h) ha
    rw [h1 rfl]
    exact rect_near hr hr ⟨le_rfl, le_rfl, le_rfl, le_rfl⟩ hx
  union := by
    intro s c tree h a ha x hx
    obtain ⟨r, hr, rfl, -, -, h1⟩ := rect_made (show rectExecute .union s c = some tree from h) ha
    have := rect_near hr hr ⟨le_rfl, le_rfl, le_rfl, le_rfl⟩ hx
    rcases h1 with rfl | rfl
    · exact .inl this
    · exact .inr this
  inset := by
    intro s d hs hd a ha x hx
    obtain ⟨r, hr, rfl⟩ := rect_area hs
    rw [rect_offset hr] at ha
    split at ha
    · rename_i hp
      cases isArea_leaf ha
      have he : ⌊d⌋ ≤ 0 := Int.floor_le_iff.2 (by push_cast; linarith)
      exact rect_near hp hr ⟨by simp only [growRect]; omega, by simp only [growRect]; omega, by simp only [growRect]; omega, by simp only [growRect]; omega⟩ hx
    · exact (isArea_nil ha).elim
  cut := fun lines c tree h n hn x hx => by
    obtain ⟨y, hy, hxy⟩ := piece_nothing.cut lines c tree h n hn x hx
    exact ⟨y, hy, hxy.mono (by norm_num)⟩
  left := fun a b c hab h x hx => by
    obtain ⟨y, hy, hxy⟩ := piece_nothing.left a b c hab h x hx
    exact ⟨y, hy, hxy.mono (by norm_num)⟩
  vertical := piece_nothing.vertical

end Verif
