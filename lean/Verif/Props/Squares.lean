import Verif.Props.SidesWhole
import Verif.Props.RectLib
import Mathlib.GroupTheory.Perm.Cycle.Concrete

/-! # Areas made of unit squares

A set of unit squares has contours: they consist of the sides between squares which belong to the set and squares which do not, and a point is enclosed by an odd number
of them exactly if its square belongs to the set. This is used for a clipper library which is never wrong by more than two micrometres (`Props/SquareLib`). -/
namespace Verif
open Verif.Go Verif.Model Verif.Spec

/-! ## Points which move -/

theorem evenOdd_move {cs : List (List IntPoint)} {d : ℚ} {q q' : ℚ × ℚ} (hq : NearPt d q q') (hf : ∀ c ∈ cs, FarFromPath d (asPath c) q) :
    q' ∈ evenOdd enclosedBy cs ↔ q ∈ evenOdd enclosedBy cs := by
  have : crossings enclosedBy cs q' = crossings enclosedBy cs q := by
    unfold crossings
    refine List.countP_congr fun c hc => ?_
    simp only [decide_eq_true_eq]
    exact encloses_moved hq (hf c hc)
  change Odd _ ↔ Odd _
  rw [this]

/-- Between a point inside and a point outside there is a contour. -/
theorem contour_close {cs : List (List IntPoint)} {d : ℚ} {q q' : ℚ × ℚ} (hq : NearPt d q q') (h : ¬ (q' ∈ evenOdd enclosedBy cs ↔ q ∈ evenOdd enclosedBy cs)) :
    ∃ c ∈ cs, ∃ s ∈ sidesOf (asPath c), ∃ t, 0 ≤ t ∧ t ≤ 1 ∧ NearPt d (lineAt (exactPt s.1) (exactPt s.2) t) q := by
  by_contra hno
  refine h (evenOdd_move hq fun c hc s hs t h0 h1 => ?_)
  by_contra hle
  exact hno ⟨c, hc, s, hs, t, h0, h1, hq.1, not_lt.1 hle⟩

theorem far_point {D e : ℚ} {p : Path} {x y : ℚ × ℚ} (hf : FarFromPath (D + e) p x) (hD : 0 ≤ D) {s : Pt × Pt} (hs : s ∈ sidesOf p) {t : ℚ} (h0 : 0 ≤ t) (h1 : t ≤ 1)
    (hn : NearPt e (lineAt (exactPt s.1) (exactPt s.2) t) y) : D ^ 2 < (y.1 - x.1) ^ 2 + (y.2 - x.2) ^ 2 := by
  by_contra hle
  have h2 : NearPt D y x := ⟨hD, not_lt.1 hle⟩
  have := (hn.trans h2).2
  have h3 := hf s hs t h0 h1
  unfold lineAt at this
  simp only at this
  rw [add_comm D e] at h3
  linarith

/-! ## Unit squares -/

/-- The directions of the sides of a square, counterclockwise. -/
inductive Dir where
  | east
  | north
  | west
  | south
deriving DecidableEq

instance : Fintype Dir := ⟨{.east, .north, .west, .south}, fun d => by cases d <;> decide⟩

/-- The square with the lower left corner. -/
abbrev Cell := Int × Int

namespace Dir

/-- One step in a direction. -/
def vec : Dir → Cell
  | east => (1, 0)
  | north => (0, 1)
  | west => (-1, 0)
  | south => (0, -1)

/-- Turn to the left. -/
def left : Dir → Dir
  | east => north
  | north => west
  | west => south
  | south => east

/-- Turn to the right. -/
def right : Dir → Dir
  | east => south
  | north => east
  | west => north
  | south => west

theorem left_right (d : Dir) : d.right.left = d := by cases d <;> rfl
theorem right_left (d : Dir) : d.left.right = d := by cases d <;> rfl
theorem vec_right_right (d : Dir) : d.right.right.vec = -d.vec := by cases d <;> rfl
theorem vec_left (d : Dir) : d.left.vec = -d.right.vec := by cases d <;> rfl
theorem right_inj {d e : Dir} (h : d.right = e.right) : d = e := by rw [← left_right d, h, left_right]
theorem left_inj {d e : Dir} (h : d.left = e.left) : d = e := by rw [← right_left d, h, right_left]

end Dir

/-- A side of a square, with the direction in which the square is on the left. -/
abbrev CellSide := Cell × Dir

namespace CellSide

/-- The square on the other side. -/
def across (e : CellSide) : Cell := e.1 + e.2.right.vec

/-- The start of the side. -/
def tail (e : CellSide) : Cell :=
  match e.2 with
  | .east => e.1
  | .north => e.1 + (1, 0)
  | .west => e.1 + (1, 1)
  | .south => e.1 + (0, 1)

/-- The end of the side. -/
def head (e : CellSide) : Cell := tail e + e.2.vec

/-- The side belongs to the border of a set of squares. -/
def Border (S : Set Cell) (e : CellSide) : Prop := e.1 ∈ S ∧ across e ∉ S

open Classical in
/-- The next side of the border. -/
noncomputable def next (S : Set Cell) (e : CellSide) : CellSide :=
  if e.1 + e.2.vec ∉ S then (e.1, e.2.left)
  else if across e + e.2.vec ∉ S then (e.1 + e.2.vec, e.2)
  else (across e + e.2.vec, e.2.right)

theorem next_border {S : Set Cell} {e : CellSide} (h : Border S e) : Border S (next S e) := by
  obtain ⟨h1, h2⟩ := h
  unfold next
  split
  · rename_i h3
    exact ⟨h1, by simpa [across, Dir.right_left] using h3⟩
  · rename_i h3
    split
    · rename_i h4
      refine ⟨not_not.1 h3, ?_⟩
      unfold across at h4 ⊢
      simpa [add_assoc, add_comm, add_left_comm] using h4
    · rename_i h4
      refine ⟨not_not.1 h4, ?_⟩
      unfold across at h2 ⊢
      simpa [Dir.vec_right_right] using h2

theorem tail_next {S : Set Cell} (e : CellSide) : tail (next S e) = head e := by
  obtain ⟨⟨x, y⟩, d⟩ := e
  unfold next
  split
  · cases d <;> simp [tail, head, Dir.left, Dir.vec]
  · split
    · cases d <;> simp [tail, head, Dir.vec, add_comm, add_left_comm]
    · cases d <;> simp [tail, head, across, Dir.right, Dir.vec, add_comm, add_left_comm]

/-- The side before, seen from the next one. -/
theorem next_cases {S : Set Cell} {e : CellSide} (h : Border S e) : let g := next S e
    (g.1 - g.2.vec ∉ S ∧ e = (g.1, g.2.right)) ∨
    (g.1 - g.2.vec ∈ S ∧ g.1 - g.2.vec + g.2.right.vec ∉ S ∧ e = (g.1 - g.2.vec, g.2)) ∨
    (g.1 - g.2.vec ∈ S ∧ g.1 - g.2.vec + g.2.right.vec ∈ S ∧ e = (g.1 - g.2.vec + g.2.right.vec, g.2.left)) := by
  obtain ⟨c, d⟩ := e
  obtain ⟨h1, h2⟩ := h
  unfold next
  unfold across at h2
  simp only at h1 h2 ⊢
  split
  · left
    refine ⟨?_, by rw [Dir.right_left]⟩
    rw [Dir.vec_left, sub_neg_eq_add]
    exact h2
  · rename_i h3
    unfold across
    simp only
    split
    · right; left
      simp only [add_sub_cancel_right]
      exact ⟨h1, h2, trivial⟩
    · right; right
      have e1 : c + d.right.vec + d.vec - d.right.vec = c + d.vec := by abel
      have e2 : c + d.vec + d.right.right.vec = c := by rw [Dir.vec_right_right]; abel
      simp only [e1, e2, Dir.left_right]
      exact ⟨not_not.1 h3, h1, trivial⟩

theorem next_inj {S : Set Cell} {e f : CellSide} (he : Border S e) (hf : Border S f) (h : next S e = next S f) : e = f := by
  have h1 := next_cases he
  have h2 := next_cases hf
  rw [h] at h1
  generalize next S f = g at *
  simp only at h1 h2
  rcases h1 with ⟨a, h1⟩ | ⟨a, a', h1⟩ | ⟨a, a', h1⟩ <;> rcases h2 with ⟨b, h2⟩ | ⟨b, b', h2⟩ | ⟨b, b', h2⟩ <;> first | exact h1.trans h2.symm | exact absurd b a | exact absurd a b | exact absurd b' a' | exact absurd a' b'

theorem tail_ne_head (e : CellSide) : tail e ≠ head e := by
  intro h
  unfold head at h
  have : e.2.vec = 0 := by simpa using h.symm
  revert this
  cases e.2 <;> decide

/-! ## The contours of a set of squares -/

variable {S : Set Cell}

/-- The sides of the border are determined by their squares. -/
theorem border_finite (hS : S.Finite) : {e | Border S e}.Finite :=
  (hS.prod (Set.finite_univ (α := Dir))).subset fun _ h => ⟨h.1, trivial⟩

/-- The next side as a permutation of the border. -/
noncomputable def nextPerm (hS : S.Finite) : Equiv.Perm {e // Border S e} :=
  haveI : Finite {e // Border S e} := border_finite hS
  Equiv.ofBijective (fun e => ⟨next S e.1, next_border e.2⟩)
    (Finite.injective_iff_bijective.1 fun e f h => Subtype.ext (next_inj e.2 f.2 (congrArg Subtype.val h)))

theorem nextPerm_apply (hS : S.Finite) (e : {e // Border S e}) : (nextPerm hS e).1 = next S e.1 := rfl

end CellSide

/-- A permutation without fixed points consists of cycles. -/
theorem cycles_exist {α : Type} [Fintype α] [DecidableEq α] (σ : Equiv.Perm α) (hσ : ∀ a, σ a ≠ a) :
    ∃ L : List (List α), (∀ l ∈ L, l ≠ [] ∧ ringSides l = l.map fun a => (a, σ a)) ∧ L.flatten.Perm Finset.univ.toList := by
  suffices h : ∀ n (T : Finset α), T.card = n → (∀ a, a ∈ T ↔ σ a ∈ T) →
      ∃ L : List (List α), (∀ l ∈ L, l ≠ [] ∧ ringSides l = l.map fun a => (a, σ a)) ∧ L.flatten.Perm T.toList from
    h _ Finset.univ rfl (fun a => by simp)
  intro n
  induction n using Nat.strong_induction_on with
  | _ n ih =>
    intro T hn hT
    rcases T.eq_empty_or_nonempty with rfl | ⟨a, ha⟩
    · exact ⟨[], by simp, by simp⟩
    · have hsup : a ∈ σ.support := Equiv.Perm.mem_support.2 (hσ a)
      have hmem : ∀ b, b ∈ σ.toList a ↔ σ.SameCycle a b := fun b => by rw [Equiv.Perm.mem_toList_iff]; exact and_iff_left hsup
      have hcyc : ∀ b, σ.SameCycle a b → b ∈ T := by
        rintro b ⟨k, rfl⟩
        have hz : ∀ (k : ℕ) b, b ∈ T ↔ (σ ^ k) b ∈ T := by
          intro k
          induction k with
          | zero => simp
          | succ k ih => intro b; rw [ih b, pow_succ', Equiv.Perm.mul_apply]; exact hT _
        obtain ⟨k, rfl | rfl⟩ := k.eq_nat_or_neg
        · exact (hz k a).1 ha
        · refine (hz k _).2 ?_
          simpa using ha
      let T' := T.filter fun b => b ∉ σ.toList a
      have hlt : T'.card < n := by
        rw [← hn]
        refine Finset.card_lt_card (Finset.filter_ssubset.2 ⟨a, ha, ?_⟩)
        rw [not_not, hmem]
      obtain ⟨L, hL, hp⟩ := ih _ hlt T' rfl (fun b => by
        simp only [T', Finset.mem_filter, hmem]
        rw [← hT, Equiv.Perm.sameCycle_apply_right])
      refine ⟨σ.toList a :: L, fun l hl => ?_, ?_⟩
      · rcases List.mem_cons.1 hl with rfl | hl
        · refine ⟨fun h => Equiv.Perm.toList_eq_nil_iff.1 h hsup, ?_⟩
          unfold ringSides
          have : (σ.toList a).rotate 1 = (σ.toList a).map σ := by
            rw [← Equiv.Perm.toList_pow_apply_eq_rotate]
            apply List.ext_getElem
            · simp
            · intro i h1 h2
              rw [Equiv.Perm.getElem_toList, List.getElem_map, Equiv.Perm.getElem_toList, pow_one, ← Equiv.Perm.mul_apply, ← pow_succ, pow_succ', Equiv.Perm.mul_apply]
          rw [this]
          apply List.ext_getElem <;> simp
        · exact hL l hl
      · rw [List.flatten_cons]
        refine (List.perm_ext_iff_of_nodup ?_ T.nodup_toList).2 fun b => ?_
        · refine List.nodup_append'.2 ⟨σ.nodup_toList a, hp.symm.nodup T'.nodup_toList, fun b h1 h2 => ?_⟩
          have := hp.mem_iff.1 h2
          simp only [T', Finset.mem_toList, Finset.mem_filter] at this
          exact this.2 h1
        · rw [List.mem_append, hp.mem_iff]
          simp only [T', Finset.mem_toList, Finset.mem_filter]
          constructor
          · rintro (h | h)
            · exact hcyc b ((hmem b).1 h)
            · exact h.1
          · intro h
            by_cases h' : b ∈ σ.toList a
            · exact Or.inl h'
            · exact Or.inr ⟨h, h'⟩

namespace CellSide

variable {S : Set Cell}

/-- A corner of a square as a point of the plane. -/
def corner (c : Cell) : ℚ × ℚ := (c.1, c.2)

/-- The sides of the border in cycles. -/
theorem cycles_ok (hS : S.Finite) : ∃ L : List (List {e // Border S e}), (∀ l ∈ L, l ≠ [] ∧ ringSides l = l.map fun a => (a, nextPerm hS a)) ∧
    ∀ w : CellSide → ZMod 2, (L.map fun l => (l.map fun e => w e.1).sum).sum = ∑ e ∈ (hS.toFinset ×ˢ Finset.univ).filter (fun e => across e ∉ hS.toFinset), w e := by
  classical
  have : Finite {e // Border S e} := border_finite hS
  let : Fintype {e // Border S e} := Fintype.ofFinite _
  obtain ⟨L, hL, hp⟩ := cycles_exist (nextPerm hS) fun e h => tail_ne_head e.1 (by
    have := tail_next (S := S) e.1
    rw [← nextPerm_apply hS, h] at this
    exact this)
  refine ⟨L, hL, fun w => ?_⟩
  rw [show (fun l : List {e // Border S e} => (l.map fun e => w e.1).sum) = List.sum ∘ List.map (fun e => w e.1) from rfl, ← List.map_map, ← List.sum_flatten,
    ← List.map_flatten, (hp.map _).sum_eq, Finset.sum_map_toList]
  refine (Finset.sum_subtype _ (fun e => ?_) _).symm
  simp [Border]

/-- The contours of a set of squares. -/
noncomputable def contoursOf (hS : S.Finite) : List (List IntPoint) := (cycles_ok hS).choose.map fun l => l.map fun e => ⟨(tail e.1).1, (tail e.1).2⟩

theorem contours_sides (hS : S.Finite) {k : List IntPoint} (hk : k ∈ contoursOf hS) {s : Pt × Pt} (hs : s ∈ sidesOf (asPath k)) :
    ∃ e, Border S e ∧ exactPt s.1 = corner (tail e) ∧ exactPt s.2 = corner (head e) := by
  obtain ⟨l, hl, rfl⟩ := List.mem_map.1 hk
  have h1 := ((cycles_ok hS).choose_spec.1 l hl).2
  have : sidesOf (asPath (l.map fun e => (⟨(tail e.1).1, (tail e.1).2⟩ : IntPoint))) = (ringSides l).map fun s => ((⟨(tail s.1.1).1, (tail s.1.1).2⟩ : Pt), (⟨(tail s.2.1).1, (tail s.2.1).2⟩ : Pt)) := by
    unfold asPath
    rw [List.map_map]
    exact ringSides_map _ l
  rw [this, h1, List.map_map] at hs
  obtain ⟨e, he, rfl⟩ := List.mem_map.1 hs
  refine ⟨e.1, e.2, rfl, ?_⟩
  simp only [Function.comp_apply, nextPerm_apply, tail_next]
  rfl

theorem contours_point (hS : S.Finite) {k : List IntPoint} (hk : k ∈ contoursOf hS) {p : IntPoint} (hp : p ∈ k) : ∃ e, Border S e ∧ p = ⟨(tail e).1, (tail e).2⟩ := by
  obtain ⟨l, hl, rfl⟩ := List.mem_map.1 hk
  obtain ⟨e, he, rfl⟩ := List.mem_map.1 hp
  exact ⟨e.1, e.2, rfl⟩

/-- The square of a point. -/
def cellOf (x : ℚ × ℚ) : Cell := (⌊x.1⌋, ⌊x.2⌋)

/-- The crossings of one side. -/
def crossSide (x : ℚ × ℚ) (e : CellSide) : ZMod 2 := cross2 x (corner (tail e)) (corner (head e))

theorem square_cross (x : ℚ × ℚ) (c : Cell) : ∑ d, crossSide x (c, d) = if c = cellOf x then 1 else 0 := by
  have h := rect_encloses (r := (c.1, c.2, c.1 + 1, c.2 + 1)) ⟨by simp, by simp⟩ x
  rw [encloses_iff, pathCross, rect_sides] at h
  have h2 : inRect (c.1, c.2, c.1 + 1, c.2 + 1) x ↔ c = cellOf x := by
    unfold inRect cellOf
    rw [Prod.ext_iff]
    simp only [eq_comm (a := c.1), eq_comm (a := c.2), Int.floor_eq_iff]
    push_cast
    tauto
  have h3 : ∑ d, crossSide x (c, d) = (List.map (fun s : Pt × Pt => cross2 x (exactPt s.1) (exactPt s.2))
      [(⟨c.1 + 1, c.2⟩, ⟨c.1 + 1, c.2 + 1⟩), (⟨c.1 + 1, c.2 + 1⟩, ⟨c.1, c.2 + 1⟩), (⟨c.1, c.2 + 1⟩, ⟨c.1, c.2⟩), (⟨c.1, c.2⟩, ⟨c.1 + 1, c.2⟩)]).sum := by
    rw [show (Finset.univ : Finset Dir) = {.east, .north, .west, .south} from rfl]
    simp [crossSide, corner, tail, head, Dir.vec, exactPt]
    ring
  rw [h2, ← h3] at h
  split
  · rename_i hc
    exact h.2 hc
  · rename_i hc
    have : ∀ z : ZMod 2, z ≠ 1 → z = 0 := by decide
    exact this _ fun he => hc (h.1 he)

/-- The same side, seen from the other square. -/
def flip (e : CellSide) : CellSide := (across e, e.2.right.right)

theorem flip_tail (e : CellSide) : tail (flip e) = head e := by
  obtain ⟨c, d⟩ := e
  cases d <;> simp [flip, tail, head, across, Dir.right, Dir.vec, add_assoc]

theorem flip_flip (e : CellSide) : flip (flip e) = e := by
  obtain ⟨c, d⟩ := e
  cases d <;> simp [flip, across, Dir.right, Dir.vec, add_assoc]

theorem across_flip (e : CellSide) : across (flip e) = e.1 := congrArg Prod.fst (flip_flip e)

theorem flip_head (e : CellSide) : head (flip e) = tail e := by rw [← flip_tail, flip_flip]

/-- The sum over the border is 1 for the points of the squares. -/
theorem border_cross (hS : S.Finite) (x : ℚ × ℚ) :
    ∑ e ∈ (hS.toFinset ×ˢ (Finset.univ : Finset Dir)).filter (fun e => across e ∉ hS.toFinset), crossSide x e = if cellOf x ∈ hS.toFinset then 1 else 0 := by
  have h1 : ∑ e ∈ (hS.toFinset ×ˢ (Finset.univ : Finset Dir)).filter (fun e => across e ∈ hS.toFinset), crossSide x e = 0 := by
    refine Finset.sum_involution (fun e _ => flip e) (fun e _ => ?_) (fun e _ _ h => ?_) (fun e he => ?_) (fun e _ => flip_flip e)
    · unfold crossSide
      rw [flip_tail, flip_head, cross2_symm]
      exact CharTwo.add_self_eq_zero _
    · have := flip_tail e
      rw [h] at this
      exact tail_ne_head e this
    · simp only [Finset.mem_filter, Finset.mem_product, Finset.mem_univ, and_true] at he ⊢
      exact ⟨he.2, by rw [across_flip]; exact he.1⟩
  have h2 := Finset.sum_filter_add_sum_filter_not (hS.toFinset ×ˢ (Finset.univ : Finset Dir)) (fun e => across e ∈ hS.toFinset) (crossSide x)
  rw [h1, zero_add] at h2
  rw [h2, Finset.sum_product]
  simp only [square_cross]
  rw [Finset.sum_ite_eq']

theorem mem_contours (hS : S.Finite) (x : ℚ × ℚ) : x ∈ evenOdd enclosedBy (contoursOf hS) ↔ cellOf x ∈ S := by
  classical
  change Odd (crossings enclosedBy (contoursOf hS) x) ↔ _
  unfold crossings
  rw [odd_countP]
  have : ((contoursOf hS).map fun k => if decide (x ∈ enclosedBy k) = true then (1 : ZMod 2) else 0).sum = if cellOf x ∈ hS.toFinset then 1 else 0 := by
    rw [← border_cross hS x, ← (cycles_ok hS).choose_spec.2 (crossSide x)]
    unfold contoursOf
    rw [List.map_map]
    refine congrArg List.sum (List.map_congr_left fun l hl => ?_)
    have h1 := ((cycles_ok hS).choose_spec.1 l hl).2
    have h2 : pathCross x (asPath (l.map fun e => (⟨(tail e.1).1, (tail e.1).2⟩ : IntPoint))) = (l.map fun e => crossSide x e.1).sum := by
      rw [pathCross_ring]
      unfold ringCross asPath
      rw [List.map_map, List.map_map, ringSides_map, h1, List.map_map, List.map_map]
      refine congrArg List.sum (List.map_congr_left fun e _ => ?_)
      simp only [Function.comp_apply, nextPerm_apply, tail_next]
      rfl
    simp only [Function.comp_apply]
    rw [← h2]
    have h3 : x ∈ enclosedBy (l.map fun e => (⟨(tail e.1).1, (tail e.1).2⟩ : IntPoint)) ↔ pathCross x (asPath (l.map fun e => (⟨(tail e.1).1, (tail e.1).2⟩ : IntPoint))) = 1 := encloses_iff _ _
    simp only [h3, decide_eq_true_eq]
    have : ∀ z : ZMod 2, (if z = 1 then (1 : ZMod 2) else 0) = z := by decide
    exact this _
  rw [this]
  simp

end CellSide

end Verif
