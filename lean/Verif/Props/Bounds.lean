import Verif.Model.Layer
import Mathlib.Tactic.Linarith

/-! # C10: bounding boxes -/
namespace Verif
open Verif.Go Verif.Model

/-- Specification: `box` is the smallest box around `points`. -/
structure TightBox (points : List Pt) (box : Pt × Pt) : Prop where
  encloses : ∀ p ∈ points, box.1.x ≤ p.x ∧ p.x ≤ box.2.x ∧ box.1.y ≤ p.y ∧ p.y ≤ box.2.y
  left : ∃ p ∈ points, p.x = box.1.x
  bottom : ∃ p ∈ points, p.y = box.1.y
  right : ∃ p ∈ points, p.x = box.2.x
  top : ∃ p ∈ points, p.y = box.2.y

/-- The coordinates are int64 values. -/
def Int64Pt (p : Pt) : Prop :=
  minMicrometer ≤ p.x ∧ p.x ≤ maxMicrometer ∧ minMicrometer ≤ p.y ∧ p.y ≤ maxMicrometer

theorem foldl_extend (l : List Pt) (b : Box) :
    ((l.foldl Box.extend b).minX ≤ b.minX ∧ (∀ p ∈ l, (l.foldl Box.extend b).minX ≤ p.x) ∧
      ((l.foldl Box.extend b).minX = b.minX ∨ ∃ p ∈ l, p.x = (l.foldl Box.extend b).minX)) ∧
    ((l.foldl Box.extend b).minY ≤ b.minY ∧ (∀ p ∈ l, (l.foldl Box.extend b).minY ≤ p.y) ∧
      ((l.foldl Box.extend b).minY = b.minY ∨ ∃ p ∈ l, p.y = (l.foldl Box.extend b).minY)) ∧
    (b.maxX ≤ (l.foldl Box.extend b).maxX ∧ (∀ p ∈ l, p.x ≤ (l.foldl Box.extend b).maxX) ∧
      ((l.foldl Box.extend b).maxX = b.maxX ∨ ∃ p ∈ l, p.x = (l.foldl Box.extend b).maxX)) ∧
    (b.maxY ≤ (l.foldl Box.extend b).maxY ∧ (∀ p ∈ l, p.y ≤ (l.foldl Box.extend b).maxY) ∧
      ((l.foldl Box.extend b).maxY = b.maxY ∨ ∃ p ∈ l, p.y = (l.foldl Box.extend b).maxY)) := by
  induction l generalizing b with
  | nil => simp
  | cons q l ih =>
    obtain ⟨⟨a1, a2, a3⟩, ⟨b1, b2, b3⟩, ⟨c1, c2, c3⟩, ⟨d1, d2, d3⟩⟩ := ih (b.extend q)
    simp only [List.foldl_cons]
    have e1 : (b.extend q).minX ≤ b.minX ∧ (b.extend q).minX ≤ q.x ∧ ((b.extend q).minX = b.minX ∨ q.x = (b.extend q).minX) := by
      simp only [Box.extend]; split <;> omega
    have e2 : (b.extend q).minY ≤ b.minY ∧ (b.extend q).minY ≤ q.y ∧ ((b.extend q).minY = b.minY ∨ q.y = (b.extend q).minY) := by
      simp only [Box.extend]; split <;> omega
    have e3 : b.maxX ≤ (b.extend q).maxX ∧ q.x ≤ (b.extend q).maxX ∧ ((b.extend q).maxX = b.maxX ∨ q.x = (b.extend q).maxX) := by
      simp only [Box.extend]; split <;> omega
    have e4 : b.maxY ≤ (b.extend q).maxY ∧ q.y ≤ (b.extend q).maxY ∧ ((b.extend q).maxY = b.maxY ∨ q.y = (b.extend q).maxY) := by
      simp only [Box.extend]; split <;> omega
    refine ⟨⟨by omega, ?_, ?_⟩, ⟨by omega, ?_, ?_⟩, ⟨by omega, ?_, ?_⟩, ⟨by omega, ?_, ?_⟩⟩
    · intro p hp
      rcases List.mem_cons.1 hp with rfl | hp
      · omega
      · exact a2 p hp
    · rcases a3 with h | ⟨p, hp, h⟩
      · rcases e1.2.2 with h' | h'
        · left; omega
        · right; exact ⟨q, by simp, by omega⟩
      · right; exact ⟨p, List.mem_cons_of_mem _ hp, h⟩
    · intro p hp
      rcases List.mem_cons.1 hp with rfl | hp
      · omega
      · exact b2 p hp
    · rcases b3 with h | ⟨p, hp, h⟩
      · rcases e2.2.2 with h' | h'
        · left; omega
        · right; exact ⟨q, by simp, by omega⟩
      · right; exact ⟨p, List.mem_cons_of_mem _ hp, h⟩
    · intro p hp
      rcases List.mem_cons.1 hp with rfl | hp
      · omega
      · exact c2 p hp
    · rcases c3 with h | ⟨p, hp, h⟩
      · rcases e3.2.2 with h' | h'
        · left; omega
        · right; exact ⟨q, by simp, by omega⟩
      · right; exact ⟨p, List.mem_cons_of_mem _ hp, h⟩
    · intro p hp
      rcases List.mem_cons.1 hp with rfl | hp
      · omega
      · exact d2 p hp
    · rcases d3 with h | ⟨p, hp, h⟩
      · rcases e4.2.2 with h' | h'
        · left; omega
        · right; exact ⟨q, by simp, by omega⟩
      · right; exact ⟨p, List.mem_cons_of_mem _ hp, h⟩

theorem foldl_extend_tight (l : List Pt) (hl : l ≠ []) (hr : ∀ p ∈ l, Int64Pt p) :
    TightBox l (⟨(l.foldl Box.extend Box.start).minX, (l.foldl Box.extend Box.start).minY⟩,
      ⟨(l.foldl Box.extend Box.start).maxX, (l.foldl Box.extend Box.start).maxY⟩) := by
  obtain ⟨⟨a1, a2, a3⟩, ⟨b1, b2, b3⟩, ⟨c1, c2, c3⟩, ⟨d1, d2, d3⟩⟩ := foldl_extend l Box.start
  obtain ⟨q, hq⟩ := List.exists_mem_of_ne_nil l hl
  obtain ⟨r1, r2, r3, r4⟩ := hr q hq
  have s1 : Box.start.minX = maxMicrometer := rfl
  have s2 : Box.start.minY = maxMicrometer := rfl
  have s3 : Box.start.maxX = minMicrometer := rfl
  have s4 : Box.start.maxY = minMicrometer := rfl
  refine ⟨fun p hp => ⟨a2 p hp, c2 p hp, b2 p hp, d2 p hp⟩, ?_, ?_, ?_, ?_⟩
  · rcases a3 with h | h
    · exact ⟨q, hq, by have := a2 q hq; simp only; omega⟩
    · exact h
  · rcases b3 with h | h
    · exact ⟨q, hq, by have := b2 q hq; simp only; omega⟩
    · exact h
  · rcases c3 with h | h
    · exact ⟨q, hq, by have := c2 q hq; simp only; omega⟩
    · exact h
  · rcases d3 with h | h
    · exact ⟨q, hq, by have := d2 q hq; simp only; omega⟩
    · exact h

/-- **C10** `Path.Bounds` of a non-empty path is the smallest enclosing box ... -/
theorem C10_path (p : Path) (hp : p ≠ []) (hr : ∀ q ∈ p, Int64Pt q) : TightBox p (pathBounds p) := by
  unfold pathBounds
  rw [if_neg (by simpa using hp)]
  exact foldl_extend_tight p hp hr

/-- **C10** ... and two zero points for the empty path. -/
theorem C10_path_empty : pathBounds [] = (⟨0, 0⟩, ⟨0, 0⟩) := rfl

theorem pathsLoop_eq (p : Paths) (st : Bool × Box) :
    p.foldl (fun st path => path.foldl (fun (st : Bool × Box) point => (true, st.2.extend point)) st) st =
      (st.1 || !p.flatten.isEmpty, p.flatten.foldl Box.extend st.2) := by
  have inner : ∀ (l : Path) (st : Bool × Box),
      l.foldl (fun (st : Bool × Box) point => (true, st.2.extend point)) st = (st.1 || !l.isEmpty, l.foldl Box.extend st.2) := by
    intro l
    induction l with
    | nil => intro st; simp
    | cons a l ih => intro st; simp [ih]
  induction p generalizing st with
  | nil => simp
  | cons a p ih =>
    rw [List.foldl_cons, ih, inner, List.flatten_cons, List.foldl_append]
    cases a <;> simp

/-- **C10** `Paths.Bounds` is the box of all points of all paths together, wherever empty paths occur. -/
theorem C10_paths_eq (p : Paths) : pathsBounds p = pathBounds p.flatten := by
  unfold pathsBounds pathBounds
  rw [pathsLoop_eq]
  by_cases h : p.flatten = []
  · rw [h]; simp
  · have h1 : p ≠ [] := by rintro rfl; simp at h
    have h2 : ¬ p.flatten.length = 0 := fun h' => h (List.length_eq_zero_iff.1 h')
    rw [if_neg (by simpa using h1), if_neg h2]
    simp [h]

/-- **C10** for `Paths`. -/
theorem C10_paths (p : Paths) (hp : p.flatten ≠ []) (hr : ∀ q ∈ p.flatten, Int64Pt q) :
    TightBox p.flatten (pathsBounds p) := by
  rw [C10_paths_eq]; exact C10_path _ hp hr

/-- **C10** for `Paths` without any point. -/
theorem C10_paths_empty (p : Paths) (hp : p.flatten = []) : pathsBounds p = (⟨0, 0⟩, ⟨0, 0⟩) := by
  rw [C10_paths_eq, hp]; rfl

/-- **C10** The box of a layer is the box of the outlines of its parts. -/
theorem C10_layer (parts : List LayerPart) (hp : (parts.map LayerPart.outline).flatten ≠ [])
    (hr : ∀ q ∈ (parts.map LayerPart.outline).flatten, Int64Pt q) :
    TightBox (parts.map LayerPart.outline).flatten (layerBounds parts) := C10_paths _ hp hr

example : Int64Pt ⟨-5, 7⟩ ∧ pathsBounds [[], [⟨-5, 7⟩, ⟨3, 2⟩]] = (⟨-5, 2⟩, ⟨3, 7⟩) := by
  constructor
  · unfold Int64Pt minMicrometer maxMicrometer; decide
  · decide

/-- **C10** The smallest and the largest coordinate are those of int64, and `Max` and `Min` are the maximum and the minimum. -/
theorem C10_limits : maxMicrometer = 2 ^ 63 - 1 ∧ minMicrometer = -2 ^ 63 ∧ ∀ a b : Micrometer, maxM a b = max a b ∧ minM a b = min a b := by
  refine ⟨by decide, by decide, fun a b => ⟨?_, ?_⟩⟩
  · unfold maxM
    split <;> omega
  · unfold minM
    split <;> omega

example : maxM 3 (-4) = 3 ∧ minM 3 (-4) = -4 := by simp [C10_limits.2.2]

end Verif
