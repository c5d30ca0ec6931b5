import Verif.Spec.Region
import Verif.Props.Clip
import Mathlib.Data.List.Dedup

/-! # Regions of the results of the clipper -/
namespace Verif
open Verif.Go Verif.Model Verif.Spec

variable {X : Type} (inside : List IntPoint → Set X)

theorem crossings_append (a b : List (List IntPoint)) (x : X) :
    crossings inside (a ++ b) x = crossings inside a x + crossings inside b x := by simp [crossings]

theorem crossings_perm {a b : List (List IntPoint)} (h : a.Perm b) (x : X) : crossings inside a x = crossings inside b x := by
  simp only [crossings]; exact h.countP_eq _

theorem evenOdd_perm {a b : List (List IntPoint)} (h : a.Perm b) : evenOdd inside a = evenOdd inside b := by
  ext x; simp only [evenOdd, Set.mem_ofPred_eq, crossings_perm inside h]

theorem partContours_eq (p : LayerPart) : partContours p = ClipperLib.partPaths p := rfl

theorem flatMap_partContours (ps : List LayerPart) : ps.flatMap ClipperLib.partPaths = ps.flatMap partContours := rfl

@[simp] theorem region_nil : region inside [] = ∅ := by
  ext x; simp [region, evenOdd, crossings]

/-- Putting lists of parts together gives the symmetric difference of the regions. -/
theorem mem_region_append (a b : List LayerPart) (x : X) :
    x ∈ region inside (a ++ b) ↔ ¬(x ∈ region inside a ↔ x ∈ region inside b) := by
  simp only [region, evenOdd, Set.mem_ofPred_eq, List.flatMap_append, crossings_append, Nat.odd_add, ← Nat.not_odd_iff_even]
  tauto

theorem mem_region_append_disjoint (a b : List LayerPart) (x : X) (h : ¬(x ∈ region inside a ∧ x ∈ region inside b)) :
    x ∈ region inside (a ++ b) ↔ x ∈ region inside a ∨ x ∈ region inside b := by
  rw [mem_region_append]; tauto

theorem region_perm {a b : List LayerPart} (h : a.Perm b) : region inside a = region inside b :=
  evenOdd_perm inside (h.flatMap_right _)

/-- For parts which do not overlap the region is the union of their regions. -/
theorem region_separate (parts : List LayerPart) (h : Separate inside parts) : region inside parts = cover inside parts := by
  induction parts with
  | nil => ext x; simp [cover]
  | cons p ps ih =>
    obtain ⟨h1, h2⟩ := List.pairwise_cons.1 h
    ext x
    have e : region inside (p :: ps) = region inside ([p] ++ ps) := rfl
    rw [e, mem_region_append_disjoint, ih h2]
    · simp [cover]
    · rw [ih h2]
      rintro ⟨ha, q, hq, hb⟩
      exact h1 q hq x ⟨ha, hb⟩

theorem treesContours_append (a b : List PolyNode) : treesContours (a ++ b) = treesContours a ++ treesContours b := by
  induction a with
  | nil => simp [treesContours]
  | cons c cs ih => simp [treesContours, ih]

theorem back_and_forth (c : List IntPoint) : clipperPath (c.map microPoint) = c := by
  induction c with
  | nil => rfl
  | cons p ps ih => simp_all [clipperPath, clipperPoint, microPoint]

theorem partContours_nodePart (p : PolyNode) : partContours (nodePart p) = p.contour :: p.childs.map PolyNode.contour := by
  rw [partContours_eq]
  simp [ClipperLib.partPaths, nodePart, nodeHoles, back_and_forth, clipperPaths]

mutual
theorem contours_treeParts : (p : PolyNode) → List.Perm ((treeParts p).flatMap partContours) (treeContours p)
  | .node c cs => by
    simp only [treeParts, List.flatMap_cons, partContours_nodePart, treeContours, PolyNode.contour, PolyNode.childs, List.cons_append]
    exact List.Perm.cons _ (contours_grandParts cs)
theorem contours_grandParts : (l : List PolyNode) →
    List.Perm (l.map PolyNode.contour ++ (grandParts l).flatMap partContours) (treesContours l)
  | [] => by simp [grandParts, treesContours]
  | .node c cs :: rest => by
    simp only [grandParts, List.flatMap_append, List.map_cons, treesContours, treeContours, PolyNode.contour, List.cons_append]
    refine List.Perm.cons _ ?_
    refine List.Perm.trans ?_ (List.Perm.append (contours_treePartsList cs) (contours_grandParts rest))
    rw [← List.append_assoc, ← List.append_assoc]
    exact List.Perm.append_right _ List.perm_append_comm
theorem contours_treePartsList : (l : List PolyNode) → List.Perm ((treePartsList l).flatMap partContours) (treesContours l)
  | [] => by simp [treePartsList, treesContours]
  | c :: cs => by
    simp only [treePartsList, List.flatMap_append, treesContours]
    exact List.Perm.append (contours_treeParts c) (contours_treePartsList cs)
end

/-- The parts of a tree have all its contours, each once. -/
theorem polyTree_contours (l : List PolyNode) : List.Perm ((polyTreeToLayerParts l).flatMap partContours) (treesContours l) :=
  ((polyTree_perm l).flatMap_right _).trans (by rw [← treePartsList_eq]; exact contours_treePartsList l)

theorem region_polyTree (l : List PolyNode) : region inside (polyTreeToLayerParts l) = evenOdd inside (treesContours l) :=
  evenOdd_perm inside (polyTree_contours l)

/-- C84: with an exact library the set operations of the clipper give the regions of the set operations. -/
theorem C84_regions (lib : ClipperLib) (hl : Exact inside lib) (t : ClipType) (a b r : List LayerPart)
    (h : lib.runClipper t a b = some r) : region inside r = clipSets t (region inside a) (region inside b) := by
  simp only [ClipperLib.runClipper] at h
  split at h
  · next hab =>
    cases h
    obtain ⟨rfl, rfl⟩ := hab
    cases t <;> simp [clipSets]
  · cases hx : lib.execute t (a.flatMap ClipperLib.partPaths) (b.flatMap ClipperLib.partPaths) with
    | none => simp [hx] at h
    | some tree =>
      simp only [hx, Option.map_some, Option.some.injEq] at h
      rw [← h, region_polyTree]
      exact hl _ _ _ _ hx

/-- C84: `Difference`. -/
theorem C84_difference {lib : ClipperLib} (hl : Exact inside lib) {a b r : List LayerPart} (h : lib.difference a b = some r) (x : X) :
    x ∈ region inside r ↔ x ∈ region inside a ∧ x ∉ region inside b := by
  rw [C84_regions inside lib hl _ _ _ _ h]; rfl

/-- C84: `Union`. -/
theorem C84_union {lib : ClipperLib} (hl : Exact inside lib) {a b r : List LayerPart} (h : lib.union a b = some r) (x : X) :
    x ∈ region inside r ↔ x ∈ region inside a ∨ x ∈ region inside b := by
  rw [C84_regions inside lib hl _ _ _ _ h]; rfl

/-- C84: `Intersection`. -/
theorem C84_intersection {lib : ClipperLib} (hl : Exact inside lib) {a b r : List LayerPart} (h : lib.intersection a b = some r) (x : X) :
    x ∈ region inside r ↔ x ∈ region inside a ∧ x ∈ region inside b := by
  rw [C84_regions inside lib hl _ _ _ _ h]; rfl

/-! An exact library for the examples: a contour is a list of pixels. -/

/-- The pixels of a contour. -/
def pixels (c : List IntPoint) : Set IntPoint := {p | p ∈ c}

/-- Even-odd rule for lists of pixels. -/
def oddPixels (cs : List (List IntPoint)) : List IntPoint :=
  cs.flatten.filter fun p => (cs.countP fun c => decide (p ∈ c)) % 2 = 1

theorem mem_oddPixels (cs : List (List IntPoint)) (p : IntPoint) : p ∈ oddPixels cs ↔ p ∈ evenOdd pixels cs := by
  have e : crossings pixels cs p = cs.countP fun c => decide (p ∈ c) := by
    simp only [crossings]
    congr 1
    funext c
    exact decide_eq_decide.2 Iff.rfl
  simp only [oddPixels, List.mem_filter, List.mem_flatten, decide_eq_true_eq, evenOdd, Set.mem_ofPred_eq, e, Nat.odd_iff]
  refine ⟨fun h => h.2, fun h => ⟨?_, h⟩⟩
  by_contra hc
  have : (cs.countP fun c => decide (p ∈ c)) = 0 := by
    rw [List.countP_eq_zero]
    intro c hcs
    simp only [decide_eq_true_eq]
    exact fun hp => hc ⟨c, hcs, hp⟩
  omega

/-- The tree for a list of pixels: every pixel has its own contour. -/
def pixelTree (ps : List IntPoint) : List PolyNode := ps.dedup.map fun p => .node [p] []

theorem evenOdd_pixelTree (ps : List IntPoint) : evenOdd pixels (treesContours (pixelTree ps)) = {p | p ∈ ps} := by
  ext p
  have hc : treesContours (pixelTree ps) = ps.dedup.map fun p => [p] := by
    unfold pixelTree
    induction ps.dedup with
    | nil => rfl
    | cons q qs ih => simp [treesContours, treeContours, ih]
  have e : crossings pixels (treesContours (pixelTree ps)) p = ps.dedup.count p := by
    rw [hc]
    simp only [crossings, List.countP_map, List.count]
    congr 1
    funext q
    by_cases h : p = q
    · subst h; simp [pixels]
    · have : q ≠ p := fun h' => h h'.symm
      simp [pixels, h, this]
  simp only [evenOdd, Set.mem_ofPred_eq, e]
  by_cases hp : p ∈ ps
  · simp [List.count_eq_one_of_mem ps.nodup_dedup (List.mem_dedup.2 hp), hp]
  · simp [List.count_eq_zero_of_not_mem (fun h => hp (List.mem_dedup.1 h)), hp]

/-- The pixels next to a list of pixels in X direction. -/
def neighbours (ps : List IntPoint) : List IntPoint := ps ++ ps.map (fun p => ⟨p.x + 1, p.y⟩) ++ ps.map (fun p => ⟨p.x - 1, p.y⟩)

/-- An exact library, which offsets by one pixel in X direction for every positive distance and does nothing for others. Offsets give one contour,
set operations one for each pixel. -/
def pixelLib : ClipperLib where
  execute t s c := some <| pixelTree <|
    match t with
    | .union => oddPixels s ++ oddPixels c
    | .difference => (oddPixels s).filter fun p => p ∉ oddPixels c
    | .intersection => (oddPixels s).filter fun p => p ∈ oddPixels c
  executeOpen _ _ _ := some []
  offset cs d :=
    let ps := if d > 0 then neighbours (oddPixels cs) else oddPixels cs
    if ps = [] then [] else [.node ps.dedup []]
  hull p := p

theorem pixelLib_exact : Exact pixels pixelLib := by
  intro t s c tree h
  simp only [pixelLib, Option.some.injEq] at h
  subst h
  rw [evenOdd_pixelTree]
  ext p
  cases t <;> simp [clipSets, mem_oddPixels]

/-- A part with one contour of pixels in a row. -/
def pixelPart (xs : List Int) : LayerPart := ⟨xs.map fun x => ⟨x, 0⟩, []⟩

/-- The pixels of a list of parts. -/
def pixelsOf (parts : List LayerPart) : List IntPoint := oddPixels (parts.flatMap partContours)

theorem mem_pixelsOf (parts : List LayerPart) (p : IntPoint) : p ∈ region pixels parts ↔ p ∈ pixelsOf parts := (mem_oddPixels _ _).symm

example : ∃ r, pixelLib.difference [pixelPart [0, 1, 5]] [pixelPart [5, 6]] = some r ∧ pixelsOf r = [⟨0, 0⟩, ⟨1, 0⟩] :=
  ⟨_, rfl, by decide +kernel⟩

example : ¬ Separate pixels [pixelPart [0, 1], pixelPart [1, 2]] := by
  intro h
  have := (List.pairwise_cons.1 h).1 (pixelPart [1, 2]) (by simp) ⟨1, 0⟩
  exact this ⟨(mem_pixelsOf _ _).2 (by decide +kernel), (mem_pixelsOf _ _).2 (by decide +kernel)⟩

end Verif
