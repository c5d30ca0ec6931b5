import Verif.Spec.Travel
import Verif.Spec.Calls
import Verif.Props.Region
import Verif.Props.BuilderMore

/-! # C96, C97: travels inside of the model, outermost polygons -/
namespace Verif
open Verif.Go Verif.Model Verif.Spec

/-! ## C96 -/

theorem crossing_paths (inside : List IntPoint → Set (ℚ × ℚ)) (parts : List LayerPart) :
    evenOdd inside (parts.flatMap fun p => clipperPaths p.holes ++ [clipperPath p.outline]) = region inside parts := by
  unfold region
  apply evenOdd_perm
  induction parts with
  | nil => exact .refl _
  | cons p ps ih =>
    rw [List.flatMap_cons, List.flatMap_cons]
    refine List.Perm.append ?_ ih
    exact (List.perm_append_comm (l₁ := clipperPaths p.holes) (l₂ := [clipperPath p.outline])).trans (.refl _)

theorem sizes_pos {tree : List PolyNode} : 0 < PolyNode.sizes tree ↔ tree ≠ [] := by
  cases tree with
  | nil => simp [PolyNode.sizes]
  | cons t ts =>
    have := t.size_pos
    simp only [PolyNode.sizes, ne_eq, reduceCtorEq, not_false_eq_true, iff_true]
    omega

/-- **C96** The crossing test answers yes exactly if a point of the line is outside of the parts. -/
theorem C96_test (inside : List IntPoint → Set (ℚ × ℚ)) (lib : ClipperLib) (hl : CutsLines inside lib) (parts : List LayerPart) (a b : Pt)
    (hok : (lib.isCrossingPerimeter parts [a, b]).2 = true) :
    (lib.isCrossingPerimeter parts [a, b]).1 = true ↔ ∃ x, OnLine ⟨a.x, a.y⟩ ⟨b.x, b.y⟩ x ∧ x ∉ region inside parts := by
  unfold ClipperLib.isCrossingPerimeter at hok ⊢
  split at hok
  · cases hok
  · rename_i tree ht
    have := hl _ _ _ _ ht
    rw [crossing_paths] at this
    simp only [decide_eq_true_eq, gt_iff_lt, sizes_pos, ne_eq, this, not_forall, exists_prop]
    rfl

/-- **C96** On the way to a polygon the filament is retracted exactly if retraction is configured and the straight way leaves the layer. -/
theorem C96_retracts (inside : List IntPoint → Set (ℚ × ℚ)) (lib : ClipperLib) (hl : CutsLines inside lib) (p : Plan) (parts : List LayerPart) (p0 : Pt)
    (hok : (lib.isCrossingPerimeter parts [⟨p.last.x, p.last.y⟩, p0]).2 = true) :
    p.retracts lib.isCrossingPerimeter (some parts) p0 = true ↔ p.settings.retractionSpeed ≠ 0 ∧ p.settings.retractionAmount ≠ 0 ∧
      ∃ x, OnLine ⟨p.last.x, p.last.y⟩ ⟨p0.x, p0.y⟩ x ∧ x ∉ region inside parts := by
  rw [← C96_test inside lib hl parts _ _ hok]
  simp [Plan.retracts, and_assoc]

/-- **C96** Each travel which the builder makes without retraction (if it is configured) stays inside of the layer it was given. -/
theorem C96_inside (inside : List IntPoint → Set (ℚ × ℚ)) (lib : ClipperLib) (hl : CutsLines inside lib) (flow : Int → Int → ℚ) (cs : List Call)
    (parts : List LayerPart) (path : Path) (z : Int) (isOpen : Bool) (p0 : Pt) (rest : Path) (hp : douglasPeuckerM path (-1) = p0 :: rest)
    (hr : (plan lib.isCrossingPerimeter flow cs).settings.retractionSpeed ≠ 0 ∧ (plan lib.isCrossingPerimeter flow cs).settings.retractionAmount ≠ 0)
    (hok : (lib.isCrossingPerimeter parts [⟨(plan lib.isCrossingPerimeter flow cs).last.x, (plan lib.isCrossingPerimeter flow cs).last.y⟩, p0]).2 = true) :
    let p := plan lib.isCrossingPerimeter flow cs
    ∃ crosses, (plan lib.isCrossingPerimeter flow (cs ++ [.polygon (some parts) path z isOpen])).requests =
        p.requests ++ p.settings.draw crosses p.last p0 rest z isOpen ∧
      (crosses = false ↔ ∀ x, OnLine ⟨p.last.x, p.last.y⟩ ⟨p0.x, p0.y⟩ x → x ∈ region inside parts) := by
  intro p
  refine ⟨p.retracts lib.isCrossingPerimeter (some parts) p0, ?_, ?_⟩
  · rw [plan, List.foldl_append]
    simp only [List.foldl_cons, List.foldl_nil, Plan.call, Plan.polygon, hp]
    rfl
  · rw [← Bool.not_eq_true, C96_retracts inside lib hl p parts p0 hok]
    simp only [p, hr, ne_eq, not_false_eq_true, true_and, not_exists, not_and, not_not]

/-! ## C97 -/

section
variable {X : Type} (inside : List IntPoint → Set X)

mutual
theorem nested_tree {x : X} : ∀ t : PolyNode, NestedTree inside t → (∃ c ∈ treeContours t, x ∈ inside c) → x ∈ inside t.contour
  | .node c cs => fun h ⟨d, hd, hx⟩ => by
    rw [NestedTree] at h
    rw [treeContours, List.mem_cons] at hd
    rcases hd with rfl | hd
    · exact hx
    · obtain ⟨t, ht, hxt⟩ := nested_trees cs h.2 ⟨d, hd, hx⟩
      exact h.1 t ht hxt
theorem nested_trees {x : X} : ∀ ts : List PolyNode, NestedTrees inside ts → (∃ c ∈ treesContours ts, x ∈ inside c) → ∃ t ∈ ts, x ∈ inside t.contour
  | [] => fun _ ⟨_, hd, _⟩ => nomatch hd
  | t :: ts => fun h ⟨d, hd, hx⟩ => by
    rw [NestedTrees] at h
    rw [treesContours, List.mem_append] at hd
    rcases hd with hd | hd
    · exact ⟨t, List.mem_cons_self, nested_tree t h.1 ⟨d, hd, hx⟩⟩
    · obtain ⟨u, hu, hxu⟩ := nested_trees ts h.2.2 ⟨d, hd, hx⟩
      exact ⟨u, List.mem_cons_of_mem _ hu, hxu⟩
end

theorem nested_pairwise : ∀ ts : List PolyNode, NestedTrees inside ts →
    (ts.map PolyNode.contour).Pairwise fun c d => ∀ x, ¬ (x ∈ inside c ∧ x ∈ inside d)
  | [] => fun _ => .nil
  | t :: ts => fun h => by
    rw [NestedTrees] at h
    rw [List.map_cons, List.pairwise_cons]
    refine ⟨fun d hd => ?_, nested_pairwise ts h.2.2⟩
    obtain ⟨u, hu, rfl⟩ := List.mem_map.1 hd
    exact h.2.1 u hu

theorem evenOdd_enclosed {cs : List (List IntPoint)} {x : X} (h : x ∈ evenOdd inside cs) : ∃ c ∈ cs, x ∈ inside c := by
  have hodd : Odd (crossings inside cs x) := h
  have hpos : 0 < crossings inside cs x := hodd.pos
  obtain ⟨c, hc, hx⟩ := List.countP_pos_iff.1 hpos
  exact ⟨c, hc, by simpa using hx⟩

theorem evenOdd_nil : evenOdd inside [] = ∅ := by
  ext x
  simp [evenOdd, crossings]

/-- The polygon in the format of the library. -/
theorem clipperPath_contour (c : List IntPoint) : clipperPath (c.map microPoint) = c := by
  unfold clipperPath
  rw [List.map_map]
  exact List.map_id _

/-- **C97** The outermost polygons have no point in common, each is a contour of the union, and together they enclose all points enclosed by the outlines (by the
even-odd rule). -/
theorem C97_top_level (lib : ClipperLib) (hl : Exact inside lib) (hn : Nesting inside lib) (parts : List LayerPart) (ps : Paths)
    (h : lib.topLevelPolygons parts = some ps) :
    ps.Pairwise (fun p q => ∀ x, ¬ (x ∈ inside (clipperPath p) ∧ x ∈ inside (clipperPath q))) ∧
    ∀ x, x ∈ evenOdd inside (parts.map fun p => clipperPath p.outline) → ∃ p ∈ ps, x ∈ inside (clipperPath p) := by
  obtain ⟨tree, ht, rfl⟩ := Option.map_eq_some_iff.1 h
  have hnest := hn _ _ _ _ ht
  constructor
  · have := nested_pairwise inside tree hnest
    rw [List.pairwise_map] at this ⊢
    refine this.imp fun {a b} hab => ?_
    rw [clipperPath_contour, clipperPath_contour]
    exact hab
  · intro x hx
    have he := hl _ _ _ _ ht
    have hx' : x ∈ evenOdd inside (treesContours tree) := by
      rw [he]
      exact Or.inl hx
    obtain ⟨t, ht, hxt⟩ := nested_trees inside tree hnest (evenOdd_enclosed inside hx')
    exact ⟨_, List.mem_map_of_mem ht, by rw [clipperPath_contour]; exact hxt⟩

/-- **C97** Nothing else is enclosed by the outermost polygons but what is enclosed by the contours of the union (that is the union with its holes filled). -/
theorem C97_filled (lib : ClipperLib) (parts : List LayerPart) (ps : Paths) (h : lib.topLevelPolygons parts = some ps) :
    ∃ tree, lib.execute .union (parts.map fun p => clipperPath p.outline) [] = some tree ∧ ps.map clipperPath = tree.map PolyNode.contour := by
  obtain ⟨tree, ht, rfl⟩ := Option.map_eq_some_iff.1 h
  refine ⟨tree, ht, ?_⟩
  rw [List.map_map]
  exact List.map_congr_left fun t _ => clipperPath_contour _

end

/-! ## Examples -/

open Classical in
/-- A library which cuts lines. -/
noncomputable def cuttingLib (inside : List IntPoint → Set (ℚ × ℚ)) : ClipperLib where
  execute _ _ _ := some []
  executeOpen _ s c := some (if ∀ l ∈ s, ∀ a b, l = [a, b] → ∀ x, OnLine a b x → x ∈ evenOdd inside c then [] else s.map fun l => .node l [])
  offset _ _ := []
  hull p := p

example (inside : List IntPoint → Set (ℚ × ℚ)) : CutsLines inside (cuttingLib inside) := by
  intro a b clip tree h
  have h := Option.some.inj h
  subst h
  split
  · rename_i h
    simp only [true_iff]
    exact h [a, b] (by simp) a b rfl
  · rename_i h
    simp only [List.map_cons, List.map_nil, reduceCtorEq, false_iff]
    intro h'
    apply h
    intro l hl a' b' e
    rw [List.mem_singleton] at hl
    rw [e] at hl
    cases hl
    exact h'

/-- A square of 1 mm: the way along it is inside, the way across its border is not. -/
example : (∀ x, OnLine ⟨0, 0⟩ ⟨1000, 0⟩ x → x ∈ {p : ℚ × ℚ | 0 ≤ p.1 ∧ p.1 ≤ 1000}) ∧ ∃ x, OnLine ⟨0, 0⟩ ⟨3000, 0⟩ x ∧ x ∉ {p : ℚ × ℚ | 0 ≤ p.1 ∧ p.1 ≤ 1000} := by
  constructor
  · rintro x ⟨t, h0, h1, rfl⟩
    constructor <;> norm_num <;> linarith
  · exact ⟨(1500, 0), ⟨1 / 2, by norm_num, by norm_num, by norm_num⟩, by norm_num⟩

theorem pixelLib_nesting : Nesting pixels pixelLib := by
  have key : ∀ ps : List IntPoint, ps.Nodup → NestedTrees pixels (ps.map fun p => .node [p] []) := by
    intro ps
    induction ps with
    | nil => intro _; trivial
    | cons p ps ih =>
      intro h
      rw [List.nodup_cons] at h
      rw [List.map_cons, NestedTrees]
      refine ⟨⟨by simp, trivial⟩, ?_, ih h.2⟩
      intro u hu x ⟨h1, h2⟩
      obtain ⟨q, hq, rfl⟩ := List.mem_map.1 hu
      have h1 : x = p := by simpa [pixels, PolyNode.contour] using h1
      have h2 : x = q := by simpa [pixels, PolyNode.contour] using h2
      exact h.1 (h1 ▸ h2 ▸ hq)
  intro t s c tree h
  have h := Option.some.inj h
  subst h
  exact key _ (List.nodup_dedup _)

example : ∃ ps, pixelLib.topLevelPolygons [pixelPart [0, 1], pixelPart [1, 2]] = some ps ∧ ps = [[⟨0, 0⟩], [⟨2, 0⟩]] := ⟨_, rfl, by decide +kernel⟩

end Verif
