import Verif.Props.Bodies
import Verif.Props.TrianglesExample

/-! # C132: a block inside of a block -/
namespace Verif
open Verif.Go Verif.Model Verif.Spec Verif.Spec.GCode

/-- The contours as one area: the first one with the others as holes. -/
def ringTree : List (List IntPoint) → List PolyNode
  | [] => []
  | a :: bs => [.node a (bs.map fun b => .node b [])]

/-- A library which is exact, but only works for lists of contours which are the same. -/
noncomputable def ringLib : ClipperLib :=
  { pieceLib with
    execute := fun t s c => if s = c then some (if t = .difference then [] else ringTree s) else if c = [] then some (if t = .intersection then [] else ringTree s)
      else if s = [] then some (if t = .union then ringTree c else []) else none
    offset := fun s _ => ringTree s }

theorem ring_inside (l : List (List IntPoint)) : areasInside (l.map fun b => .node b []) = [] := by
  induction l with
  | nil => simp [areasInside]
  | cons b l ih => simp [areasInside, areas, ih]

theorem ring_contours (s : List (List IntPoint)) : treesContours (ringTree s) = s := by
  have h : ∀ l : List (List IntPoint), treesContours (l.map fun b => .node b []) = l := fun l => by
    induction l with
    | nil => simp [treesContours]
    | cons b l ih => simp [treesContours, treeContours, ih]
  cases s with
  | nil => simp [ringTree, treesContours]
  | cons a l => simp [ringTree, treesContours, treeContours, h]

open Classical in
theorem ring_count (s : List (List IntPoint)) (x : ℚ × ℚ) : areaCount (areas (ringTree s)) x = if x ∈ evenOdd enclosedBy s then 1 else 0 := by
  cases s with
  | nil => simp [ringTree, areas, areaCount, evenOdd_none x]
  | cons a l =>
    have e : areas (ringTree (a :: l)) = [a :: l] := by
      simp only [ringTree, areas, areasOf, ring_inside, List.append_nil, List.map_map]
      congr 2
      simp [Function.comp_def, PolyNode.contour]
    rw [e]
    simp only [areaCount, List.countP_cons, List.countP_nil]
    split <;> simp_all

theorem ring_area {s a : List (List IntPoint)} (h : IsArea (ringTree s) a) : a = s := by
  obtain ⟨root, hr, n, hn, rfl⟩ := h
  cases s with
  | nil => cases hr
  | cons c l =>
    rw [ringTree, List.mem_singleton] at hr
    subst hr
    have : ∀ root n, EvenBelow root n → root = .node c (l.map fun b => .node b []) → n = .node c (l.map fun b => .node b []) := by
      intro root n h
      induction h with
      | refl => exact id
      | step h hc hg ih =>
        intro he
        rw [ih he] at hc
        obtain ⟨b, -, rfl⟩ := List.mem_map.1 hc
        cases hg
    rw [this _ _ hn rfl]
    simp [PolyNode.contour, PolyNode.childs, Function.comp_def]

theorem ring_tree {t : ClipType} {s c : List (List IntPoint)} {tree : List PolyNode} (h : ringLib.execute t s c = some tree) :
    (tree = ringTree s ∧ (t ≠ .difference ∧ s = c ∨ t ≠ .intersection ∧ c = [])) ∨ (tree = ringTree c ∧ t = .union ∧ s = []) ∨
      (tree = [] ∧ (t = .difference ∧ s = c ∨ t = .intersection ∧ c = [] ∨ t ≠ .union ∧ s = [])) := by
  simp only [ringLib] at h
  split at h
  · rename_i e
    cases h
    split <;> simp_all
  split at h
  · cases h
    split <;> simp_all
  split at h
  · cases h
    split <;> simp_all
  · cases h

theorem ring_nothing : NothingOutside enclosedBy ringLib 0 where
  intersection := by
    intro s c tree h a ha x hx
    rcases ring_tree h with ⟨rfl, ⟨-, rfl⟩ | ⟨h, -⟩⟩ | ⟨-, h, -⟩ | ⟨rfl, -⟩
    · cases ring_area ha; exact near_self hx
    · exact absurd rfl h
    · cases h
    · exact (isArea_nil ha).elim
  difference := by
    intro s c tree h a ha x hx
    rcases ring_tree h with ⟨rfl, -⟩ | ⟨-, h, -⟩ | ⟨rfl, -⟩
    · cases ring_area ha; exact near_self hx
    · cases h
    · exact (isArea_nil ha).elim
  union := by
    intro s c tree h a ha x hx
    rcases ring_tree h with ⟨rfl, -⟩ | ⟨rfl, -, -⟩ | ⟨rfl, -⟩
    · cases ring_area ha; exact .inl (near_self hx)
    · cases ring_area ha; exact .inr (near_self hx)
    · exact (isArea_nil ha).elim
  inset := by
    intro s d _ _ a ha x hx
    cases ring_area (s := s) ha
    exact near_self hx
  cut := piece_nothing.cut
  left := piece_nothing.left
  vertical := piece_nothing.vertical

theorem ring_open : OpenClipping ringLib := ⟨piece_open.ok, piece_open.lines⟩

open Classical in
theorem ring_sides : KeepsSides ringLib 0 where
  execute := by
    intro t s c tree h D x hD hf
    simp only [add_zero] at hf
    have nil : ∀ k ∈ treesContours [], FarFromPath D (asPath k) x := fun k hk => by simp [treesContours] at hk
    have nil2 : areaCount (areas []) x = 0 := by simp [areas, areaCount]
    have hn := evenOdd_none x
    rcases ring_tree h with ⟨rfl, hc⟩ | ⟨rfl, rfl, rfl⟩ | ⟨rfl, hc⟩
    · refine ⟨fun k hk => hf k (List.mem_append_left _ (by rwa [ring_contours] at hk)), ?_⟩
      rw [ring_count]
      rcases hc with ⟨ht, rfl⟩ | ⟨ht, rfl⟩
      · cases t <;> simp_all [clipSets]
      · cases t <;> simp_all [clipSets]
    · refine ⟨fun k hk => hf k (List.mem_append_right _ (by rwa [ring_contours] at hk)), ?_⟩
      rw [ring_count]
      simp [clipSets, hn]
    · refine ⟨nil, ?_⟩
      rw [nil2]
      rcases hc with ⟨rfl, rfl⟩ | ⟨rfl, rfl⟩ | ⟨ht, rfl⟩
      · simp [clipSets]
      · simp [clipSets, hn]
      · cases t <;> simp_all [clipSets]
  offset := by
    intro s d _ D x hD hf
    have hd : (0 : ℚ) ≤ 3 / 2 * |d| := by positivity
    refine ⟨fun k hk => farFromPath_le (hf k (by rwa [show ringLib.offset s d = ringTree s from rfl, ring_contours] at hk)) hD (by linarith), ring_count s x⟩

/-- Outlines shorter than 0.3 mm are left out. -/
def nestOptions : Options := { blockOptions with slicing := { finishPolygonSnapDistance := 300 } }

theorem nest_sensible : Sensible nestOptions where
  meld := by decide
  center := by decide
  thickness := by decide
  initial := by decide
  insets := by decide
  support := by decide
  width := by decide
  spacing := by decide +kernel
  percent := by decide

theorem nest_moderate : Moderate nestOptions where
  width := by decide
  overlap := by decide
  brim := by decide
  skirt := by decide
  distance := by decide +kernel
  spacing := by decide +kernel

/-- The block, and a second one of 4 mm × 4 mm × 1.1 mm in the middle of it. -/
def nestMesh : Mesh := blockMesh ++ blockMesh.map (Tri.map fun v => ⟨v.x * 2 / 5 + 3000, v.y * 2 / 5 + 3000, v.z⟩)

/-- The inner block on the bed. -/
def innerFaces : List (Tri Vec3) := blockMesh.map (Tri.map fun v => ⟨v.x * 2 / 5 + 98000, v.y * 2 / 5 + 98000, v.z⟩)

noncomputable def nestExt : Externals :=
  { blockExt with lib := ringLib, stl := fun _ => nestMesh.map (Tri.map fun v => ((v.x : ℚ) / 1000, (v.y : ℚ) / 1000, (v.z : ℚ) / 1000)) }

theorem nest_stl : (nestExt.stl []).map stlTriangleToFace = nestMesh := by decide +kernel

/-- Both blocks after the optimizer. -/
def nestOpt : OptModel :=
  ⟨blockOpt.points ++ blockOpt.points.map fun p => ⟨⟨(p.pos.x - 95000) * 2 / 5 + 98000, (p.pos.y - 95000) * 2 / 5 + 98000, p.pos.z⟩, p.faceIndices.map (· + 12)⟩,
    blockOpt.faces ++ blockOpt.faces.map fun f => ⟨f.indices.map (· + 8), f.touching.map (· + 12)⟩, ⟨10000, 10000, 1100⟩⟩

theorem nest_opt : optimize nestOptions nestMesh = .ok nestOpt := by decide +kernel

theorem nest_faces : nestOpt.faces.mapM nestOpt.facePoints = .ok (blockFaces ++ innerFaces) := by decide +kernel

theorem nest_modified : ((slice ringLib nestOptions nestOpt >>= fun ls => (standardModifiers ringLib 1 nestOptions).foldlM (fun ls m => m ls) ls).map fun ls =>
    ls.all wellTyped) = .ok true := by decide +kernel

/-- What `WellSliced` needs of the segments of a layer with two outlines, to be computed. -/
def goodTwo (o : Options) (om : OptModel) (n m : Nat) : Option SliceLayer → Bool
  | none => false
  | some layer => decide (layer.segments.Pairwise fun s s' => ¬ Within s.start s'.start (2 * o.slicing.meldDistance)) && (match makePolygons o om layer with
    | .ok paths => match paths.mapM (fun p => simplifyM p (-1) (-1)) with
      | .ok simple => decide (paths.map List.length = [n, n] ∧ simple.map List.length = [m, m])
      | .error _ => false
    | .error _ => false)

theorem nest_segments : (sliceSegments nestOptions nestOpt).map (fun ls => (ls.length, ls.all (goodTwo nestOptions nestOpt 9 4))) = .ok (5, true) := by decide +kernel

theorem nest_tip : ∀ i < 5, NoTip (heightOf nestOptions.print.initialLayerThickness nestOptions.print.layerThickness i) (blockFaces ++ innerFaces) := by decide +kernel

theorem well_two {o : Options} {om : OptModel} {fs : List (Tri Vec3)} {segs : List (Option SliceLayer)} {n a b : Nat} (hn : n < segs.length) (hs : segs.all (goodTwo o om a b) = true)
    (htip : NoTip (heightOf o.print.initialLayerThickness o.print.layerThickness n) fs) : WellSliced o om fs segs (a - b) n := by
  have h := List.all_eq_true.1 hs segs[n] (List.getElem_mem _)
  unfold goodTwo at h
  split at h
  · cases h
  · rename_i layer hl
    rw [Bool.and_eq_true, decide_eq_true_eq] at h
    refine ⟨layer, by rw [List.getElem?_eq_getElem hn, hl], htip, starts_apart h.1, fun paths simple h1 h2 => ?_⟩
    have h := h.2
    rw [h1] at h
    simp only [h2, decide_eq_true_eq] at h
    obtain ⟨e1, e2⟩ := h
    obtain ⟨p, ps, rfl, l1, e1⟩ := List.map_eq_cons_iff.1 e1
    obtain ⟨p', ps', rfl, l1', e1⟩ := List.map_eq_cons_iff.1 e1
    obtain ⟨r, rs, rfl, l2, e2⟩ := List.map_eq_cons_iff.1 e2
    obtain ⟨r', rs', rfl, l2', e2⟩ := List.map_eq_cons_iff.1 e2
    rw [List.map_eq_nil_iff] at e1 e2
    subst e1 e2
    exact .cons (by omega) (.cons (by omega) .nil)

theorem nest_far : ∀ q ∈ [((100000, 100000) : ℚ × ℚ), (96500, 100000)], FarFromSurface 1400 (blockFaces ++ innerFaces) (layerHeight nestOptions 1) q := by
  have h : ∀ q ∈ [((100000, 100000) : ℚ × ℚ), (96500, 100000)], ∀ f ∈ blockFaces ++ innerFaces, ∀ s ∈ faceSides f, ∀ s' ∈ faceSides f,
      Down (layerHeight nestOptions 1) s → Up (layerHeight nestOptions 1) s' →
      ((q.1 + 1400 < (meetPoint (layerHeight nestOptions 1) s).1 ∧ q.1 + 1400 < (meetPoint (layerHeight nestOptions 1) s').1) ∨
       ((meetPoint (layerHeight nestOptions 1) s).1 < q.1 - 1400 ∧ (meetPoint (layerHeight nestOptions 1) s').1 < q.1 - 1400) ∨
       (q.2 + 1400 < (meetPoint (layerHeight nestOptions 1) s).2 ∧ q.2 + 1400 < (meetPoint (layerHeight nestOptions 1) s').2) ∨
       ((meetPoint (layerHeight nestOptions 1) s).2 < q.2 - 1400 ∧ (meetPoint (layerHeight nestOptions 1) s').2 < q.2 - 1400)) := by
    unfold Down Up
    decide +kernel
  exact fun q hq f hf s hs s' hs' h1 h2 => farFrom_side (by norm_num) (h q hq f hf s hs s' hs' h1 h2)

/-- Non-vacuity of `C132_program`: the middle, which is inside of both blocks, is not in the outlines of the second layer, and a point which is only inside of the outer block is. -/
example : ∃ t sliced l, gcodeOf nestExt nestOptions [] = .ok t ∧ slice ringLib nestOptions nestOpt = .ok sliced ∧ sliced[1]? = some l ∧
    InsideSolid blockFaces (layerHeight nestOptions 1) (100000, 100000) ∧ InsideSolid innerFaces (layerHeight nestOptions 1) (100000, 100000) ∧
    (100000, 100000) ∉ region enclosedBy l.parts ∧ (96500, 100000) ∈ region enclosedBy l.parts := by
  obtain ⟨t, ht⟩ := gcode_of_typed (ext := nestExt) (content := []) nest_sensible ring_open (by rw [nest_stl]; exact nest_opt) ⟨_, _, nest_faces⟩
    (by rw [nest_stl]; decide) nest_modified
  obtain ⟨om, segs, sliced, layers, pt, k1, k2, k3, k4, k5, key⟩ := C132_program nestExt nestOptions [] t ht le_rfl ring_sides ring_nothing ring_open turns_never nest_moderate
    (by decide) (by decide) (by decide)
  rw [nest_stl, nest_opt] at k1
  cases k1
  have hg := nest_segments
  rw [k2] at hg
  obtain ⟨g1, g2⟩ := Prod.mk.inj (Except.ok.inj hg)
  obtain ⟨s, hs, hm⟩ := bind_ok.1 k3
  rw [k2] at hs
  cases hs
  have hlen : sliced.length = 5 := by rw [← (mapM_ok.1 hm).length_eq]; exact g1
  have hparts := C61_parts nestExt.lib nestExt.tan nestOptions _ (fun m hm => hm) sliced layers k4
  have hne : layers ≠ [] := by
    rintro rfl
    have := congrArg List.length hparts
    simp [hlen] at this
  obtain ⟨l, hl⟩ : ∃ l, sliced[1]? = some l := ⟨_, List.getElem?_eq_getElem (by omega)⟩
  obtain ⟨key, -⟩ := key blockFaces innerFaces nest_faces (by decide +kernel) (by unfold SmallSurface; decide +kernel) hne
  have key : ∀ q ∈ [((100000, 100000) : ℚ × ℚ), (96500, 100000)], _ := fun q hq => key 1 (9 - 4) l hl (well_two (by omega) g2 (nest_tip 1 (by decide))) q
    (farFromSurface_mono (nest_far q hq) (by norm_num) (by norm_num)) (farFromSurface_mono (nest_far q hq) (by decide +kernel) (by decide +kernel))
  have i1 : InsideSolid blockFaces (layerHeight nestOptions 1) (100000, 100000) := by decide +kernel
  have i2 : InsideSolid innerFaces (layerHeight nestOptions 1) (100000, 100000) := by decide +kernel
  refine ⟨t, sliced, l, ht, k3, hl, i1, i2, fun hc => (key _ (by simp)).1 hc (iff_of_true i1 i2), (key _ (by simp)).2 ?_⟩
  decide +kernel

end Verif
