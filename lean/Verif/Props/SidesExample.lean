import Verif.Props.SidesWhole

/-! # C121: a block -/
namespace Verif
open Verif.Go Verif.Model Verif.Spec Verif.Spec.GCode

/-- A block of 10 mm × 10 mm × 1.1 mm. -/
def blockMesh : Mesh :=
  [⟨⟨0, 0, 0⟩, ⟨0, 10000, 0⟩, ⟨10000, 10000, 0⟩⟩, ⟨⟨0, 0, 0⟩, ⟨10000, 10000, 0⟩, ⟨10000, 0, 0⟩⟩,
   ⟨⟨0, 0, 1100⟩, ⟨10000, 0, 1100⟩, ⟨10000, 10000, 1100⟩⟩, ⟨⟨0, 0, 1100⟩, ⟨10000, 10000, 1100⟩, ⟨0, 10000, 1100⟩⟩,
   ⟨⟨0, 0, 0⟩, ⟨10000, 0, 0⟩, ⟨10000, 0, 1100⟩⟩, ⟨⟨0, 0, 0⟩, ⟨10000, 0, 1100⟩, ⟨0, 0, 1100⟩⟩,
   ⟨⟨10000, 0, 0⟩, ⟨10000, 10000, 0⟩, ⟨10000, 10000, 1100⟩⟩, ⟨⟨10000, 0, 0⟩, ⟨10000, 10000, 1100⟩, ⟨10000, 0, 1100⟩⟩,
   ⟨⟨10000, 10000, 0⟩, ⟨0, 10000, 0⟩, ⟨0, 10000, 1100⟩⟩, ⟨⟨10000, 10000, 0⟩, ⟨0, 10000, 1100⟩, ⟨10000, 10000, 1100⟩⟩,
   ⟨⟨0, 10000, 0⟩, ⟨0, 0, 0⟩, ⟨0, 0, 1100⟩⟩, ⟨⟨0, 10000, 0⟩, ⟨0, 0, 1100⟩, ⟨0, 10000, 1100⟩⟩]

/-- One solid layer at the bottom and at the top. -/
def blockOptions : Options := { print := { numberBottomLayers := 1, numberTopLayers := 1 } }

/-- A library which is exact, but only works for single contours which are the same. -/
noncomputable def twinLib : ClipperLib :=
  { pieceLib with
    execute := fun t s c => match s, c with
      | [], [] => some []
      | [a], [] => some (match t with | .intersection => [] | _ => [.node a []])
      | [], [a] => some (match t with | .union => [.node a []] | _ => [])
      | [a], [b] => if a = b then some (match t with | .difference => [] | _ => [.node a []]) else none
      | _, _ => none }

theorem areas_leaf (a : List IntPoint) : areas [.node a []] = [[a]] := by simp [areas, areasOf, areasInside]

theorem contours_leaf (a : List IntPoint) : treesContours [.node a []] = [a] := by simp [treesContours, treeContours]

theorem mem_twin (t : ClipType) (A : Set (ℚ × ℚ)) (x : ℚ × ℚ) : x ∈ clipSets t A A ↔ t ≠ .difference ∧ x ∈ A := by
  cases t <;> simp [clipSets]

theorem evenOdd_none (x : ℚ × ℚ) : x ∉ evenOdd enclosedBy [] := by simp [evenOdd, crossings]

open Classical in
theorem leaf_count (a : List IntPoint) (x : ℚ × ℚ) : areaCount (areas [.node a []]) x = if x ∈ evenOdd enclosedBy [a] then 1 else 0 := by
  rw [areas_leaf]
  simp only [areaCount, List.countP_cons, List.countP_nil]
  split <;> simp_all

theorem twin_tree {t : ClipType} {s c : List (List IntPoint)} {tree : List PolyNode} (h : twinLib.execute t s c = some tree) :
    tree = [] ∨ ∃ a, tree = [.node a []] ∧ (t = .intersection → c = [a]) ∧ (t = .difference → s = [a]) ∧ (s = [a] ∨ c = [a]) := by
  simp only [twinLib] at h
  split at h
  · cases h; exact .inl rfl
  · rename_i a
    cases t <;> simp only [Option.some.injEq] at h <;> subst h
    · exact .inr ⟨a, rfl, nofun, nofun, .inl rfl⟩
    · exact .inr ⟨a, rfl, nofun, fun _ => rfl, .inl rfl⟩
    · exact .inl rfl
  · rename_i a
    cases t <;> simp only [Option.some.injEq] at h <;> subst h
    · exact .inr ⟨a, rfl, nofun, nofun, .inr rfl⟩
    · exact .inl rfl
    · exact .inl rfl
  · rename_i a b
    split at h
    · rename_i hab
      subst hab
      cases t <;> simp only [Option.some.injEq] at h <;> subst h
      · exact .inr ⟨a, rfl, nofun, nofun, .inl rfl⟩
      · exact .inl rfl
      · exact .inr ⟨a, rfl, fun _ => rfl, nofun, .inl rfl⟩
    · cases h
  · cases h

theorem twin_area {s : List (List IntPoint)} (h : LibArea twinLib s) : ∃ a, s = [a] := by
  obtain ⟨tree, ⟨t, u, c, h⟩ | ⟨u, d, rfl⟩, ha⟩ := h
  · rcases twin_tree h with rfl | ⟨a, rfl, -⟩
    · exact (isArea_nil ha).elim
    · exact ⟨a, isArea_leaf ha⟩
  · simp only [twinLib, pieceLib] at ha
    split at ha
    · exact ⟨_, isArea_leaf ha⟩
    · exact (isArea_nil ha).elim

theorem twin_nothing : NothingOutside enclosedBy twinLib 0 where
  intersection := by
    intro s c tree h a ha x hx
    rcases twin_tree h with rfl | ⟨b, rfl, h1, -, -⟩
    · exact (isArea_nil ha).elim
    · cases isArea_leaf ha
      rw [h1 rfl]
      exact near_self hx
  difference := by
    intro s c tree h a ha x hx
    rcases twin_tree h with rfl | ⟨b, rfl, -, h1, -⟩
    · exact (isArea_nil ha).elim
    · cases isArea_leaf ha
      rw [h1 rfl]
      exact near_self hx
  union := by
    intro s c tree h a ha x hx
    rcases twin_tree h with rfl | ⟨b, rfl, -, -, h1⟩
    · exact (isArea_nil ha).elim
    · cases isArea_leaf ha
      rcases h1 with rfl | rfl
      · exact .inl (near_self hx)
      · exact .inr (near_self hx)
  inset := by
    intro s d hs _ a ha x hx
    simp only [twinLib, pieceLib] at ha
    split at ha
    · cases isArea_leaf ha
      exact near_self hx
    · exact (isArea_nil ha).elim
  cut := piece_nothing.cut
  left := piece_nothing.left
  vertical := piece_nothing.vertical

theorem twin_open : OpenClipping twinLib := ⟨piece_open.ok, piece_open.lines⟩

theorem twin_inside : KeepsInside enclosedBy twinLib := piece_inside

open Classical in
theorem twin_sides : KeepsSides twinLib 0 where
  execute := by
    intro t s c tree h D x hD hf
    simp only [add_zero] at hf
    simp only [twinLib] at h
    have leaf : ∀ a, a ∈ s ++ c → ∀ k ∈ treesContours [.node a []], FarFromPath D (asPath k) x := fun a ha k hk => by
      rw [contours_leaf, List.mem_singleton] at hk; subst hk; exact hf _ ha
    have nil : ∀ k ∈ treesContours [], FarFromPath D (asPath k) x := fun k hk => by simp [treesContours] at hk
    have nil2 : areaCount (areas []) x = 0 := by simp [areas, areaCount]
    split at h
    · cases h
      refine ⟨nil, ?_⟩
      rw [nil2, if_neg]
      rw [mem_twin]
      exact fun hc => evenOdd_none x hc.2
    · rename_i a
      have hn := evenOdd_none x
      cases t <;> simp only [Option.some.injEq] at h <;> subst h
      · refine ⟨leaf a (by simp), ?_⟩
        rw [leaf_count]
        simp [clipSets, hn]
      · refine ⟨leaf a (by simp), ?_⟩
        rw [leaf_count]
        simp [clipSets, hn]
      · refine ⟨nil, ?_⟩
        rw [nil2]
        simp [clipSets, hn]
    · rename_i a
      have hn := evenOdd_none x
      cases t <;> simp only [Option.some.injEq] at h <;> subst h
      · refine ⟨leaf a (by simp), ?_⟩
        rw [leaf_count]
        simp [clipSets, hn]
      · refine ⟨nil, ?_⟩
        rw [nil2]
        simp [clipSets, hn]
      · refine ⟨nil, ?_⟩
        rw [nil2]
        simp [clipSets, hn]
    · rename_i a b
      split at h
      · rename_i hab
        subst hab
        cases t <;> simp only [Option.some.injEq] at h <;> subst h
        · refine ⟨leaf a (by simp), ?_⟩
          rw [leaf_count]
          simp [clipSets]
        · refine ⟨nil, ?_⟩
          rw [nil2]
          simp [clipSets]
        · refine ⟨leaf a (by simp), ?_⟩
          rw [leaf_count]
          simp [clipSets]
      · cases h
    · cases h
  offset := by
    intro s d hs D x hD hf
    have hd : (0 : ℚ) ≤ 3 / 2 * |d| := by positivity
    have key : ∀ a, s = [a] → (∀ k ∈ treesContours [.node a []], FarFromPath D (asPath k) x) ∧
        areaCount (areas [.node a []]) x = if x ∈ evenOdd enclosedBy s then 1 else 0 := by
      rintro a rfl
      refine ⟨fun k hk => ?_, leaf_count a x⟩
      rw [contours_leaf, List.mem_singleton] at hk
      subst hk
      exact farFromPath_le (hf _ (by simp)) hD (by linarith)
    obtain ⟨a, rfl⟩ := twin_area hs
    exact key a rfl

/-- The G-code is made if the modifiers succeed. -/
theorem gcode_of_modified {ext : Externals} {o : Options} {content : Str} (ho : Sensible o) (hopen : OpenClipping ext.lib) {om : OptModel} {ls layers : List Layer} {lo hi : Vec3}
    (hne : (ext.stl content).map stlTriangleToFace ≠ []) (hom : optimize o ((ext.stl content).map stlTriangleToFace) = .ok om) (hls : slice ext.lib o om = .ok ls)
    (hmod : (standardModifiers ext.lib ext.tan o).foldlM (fun ls m => m ls) ls = .ok layers) (hty : ∀ l ∈ layers, Typed l) (hlo : om.min = .ok lo) (hhi : om.max = .ok hi) :
    ∃ t, gcodeOf ext o content = .ok t := by
  suffices h : Succeeds (gcodeOf ext o content) fun _ => True by
    obtain ⟨t, ht, -⟩ := h
    exact ⟨t, ht⟩
  unfold gcodeOf
  dsimp only
  refine succeeds_bind_eq (a := ()) ?_ ?_
  · cases hmm : (ext.stl content).map stlTriangleToFace with
    | nil => exact absurd hmm hne
    | cons t ts => rfl
  refine succeeds_bind_eq hom ?_
  refine succeeds_bind_eq hls ?_
  refine succeeds_bind_eq hmod ?_
  have hpat : Succeeds (initPatterns ext.lib ext.trig o om) fun pt => GoodPattern pt.support ∧ GoodPattern pt.supportInterface ∧ GoodPattern pt.bottom ∧
      GoodPattern pt.top ∧ GoodPattern pt.infill := by
    unfold initPatterns
    simp only [bind, Except.bind, hlo, hhi]
    exact good_patterns ho hopen ext.trig _ _
  refine succeeds_bind hpat fun pt hpt => ?_
  obtain ⟨t, ht⟩ := (C79_succeeds (crossing := ext.lib.isCrossingPerimeter) (fun parts p => crossing_ok ext.lib hopen parts p) o (standardRenderers ext.lib o pt) layers
    (newBuilder o.filament.filamentDiameter o.filament.extrusionMultiplier)).2 (by
      intro s hs
      obtain ⟨x, hx, hs⟩ := List.mem_flatMap.1 hs
      obtain ⟨r, hr, rfl⟩ := List.mem_map.1 hs
      have hx' : x.1 ∈ layers := List.mem_of_getElem? (List.mem_zipIdx_iff_getElem?.1 hx)
      exact renderers_fault ext.lib o pt hpt.1 hpt.2.1 hpt.2.2.1 hpt.2.2.2.1 hpt.2.2.2.2 _ _ (hty _ hx') _ r hr)
  rw [ht]
  exact ⟨t, rfl, trivial⟩

/-- The names of all attributes which are set by the modifiers. -/
def attrNames : List String := ["perimeters", "overlapPerimeters", "bottom", "top", "infill", "brim", "outerBrim", "support", "fullSupport", "supportInterface"]

instance (name : String) (a : Attr) : Decidable (RightType name a) := by
  cases a <;> simp only [RightType] <;> infer_instance

/-- The check of the types of the attributes. -/
def wellTyped (l : Layer) : Bool := attrNames.all fun name => match l.attr name with
  | none => true
  | some a => decide (RightType name a)

theorem typed_modified {lib : ClipperLib} {tan : ℚ} {o : Options} {ls layers : List Layer} (hmod : (standardModifiers lib tan o).foldlM (fun ls m => m ls) ls = .ok layers)
    (hpl : ∀ l ∈ ls, l.attrs = none) (hc : layers.all wellTyped = true) : ∀ l ∈ layers, Typed l := by
  simp only [standardModifiers, List.foldlM_cons, List.foldlM_nil, bind_ok, pure, Except.pure, Except.ok.injEq] at hmod
  obtain ⟨ls1, h1, ls2, h2, ls3, h3, ls4, h4, ls5, h5, ls6, h6, rfl⟩ := hmod
  have s : SameLayersBut attrNames ls ls6 :=
    ((C61_perimeter _ _ _ _ h1).mono (by decide)).trans (((C61_infill _ _ _ _ h2).mono (by decide)).trans (((C61_internal _ _ _ _ h3).mono (by decide)).trans
      (((C61_brim _ _ _ _ h4).mono (by decide)).trans (((C61_detector _ _ _ _ _ h5).mono (by decide)).trans ((C61_generator _ _ _ _ h6).mono (by decide))))))
  intro l hl name v hv
  by_cases hn : name ∈ attrNames
  · have := List.all_eq_true.1 (List.all_eq_true.1 hc l hl) name hn
    rw [hv] at this
    simpa using this
  · obtain ⟨i, hi, rfl⟩ := List.getElem_of_mem hl
    have hs := (List.forall₂_iff_get.1 s).2 i (by rw [s.length_eq]; exact hi) hi
    have := hs.2 name hn
    simp only [List.get_eq_getElem] at this
    rw [hv] at this
    have hil : i < ls.length := by rw [s.length_eq]; exact hi
    have hp := hpl (ls[i]'hil) (List.getElem_mem _)
    simp [Layer.attr, hp] at this

/-- The file format of the example: any content stands for the block, in millimetres. -/
noncomputable def blockExt : Externals where
  lib := twinLib
  stl := fun _ => blockMesh.map (Tri.map fun v => ((v.x : ℚ) / 1000, (v.y : ℚ) / 1000, (v.z : ℚ) / 1000))
  trig := fun _ => (0, 1)
  tan := 1

theorem block_stl : (blockExt.stl []).map stlTriangleToFace = blockMesh := by decide +kernel

/-- The block on the bed. -/
def blockFaces : List (Tri Vec3) := blockMesh.map (Tri.map fun v => ⟨v.x + 95000, v.y + 95000, v.z⟩)

/-- The block after the optimizer. -/
def blockOpt : OptModel :=
  ⟨[⟨⟨95000, 95000, 0⟩, [0, 1, 4, 5, 10]⟩, ⟨⟨95000, 105000, 0⟩, [0, 8, 10, 11]⟩, ⟨⟨105000, 105000, 0⟩, [0, 1, 6, 8, 9]⟩, ⟨⟨105000, 95000, 0⟩, [1, 4, 6, 7]⟩,
     ⟨⟨95000, 95000, 1100⟩, [2, 3, 5, 10, 11]⟩, ⟨⟨105000, 95000, 1100⟩, [2, 4, 5, 7]⟩, ⟨⟨105000, 105000, 1100⟩, [2, 3, 6, 7, 9]⟩, ⟨⟨95000, 105000, 1100⟩, [3, 8, 9, 11]⟩],
    [⟨⟨0, 1, 2⟩, ⟨10, 8, 1⟩⟩, ⟨⟨0, 2, 3⟩, ⟨0, 6, 4⟩⟩, ⟨⟨4, 5, 6⟩, ⟨5, 7, 3⟩⟩, ⟨⟨4, 6, 7⟩, ⟨2, 9, 11⟩⟩,
     ⟨⟨0, 3, 5⟩, ⟨1, 7, 5⟩⟩, ⟨⟨0, 5, 4⟩, ⟨4, 2, 10⟩⟩, ⟨⟨3, 2, 6⟩, ⟨1, 9, 7⟩⟩, ⟨⟨3, 6, 5⟩, ⟨6, 2, 4⟩⟩,
     ⟨⟨2, 1, 7⟩, ⟨0, 11, 9⟩⟩, ⟨⟨2, 7, 6⟩, ⟨8, 3, 6⟩⟩, ⟨⟨1, 0, 4⟩, ⟨0, 5, 11⟩⟩, ⟨⟨1, 4, 7⟩, ⟨10, 3, 8⟩⟩],
    ⟨10000, 10000, 1100⟩⟩

theorem block_opt : optimize blockOptions ((blockExt.stl []).map stlTriangleToFace) = .ok blockOpt := by
  rw [block_stl]
  decide +kernel

theorem block_faces : blockOpt.faces.mapM blockOpt.facePoints = .ok blockFaces := by decide +kernel

/-- The outline of the layers of the block. -/
def blockPart : LayerPart := ⟨[⟨105000, 95000⟩, ⟨105000, 105000⟩, ⟨95000, 105000⟩, ⟨95000, 95000⟩], []⟩

theorem block_sliced : (slice blockExt.lib blockOptions blockOpt).map (fun ls => ls.map Layer.parts) = .ok [[blockPart], [blockPart], [blockPart], [blockPart], [blockPart]] := by decide +kernel

theorem block_modified : ((slice blockExt.lib blockOptions blockOpt >>= fun ls => (standardModifiers blockExt.lib blockExt.tan blockOptions).foldlM (fun ls m => m ls) ls).map fun ls =>
    ls.all wellTyped) = .ok true := by decide +kernel

/-- What `WellSliced` needs of the segments of a layer, to be computed. -/
def goodSegments (o : Options) (om : OptModel) (n m : Nat) : Option SliceLayer → Bool
  | none => false
  | some layer => decide (layer.segments.Pairwise fun s s' => ¬ Within s.start s'.start (2 * o.slicing.meldDistance)) && (match makePolygons o om layer with
    | .ok paths => match paths.mapM (fun p => simplifyM p (-1) (-1)) with
      | .ok simple => decide (paths.map List.length = [n] ∧ simple.map List.length = [m])
      | .error _ => false
    | .error _ => false)

theorem block_segments : (sliceSegments blockOptions blockOpt).map (fun ls => (ls.length, ls.all (goodSegments blockOptions blockOpt 9 4))) = .ok (5, true) := by decide +kernel

theorem well_sliced {o : Options} {om : OptModel} {fs : List (Tri Vec3)} {segs : List (Option SliceLayer)} {n a b : Nat} (hn : n < segs.length) (hs : segs.all (goodSegments o om a b) = true)
    (htip : NoTip (heightOf o.print.initialLayerThickness o.print.layerThickness n) fs) : WellSliced o om fs segs (a - b) n := by
  have h := List.all_eq_true.1 hs segs[n] (List.getElem_mem _)
  unfold goodSegments at h
  split at h
  · cases h
  · rename_i layer hl
    rw [Bool.and_eq_true, decide_eq_true_eq] at h
    refine ⟨layer, by rw [List.getElem?_eq_getElem hn, hl], htip, starts_apart h.1, fun paths simple h1 h2 => ?_⟩
    have h := h.2
    rw [h1] at h
    simp only [h2, decide_eq_true_eq] at h
    obtain ⟨e1, e2⟩ := h
    obtain ⟨p, ps, rfl, l1, e1⟩ := List.map_eq_cons_iff.1 e1
    obtain ⟨r, rs, rfl, l2, e2⟩ := List.map_eq_cons_iff.1 e2
    rw [List.map_eq_nil_iff] at e1 e2
    subst e1 e2
    exact .cons (by omega) .nil

/-- A segment on one side of a point. -/
theorem farFrom_side {d : ℚ} (hd : 0 ≤ d) {a b q : ℚ × ℚ} (h : (q.1 + d < a.1 ∧ q.1 + d < b.1) ∨ (a.1 < q.1 - d ∧ b.1 < q.1 - d) ∨ (q.2 + d < a.2 ∧ q.2 + d < b.2) ∨ (a.2 < q.2 - d ∧ b.2 < q.2 - d)) :
    FarFrom d a b q := by
  intro t h0 h1
  have one : ∀ u v w : ℚ, w + d < u → w + d < v → d ^ 2 < (u + t * (v - u) - w) ^ 2 := by
    intro u v w hu hv
    have : d < u + t * (v - u) - w := by
      rcases eq_or_lt_of_le h0 with rfl | h0
      · linarith
      · nlinarith [mul_lt_mul_of_pos_left hv h0, mul_le_mul_of_nonneg_left hu.le (sub_nonneg.2 h1)]
    nlinarith
  have two : ∀ u v w : ℚ, u < w - d → v < w - d → d ^ 2 < (u + t * (v - u) - w) ^ 2 := by
    intro u v w hu hv
    have := one (-u) (-v) (-w) (by linarith) (by linarith)
    nlinarith
  rcases h with ⟨h1, h2⟩ | ⟨h1, h2⟩ | ⟨h1, h2⟩ | ⟨h1, h2⟩
  · nlinarith [one _ _ _ h1 h2, sq_nonneg (a.2 + t * (b.2 - a.2) - q.2)]
  · nlinarith [two _ _ _ h1 h2, sq_nonneg (a.2 + t * (b.2 - a.2) - q.2)]
  · nlinarith [one _ _ _ h1 h2, sq_nonneg (a.1 + t * (b.1 - a.1) - q.1)]
  · nlinarith [two _ _ _ h1 h2, sq_nonneg (a.1 + t * (b.1 - a.1) - q.1)]

theorem block_far : ∀ i < 5, FarFromSurface 4900 blockFaces (layerHeight blockOptions i) (100000, 100000) := by
  have h : ∀ i < 5, ∀ f ∈ blockFaces, ∀ s ∈ faceSides f, ∀ s' ∈ faceSides f, Down (layerHeight blockOptions i) s → Up (layerHeight blockOptions i) s' →
      (((100000 : ℚ) + 4900 < (meetPoint (layerHeight blockOptions i) s).1 ∧ (100000 : ℚ) + 4900 < (meetPoint (layerHeight blockOptions i) s').1) ∨
       ((meetPoint (layerHeight blockOptions i) s).1 < (100000 : ℚ) - 4900 ∧ (meetPoint (layerHeight blockOptions i) s').1 < (100000 : ℚ) - 4900) ∨
       ((100000 : ℚ) + 4900 < (meetPoint (layerHeight blockOptions i) s).2 ∧ (100000 : ℚ) + 4900 < (meetPoint (layerHeight blockOptions i) s').2) ∨
       ((meetPoint (layerHeight blockOptions i) s).2 < (100000 : ℚ) - 4900 ∧ (meetPoint (layerHeight blockOptions i) s').2 < (100000 : ℚ) - 4900)) := by
    unfold Down Up
    decide +kernel
  exact fun i hi f hf s hs s' hs' h1 h2 => farFrom_side (by norm_num) (h i hi f hf s hs s' hs' h1 h2)

theorem block_inside : ∀ i < 5, InsideSolid blockFaces (layerHeight blockOptions i) (100000, 100000) := by decide +kernel

theorem block_tip : ∀ i < 5, NoTip (heightOf blockOptions.print.initialLayerThickness blockOptions.print.layerThickness i) blockFaces := by decide +kernel

theorem block_distance : infillDistance blockOptions.printer.extrusionWidth blockOptions.print.infillPercent = .ok 2000 := by decide +kernel

theorem block_sensible : Sensible blockOptions where
  meld := by decide
  center := by decide
  thickness := by decide
  initial := by decide
  insets := by decide
  support := by decide
  width := by decide
  spacing := by decide +kernel
  percent := by decide

theorem block_moderate : Moderate blockOptions where
  width := by decide
  overlap := by decide
  brim := by decide
  skirt := by decide
  distance := by decide +kernel
  spacing := by decide +kernel

theorem block_depth (ps : List LayerPart) (D : ℚ) : solidDepth blockExt.lib blockOptions 0 5 ps D = D + 3627 := by
  unfold solidDepth sideDepth overlapReach
  rw [mul_zero]
  have e1 : (blockOptions.print.insetCount : ℚ) * blockOptions.printer.extrusionWidth = 800 := by decide +kernel
  have e2 : (blockOptions.printer.extrusionWidth : ℚ) * ((|100 - blockOptions.print.infillOverlapPercent| : Int) : ℚ) / 100 = 200 := by decide +kernel
  have e3 : (blockOptions.printer.extrusionWidth : ℚ) *
    ((|100 - (blockOptions.print.infillOverlapPercent + blockOptions.print.additionalInternalInfillOverlapPercent)| : Int) : ℚ) / 100 = 1400 := by decide +kernel
  rw [e1, e2, e3]
  norm_num
  ring

/-- Non-vacuity of `C121_program`: the middle of the block is filled in the first layer, which belongs to the bottom, and in the second one, which has internal infill. -/
example : ∃ t body m moves, gcodeOf blockExt blockOptions [] = .ok t ∧ t = startText blockOptions ++ body ++ endText blockOptions ∧ run body = some (m, moves) ∧
    PrintedNear moves 200 (400 / 2 + 9) (100000, 100000) ∧ PrintedNear moves 400 (2000 / 2 + 9) (100000, 100000) := by
  have hs := block_sliced
  have hm := block_modified
  have hg := block_segments
  cases h2 : slice blockExt.lib blockOptions blockOpt with
  | error e => rw [h2] at hs; cases hs
  | ok sliced =>
  rw [h2] at hs hm
  have hs : sliced.map Layer.parts = [[blockPart], [blockPart], [blockPart], [blockPart], [blockPart]] := Except.ok.inj hs
  simp only [bind, Except.bind] at hm
  cases h3 : (standardModifiers blockExt.lib blockExt.tan blockOptions).foldlM (fun ls m => m ls) sliced with
  | error e => rw [h3] at hm; cases hm
  | ok layers =>
  rw [h3] at hm
  have hty := typed_modified h3 (sliced_plain h2) (Except.ok.inj hm)
  have hlen : sliced.length = 5 := by simpa using congrArg List.length hs
  obtain ⟨lo, hlo⟩ : ∃ lo, blockOpt.min = .ok lo := by unfold OptModel.min; rw [block_faces]; exact ⟨_, rfl⟩
  obtain ⟨hi, hhi⟩ : ∃ hi, blockOpt.max = .ok hi := by unfold OptModel.max; rw [block_faces]; exact ⟨_, rfl⟩
  obtain ⟨t, ht⟩ := gcode_of_modified block_sensible twin_open (by rw [block_stl]; decide) block_opt h2 h3 hty hlo hhi
  obtain ⟨om, segs, sliced', k1, k2, k3, key⟩ := C121_program blockExt blockOptions [] t ht le_rfl twin_nothing twin_open twin_inside twin_sides turns_never block_moderate
    ⟨by decide, by decide, by decide, by decide, by decide⟩ (by decide) (by decide) (by decide) (by decide) (by decide) (by decide) (by decide) (by decide)
  rw [block_opt] at k1
  cases k1
  rw [h2] at k3
  cases k3
  rw [k2] at hg
  obtain ⟨g1, g2⟩ := Prod.mk.inj (Except.ok.inj hg)
  obtain ⟨body, m, moves, b1, b2, b3⟩ := key blockFaces block_faces (by decide +kernel) (by unfold SmallSurface; decide +kernel) (by rintro rfl; cases hlen)
  have hparts : ∀ (n : Nat) (l : Layer), sliced[n]? = some l → l.parts = [blockPart] := by
    intro n l hl
    have : l.parts ∈ sliced.map Layer.parts := List.mem_map_of_mem (List.mem_of_getElem? hl)
    rw [hs] at this
    simpa using this
  have hbed : ∀ (n : Nat) (l : Layer), sliced[n]? = some l → OnBed blockExt.lib blockOptions 0 l := by
    intro n l hl
    refine ⟨?_, by rw [mul_zero]; norm_num⟩
    rw [hparts n l hl]
    decide
  have hw : ∀ i, i < sliced.length → WellSliced blockOptions blockOpt blockFaces segs (9 - 4) i := fun i hi =>
    well_sliced (by rw [g1]; omega) g2 (block_tip i (by omega))
  have hb : blockOptions.print.numberBottomLayers.toNat = 1 := rfl
  have htop : blockOptions.print.numberTopLayers.toNat = 1 := rfl
  have hfin : (2 * ((max 0 blockOptions.slicing.finishPolygonSnapDistance : Int) : ℚ) + 2) ≤ 4900 := by decide +kernel
  have hfin0 : (0 : ℚ) ≤ 2 * ((max 0 blockOptions.slicing.finishPolygonSnapDistance : Int) : ℚ) + 2 := by decide +kernel
  have hwd : (blockOptions.printer.extrusionWidth : ℚ) = 400 := rfl
  have hzz : blockOptions.print.infillZigZag = false := rfl
  have all : ∀ n (hn : n < sliced.length), _ := fun n hn => b3 n sliced[n] (9 - 4) (List.getElem?_eq_getElem hn) (hbed n _ (List.getElem?_eq_getElem hn))
    (fun i l _ hl => by rw [hparts i l hl]; simp) (fun i _ _ hi => hw i hi) (100000, 100000) (block_inside n (by omega))
    (fun i _ _ hi => farFromSurface_mono (block_far i (by omega)) hfin0 hfin)
  have e0 : layerHeight blockOptions 0 = 200 := by decide
  have e1 : layerHeight blockOptions 1 = 400 := by decide
  refine ⟨t, body, m, moves, ht, b1, b2, ?_, ?_⟩
  · obtain ⟨h, -⟩ := all 0 (by omega)
    rw [e0, hwd] at h
    refine h (.inl (by rw [hb]; omega)) fun i _ _ hi => farFromSurface_mono (block_far i (by omega)) ?_ ?_ <;> rw [block_depth] <;> norm_num
  · obtain ⟨-, h⟩ := all 1 (by omega)
    obtain ⟨d, hd, h⟩ := h (by decide)
    rw [block_distance] at hd
    cases hd
    rw [e1, hzz] at h
    refine h (by norm_num) (by norm_num) ?_ fun i _ _ hi => farFromSurface_mono (block_far i (by omega)) ?_ ?_
    · rw [hb, htop, hlen]
      rintro (h | h | ⟨i, -, -, hi, hc⟩)
      · omega
      · omega
      · exact hc (block_inside i hi)
    all_goals rw [block_depth]; norm_num

end Verif
