import Verif.Props.Patches
import Verif.Props.MissingWhole
import Verif.Props.Command

/-! # C147: the print of a body with holes which are closed by several triangles -/
namespace Verif
open Verif.Go Verif.Model Verif.Spec Verif.Spec.GCode

theorem patchesWithin_mono {d e : ℚ} {z : Int} {patches : List (List (Tri Vec3))} (h : PatchesWithin d z patches) (hde : d ≤ e) : PatchesWithin e z patches :=
  fun P hP g hg g' hg' s hs s' hs' h1 h2 => (h P hP g hg g' hg' s hs s' hs' h1 h2).mono hde

theorem farFromSurface_append {D : ℚ} {gs fs : List (Tri Vec3)} {z : Int} {q : ℚ × ℚ} (h : FarFromSurface D (gs ++ fs) z q) : FarFromSurface D gs z q ∧ FarFromSurface D fs z q :=
  ⟨fun f hf => h f (List.mem_append_left _ hf), fun f hf => h f (List.mem_append_right _ hf)⟩

/-- The outlines of a layer, without those which are too short, are the cross-section of a body with the surface `T`, if they are so together with the short ones. Their corners are at the faces `ks`. -/
theorem slicedAs_of_outlines {o : Options} {om : OptModel} {fs ks T : List (Tri Vec3)} (hfs : om.faces.mapM om.facePoints = .ok fs) (hsmall : SmallSurface fs) (hks : ∀ f ∈ ks, f ∈ fs)
    (hfin : o.slicing.finishPolygonSnapDistance < 2 ^ 26 - 1) {segs : List (Option SliceLayer)} (h : sliceSegments o om = .ok segs) {k n : Nat}
    {layer : SliceLayer} (hn : segs[n]? = some (some layer)) {lib : ClipperLib} {tol : ℚ} (hk : KeepsSides lib tol) (h0 : 0 ≤ tol)
    {ls : List Layer} (hls : slice lib o om = .ok ls) {l : Layer} (hl : ls[n]? = some l) {lo hi : Vec3} (hlo : om.min = .ok lo) (hhi : om.max = .ok hi)
    {paths short : Paths} (hp : makePolygons o om layer = .ok paths) (hs : ∀ p ∈ short, pathLength p ≤ o.slicing.finishPolygonSnapDistance) {c N : Nat} (hcut : N + c ≤ k)
    (hT : ∀ D q, FarFromSurface D T (layerHeight o n) q → FarFromSurface D ks (layerHeight o n) q)
    (hinside : ∀ q, FarFromSurface (2 * max 0 o.slicing.finishPolygonSnapDistance + 2) T (layerHeight o n) q → (InsidePaths (paths ++ short) q ↔ InsideSolid T (layerHeight o n) q))
    (hfars : ∀ D q, 0 ≤ D → FarFromSurface (D + 5 * c + 2) T (layerHeight o n) q → ∀ p ∈ paths ++ short, FarFromPath D p q)
    (hon : ∀ p ∈ paths ++ short, ∀ x ∈ p, ∃ f ∈ ks, ∃ s ∈ faceSides f, (Down (layerHeight o n) s ∨ Up (layerHeight o n) s) ∧ OnSide (layerHeight o n) s x)
    (hlen : ∀ p ∈ paths ++ short, p.length ≤ N) : SlicedAs o tol T lo hi k n l.parts := by
  have hon' : ∀ p ∈ paths ++ short, ∀ x ∈ p, ∃ f ∈ fs, ∃ s ∈ faceSides f, (Down (layerHeight o n) s ∨ Up (layerHeight o n) s) ∧ OnSide (layerHeight o n) s x := by
    intro p hp x hx
    obtain ⟨f, hf, hx⟩ := hon p hp x hx
    exact ⟨f, hks f hf, hx⟩
  have hc0 : (0 : ℚ) ≤ 5 * c := by positivity
  have hcut0 : (0 : ℚ) ≤ 5 * N := by positivity
  have hck : 5 * (N : ℚ) + 5 * c ≤ 5 * k := by
    have : ((N + c : Nat) : ℚ) ≤ k := by exact_mod_cast hcut
    rw [Nat.cast_add] at this
    linarith
  have hD' : (0 : ℚ) ≤ ((max 0 o.slicing.finishPolygonSnapDistance : Int) : ℚ) := by exact_mod_cast le_max_left _ _
  constructor
  · intro D q hD hq hq2
    obtain ⟨simple, hsimple⟩ := simplify_all paths
    have hrem : Removed N paths simple := by
      have hl : ∀ p ∈ paths, p.length ≤ N := fun p hp => hlen p (List.mem_append_left _ hp)
      have hf := mapM_ok.1 hsimple
      clear * - hf hl
      unfold Removed
      induction hf with
      | nil => exact .nil
      | cons hab _ ih =>
        refine .cons ?_ (ih fun p hp => hl p (List.mem_cons_of_mem _ hp))
        have := hl _ List.mem_cons_self
        omega
    obtain ⟨h1, h2⟩ := simplified_paths (fun p hp x hx => onSide_small hsmall (hon' p (List.mem_append_left _ hp) x hx)) hsimple hrem (D := D + tol) (by linarith)
      fun p hp => hfars (D + tol + 5 * N) q (by linarith) (farFromSurface_mono hq (by linarith) (by linarith)) p (List.mem_append_left _ hp)
    have hreg : InsidePaths simple q ↔ InsideSolid T (layerHeight o n) q := by
      rw [h2, ← hinside q hq2, insidePaths_iff, insidePaths_iff, List.map_append, List.sum_append,
        short_zero hfin hs fun p hp x hx => far_corner (by linarith) (hT _ _ hq2) (hon p (List.mem_append_right _ hp) x hx), add_zero]
    rcases sliced_layer h hn hp hsimple hls hl with ⟨rfl, hparts⟩ | ⟨tree, htree, hparts⟩
    · rw [hparts]
      refine ⟨clear_nil, atMostOne_nil, ?_⟩
      rw [← hreg]
      simp [region_nil, InsidePaths]
    · rw [hparts]
      obtain ⟨k1, k2⟩ := hk.execute _ _ _ _ htree D q hD fun c hc => by
        simp only [List.append_nil] at hc
        obtain ⟨p, hpm, rfl⟩ := List.mem_map.1 hc
        rw [asPath_clipperPath]
        exact h1 p hpm
      refine ⟨fun p hp k hkm => k1 k ((polyTree_contours tree).mem_iff.1 (List.mem_flatMap.2 ⟨p, hp, hkm⟩)), by unfold AtMostOne; rw [partCount_polyTree, k2]; split <;> omega, ?_⟩
      rw [← hreg, region_polyTree, keepsSides_union hk _ _ htree q, evenOdd_enclosedBy]
      intro c hc
      obtain ⟨p, hpm, rfl⟩ := List.mem_map.1 hc
      rw [asPath_clipperPath]
      exact fun s hs t t0 t1 => lt_of_le_of_lt (by nlinarith) (h1 p hpm s hs t t0 t1)
  · intro D q hD hq hq2 hins
    have hbox : IsBox (vertices fs) lo hi := by
      simp only [OptModel.min, OptModel.max, hfs, bind, Except.bind] at hlo hhi
      exact mesh_box hlo hhi
    obtain ⟨p, hp, he⟩ := insidePaths_exists ((hinside q hq2).2 hins)
    exact inLimits_of_enclosed (fun x hx => onSide_box hbox (hon' p hp x hx)) hD he (hfars D q hD (farFromSurface_mono hq (by linarith) (by linarith)) p hp)

/-- The layers of a surface with holes which are not too wide are the cross-sections of the complete surface. -/
theorem slicedAs_patches {o : Options} {m : Mesh} {om : OptModel} (hom : optimize o m = .ok om) {fs : List (Tri Vec3)} {patches : List (List (Tri Vec3))} (hfs : om.faces.mapM om.facePoints = .ok fs)
    (hsmall : SmallSurface fs) (hmeld : 2 ≤ o.slicing.meldDistance) (hjoin : 2 ≤ o.slicing.joinPolygonSnapDistance) (hjs : o.slicing.joinPolygonSnapDistance < 2 ^ 26)
    (ht : 0 < o.print.layerThickness) (hfin : o.slicing.finishPolygonSnapDistance < 2 ^ 26 - 1) {segs : List (Option SliceLayer)} (h : sliceSegments o om = .ok segs) {k n : Nat}
    {layer : SliceLayer} (hn : segs[n]? = some (some layer)) (hg : GoodPatches o patches fs k n) {lib : ClipperLib} {tol : ℚ} (hk : KeepsSides lib tol) (h0 : 0 ≤ tol)
    {ls : List Layer} (hls : slice lib o om = .ok ls) {l : Layer} (hl : ls[n]? = some l)
    {lo hi : Vec3} (hlo : om.min = .ok lo) (hhi : om.max = .ok hi) : SlicedAs o tol (patches.flatten ++ fs) lo hi k n l.parts := by
  obtain ⟨hm, hW, c, hc, hcut⟩ := hg
  obtain ⟨hproper, -⟩ := C47_faces o m om hom fs hfs
  obtain ⟨paths, short, lost, hp, hs, -, hw, -, -, hin, hfar, hon, hlen⟩ :=
    C146_outlines o m om hom fs (patchGaps (layerHeight o n) patches) hfs hmeld hjoin hjs ht segs h n layer hn (patches_holes hm hproper)
  have hnarrow : Narrow (o.slicing.finishPolygonSnapDistance - 4) (layerHeight o n) (patchGaps (layerHeight o n) patches) := by
    rintro ⟨s, s'⟩ hg
    obtain ⟨P, hP, a1, ⟨g, hg, a2⟩, -, a4, ⟨g', hg', a5⟩, -⟩ := (mem_patchGaps hm (patch_facts hm hproper)).1 hg
    have hn := hW P hP g hg g' hg' _ a2 _ a5 (.inl ⟨a1.1, a1.2⟩) (.inr ⟨a4.1, a4.2⟩)
    rwa [meetPoint_swap (by unfold Up at a1; omega), meetPoint_swap (by unfold Down at a4; omega)] at hn
  obtain rfl := hw _ hnarrow (by linarith)
  simp only [List.append_nil] at hin hfar hon hlen
  have hc0 : (0 : ℚ) ≤ 5 * c := by positivity
  have hD' : (0 : ℚ) ≤ ((max 0 o.slicing.finishPolygonSnapDistance : Int) : ℚ) := by exact_mod_cast le_max_left _ _
  have hD'' : (o.slicing.finishPolygonSnapDistance : ℚ) ≤ ((max 0 o.slicing.finishPolygonSnapDistance : Int) : ℚ) := by exact_mod_cast le_max_right _ _
  have hW' : PatchesWithin ((max 0 o.slicing.finishPolygonSnapDistance : Int) : ℚ) (layerHeight o n) patches := patchesWithin_mono hW (by linarith)
  -- the points which are inside
  have hinside : ∀ q, FarFromSurface (2 * max 0 o.slicing.finishPolygonSnapDistance + 2) (patches.flatten ++ fs) (layerHeight o n) q →
      (InsidePaths (paths ++ short) q ↔ InsideSolid (patches.flatten ++ fs) (layerHeight o n) q) := by
    intro q hq
    obtain ⟨hq1, hq2⟩ := farFromSurface_append hq
    rw [← patches_inside hm hproper hW' (farFromSurface_mono hq1 hD' (by linarith))]
    exact hin q (farFromSurface_mono hq2 (by norm_num) (by linarith)) (patches_far hm hproper (by norm_num) hW' (farFromSurface_mono hq2 (by linarith) (by linarith)))
  -- the points which are far
  have hfars : ∀ D q, 0 ≤ D → FarFromSurface (D + 5 * c + 2) (patches.flatten ++ fs) (layerHeight o n) q → ∀ p ∈ paths ++ short, FarFromPath D p q := by
    intro D q hD hq
    obtain ⟨-, hq2⟩ := farFromSurface_append hq
    exact hfar D q hD (farFromSurface_mono hq2 (by linarith) (by linarith)) (patches_far hm hproper (by linarith) hc (farFromSurface_mono hq2 (by linarith) (by linarith)))
  exact slicedAs_of_outlines hfs hsmall (fun f hf => hf) hfin h hn hk h0 hls hl hlo hhi hp hs hcut (fun D q hq => (farFromSurface_append hq).2) hinside hfars hon hlen

/-- The patches where the model is placed. -/
theorem placed_patches (c : Vec3) (lo hi : Vec3) (patches : List Mesh) (m : Mesh) :
    placedBody c lo hi (patches.flatten ++ m) = (patches.map (placedBody c lo hi)).flatten ++ placedBody c lo hi m := by
  unfold placedBody
  rw [List.map_append, List.map_flatten]

/-- **C147** The print of a body with holes. The file has the triangles `m`; the triangles of the `patches` are missing, any number of them side by side. Where each patch leaves only one gap in the plane of a layer,
all points of a patch in this plane are within the finish snap distance (less 4 µm), and at most one gap is wider than the join distance (less 4 µm), the G-code prints the complete body, as in C137:
walls around it, its solid bottom and top, its infill, and nothing far outside. -/
theorem C147_program (ext : Externals) (o : Options) (content : Str) {tol : ℚ} (h0 : 0 ≤ tol) (hlib : GoodLibrary ext.lib tol) (htrig : TurnsBack ext.trig) (ho : UsualOptions o)
    (hjoin : 2 ≤ o.slicing.joinPolygonSnapDistance) (hjs : o.slicing.joinPolygonSnapDistance < 2 ^ 26)
    (patches : List Mesh) (m : Mesh) (hm : m = (ext.stl content).map stlTriangleToFace) (hsheet : IsSheet o.slicing.meldDistance m) {lo hi : Vec3} (hbox : IsBox (vertices m) lo hi)
    (hsmall : SmallBody o.printer.center lo hi) (harea : ((modelArea o.printer.center lo hi).grow (supportMargin o)).Small) (hheight : o.print.initialLayerThickness ≤ hi.z - lo.z) :
    ∃ t om sliced top, gcodeOf ext o content = .ok t ∧ optimize o m = .ok om ∧ slice ext.lib o om = .ok sliced ∧ sliced.length = top + 1 ∧
      layerHeight o top ≤ hi.z - lo.z ∧ hi.z - lo.z < layerHeight o (top + 1) ∧
      ∃ body mc moves, t = startText o ++ body ++ endText o ∧ run body = some (mc, moves) ∧
        EndIn ((modelArea o.printer.center lo hi).grow (printMargin o)) moves ∧
        ∀ w, (∀ l ∈ sliced, wallCount ext.lib o l.parts ≤ w) → (5 + w) * tol ≤ 9 * 10 ^ 4 →
          PrintsWhere (GoodPatches o (patches.map (placedBody o.printer.center lo hi)) (placedBody o.printer.center lo hi m)) o (placedBody o.printer.center lo hi (patches.flatten ++ m)) tol w top moves := by
  obtain ⟨t, om, sliced, top, ht, hom, hsl, hlen, ht1, ht2, body, mc, moves, hb1, hb2, hin, hprint⟩ :=
    program_prints ext o content h0 hlib htrig ho m hm hsheet hbox hsmall harea hheight
  refine ⟨t, om, sliced, top, ht, hom, hsl, hlen, ht1, ht2, body, mc, moves, hb1, hb2, hin, fun w hw htol => ?_⟩
  obtain ⟨lo', hi', hlo, hhi, hprint⟩ := hprint w hw htol
  obtain ⟨segs, hseg, -⟩ := bind_ok.1 hsl
  refine hprint _ _ fun k n l hn hg hl => ?_
  obtain ⟨layer, hlay⟩ := segments_exist hseg hsl (show n < sliced.length by omega)
  rw [placed_patches]
  exact slicedAs_patches hom (body_faces hsheet hbox hom) (smallSurface_placed hbox hsmall) ho.meld hjoin hjs ho.sensible.thickness ho.finish hseg hlay hg hlib.sides h0 hsl hl hlo hhi

/-- **C147** The support of a body with holes is printed like that of the complete one, below overhangs where the planes of all layers above leave no gap which is too wide. -/
theorem C147_support (ext : Externals) (o : Options) (content : Str) {tol : ℚ} (h0 : 0 ≤ tol) (h1 : tol ≤ 10 ^ 4) (hlib : GoodLibrary ext.lib tol) (htrig : TurnsBack ext.trig) (ho : UsualOptions o)
    (hjoin : 2 ≤ o.slicing.joinPolygonSnapDistance) (hjs : o.slicing.joinPolygonSnapDistance < 2 ^ 26)
    (patches : List Mesh) (m : Mesh) (hm : m = (ext.stl content).map stlTriangleToFace) (hsheet : IsSheet o.slicing.meldDistance m) {lo hi : Vec3} (hbox : IsBox (vertices m) lo hi)
    (hsmall : SmallBody o.printer.center lo hi) (hheight : o.print.initialLayerThickness ≤ hi.z - lo.z)
    (hen : o.print.support.enabled = true) (hfit : SupportFits ext.tan o)
    (hbed : -900000 ≤ ((modelArea o.printer.center lo hi).grow (supportMargin o)).minX ∧ ((modelArea o.printer.center lo hi).grow (supportMargin o)).maxX ≤ 900000 ∧
      -900000 ≤ ((modelArea o.printer.center lo hi).grow (supportMargin o)).minY ∧ ((modelArea o.printer.center lo hi).grow (supportMargin o)).maxY ≤ 900000)
    {t : Str} (ht : gcodeOf ext o content = .ok t) {top : Nat} (ht1 : layerHeight o top ≤ hi.z - lo.z) (ht2 : hi.z - lo.z < layerHeight o (top + 1)) :
    ∃ body mc moves, t = startText o ++ body ++ endText o ∧ run body = some (mc, moves) ∧
      PrintsSupportWhere (GoodPatches o (patches.map (placedBody o.printer.center lo hi)) (placedBody o.printer.center lo hi m)) o (placedBody o.printer.center lo hi (patches.flatten ++ m)) ext.tan tol top moves := by
  obtain ⟨om, sliced, lo', hi', body, mc, moves, hom, hsl, hlen, hlo, hhi, b1, b2, b3⟩ :=
    support_prints ext o content h0 h1 hlib htrig ho m hm hsheet hbox hsmall hheight hen hfit hbed ht ht1 ht2
  refine ⟨body, mc, moves, b1, b2, b3 _ _ fun k n l hn hg hl => ?_⟩
  obtain ⟨segs, hseg, -⟩ := bind_ok.1 hsl
  obtain ⟨layer, hlay⟩ := segments_exist hseg hsl (show n < sliced.length by omega)
  rw [placed_patches]
  exact slicedAs_patches hom (body_faces hsheet hbox hom) (smallSurface_placed hbox hsmall) ho.meld hjoin hjs ho.sensible.thickness ho.finish hseg hlay hg hlib.sides h0 hsl hl hlo hhi

end Verif
