import Verif.Props.Missing
import Verif.Props.Together

/-! # C140: the print of a body with missing triangles -/
namespace Verif
open Verif.Go Verif.Model Verif.Spec Verif.Spec.GCode

theorem simplify_all (ps : Paths) : ∃ simple, ps.mapM (fun p => simplifyM p (-1) (-1)) = .ok simple := by
  induction ps with
  | nil => exact ⟨[], rfl⟩
  | cons p ps ih =>
    obtain ⟨r, hr⟩ := ih
    obtain ⟨r', hr', -⟩ := C08_int64 p (-1) (-1)
    exact ⟨r' :: r, by rw [List.mapM_cons, hr', hr]; rfl⟩

/-- The layers of a surface with a gap which is not too wide are the cross-sections of the complete surface. -/
theorem slicedAs_missing {o : Options} {m : Mesh} {om : OptModel} (hom : optimize o m = .ok om) {fs gs : List (Tri Vec3)} (hfs : om.faces.mapM om.facePoints = .ok fs)
    (hsmall : SmallSurface fs) (hmeld : 2 ≤ o.slicing.meldDistance) (hjoin : 2 ≤ o.slicing.joinPolygonSnapDistance) (hjs : o.slicing.joinPolygonSnapDistance < 2 ^ 26)
    (ht : 0 < o.print.layerThickness) (hfin : o.slicing.finishPolygonSnapDistance < 2 ^ 26 - 1) {segs : List (Option SliceLayer)} (h : sliceSegments o om = .ok segs) {k n : Nat}
    {layer : SliceLayer} (hn : segs[n]? = some (some layer)) (hg : GoodGap o gs fs k n) {lib : ClipperLib} {tol : ℚ} (hk : KeepsSides lib tol) (h0 : 0 ≤ tol)
    {ls : List Layer} (hls : slice lib o om = .ok ls) {l : Layer} (hl : ls[n]? = some l)
    {lo hi : Vec3} (hlo : om.min = .ok lo) (hhi : om.max = .ok hi) : SlicedAs o tol (gs ++ fs) lo hi k n l.parts := by
  obtain ⟨hm, hgap, hcut⟩ := hg
  obtain ⟨paths, short, lost, hp, hs, -, hw, -, -, hin, hfar, hon, hlen⟩ := C139_outlines o m om hom fs gs hfs hmeld hjoin hjs ht segs h n layer hn hm
  obtain rfl := hw _ hgap (by linarith)
  simp only [List.append_nil] at hin hfar hon hlen
  have hk0 : (0 : ℚ) ≤ 5 * k := by positivity
  constructor
  · intro D q hD hq hq2
    obtain ⟨simple, hsimple⟩ := simplify_all paths
    have hrem : Removed k paths simple := by
      have hl : ∀ p ∈ paths, p.length ≤ k := fun p hp => (hlen p (List.mem_append_left _ hp)).trans hcut
      have hf := mapM_ok.1 hsimple
      clear * - hf hl
      unfold Removed
      induction hf with
      | nil => exact .nil
      | cons hab _ ih =>
        refine .cons ?_ (ih fun p hp => hl p (List.mem_cons_of_mem _ hp))
        have := hl _ List.mem_cons_self
        omega
    have hD' : (0 : ℚ) ≤ ((max 0 o.slicing.finishPolygonSnapDistance : Int) : ℚ) := by exact_mod_cast le_max_left _ _
    obtain ⟨h1, h2⟩ := simplified_paths (fun p hp x hx => onSide_small hsmall (hon p (List.mem_append_left _ hp) x hx)) hsimple hrem (D := D + tol) (by linarith)
      fun p hp => hfar (D + tol + 5 * k) q (by linarith) hq p (List.mem_append_left _ hp)
    have hreg : InsidePaths simple q ↔ InsideSolid (gs ++ fs) (layerHeight o n) q := by
      rw [h2, ← hin q (farFromSurface_mono hq2 (by norm_num) (by linarith)), insidePaths_iff, insidePaths_iff, List.map_append, List.sum_append,
        short_none hfin hs fun p hp => hfar _ q (by linarith) hq2 p (List.mem_append_right _ hp), add_zero]
    rcases sliced_layer h hn hp hsimple hls hl with ⟨rfl, hparts⟩ | ⟨tree, htree, hparts⟩
    · rw [hparts]
      refine ⟨clear_nil, atMostOne_nil, ?_⟩
      rw [← hreg]
      simp [region_nil, InsidePaths]
    · rw [hparts]
      obtain ⟨k1, k2⟩ := hk.execute _ _ _ _ htree D q hD fun c hc => by
        simp only [List.append_nil] at hc
        obtain ⟨p, hpm, rfl⟩ := List.mem_map.1 hc
        rw [asPath_clipperPath]
        exact h1 p hpm
      refine ⟨fun p hp k hkm => k1 k ((polyTree_contours tree).mem_iff.1 (List.mem_flatMap.2 ⟨p, hp, hkm⟩)), by unfold AtMostOne; rw [partCount_polyTree, k2]; split <;> omega, ?_⟩
      rw [← hreg, region_polyTree, keepsSides_union hk _ _ htree q, evenOdd_enclosedBy]
      intro c hc
      obtain ⟨p, hpm, rfl⟩ := List.mem_map.1 hc
      rw [asPath_clipperPath]
      exact fun s hs t t0 t1 => lt_of_le_of_lt (by nlinarith) (h1 p hpm s hs t t0 t1)
  · intro D q hD hq _ hins
    replace hq : FarFromSurface (D + 2) (gs ++ fs) (layerHeight o n) q := farFromSurface_mono hq (by linarith) (by linarith)
    have hbox : IsBox (vertices fs) lo hi := by
      simp only [OptModel.min, OptModel.max, hfs, bind, Except.bind] at hlo hhi
      exact mesh_box hlo hhi
    obtain ⟨p, hp, he⟩ := insidePaths_exists ((hin q (farFromSurface_mono hq (by norm_num) (by linarith))).2 hins)
    exact inLimits_of_enclosed (fun x hx => onSide_box hbox (hon p hp x hx)) hD he (hfar D q hD hq p hp)

/-- **C140** The print of a body with missing triangles. The file has the triangles `m`; `gap` are the missing ones. Where the plane of a layer cuts no two of them side by side, and so that no gap is wider than the
finish snap distance (less 4 µm) and at most one is wider than the join distance (less 4 µm), the G-code prints the complete body, as in C137: walls around it, its solid bottom and top, its infill, and nothing far outside. -/
theorem C140_program (ext : Externals) (o : Options) (content : Str) {tol : ℚ} (h0 : 0 ≤ tol) (hlib : GoodLibrary ext.lib tol) (htrig : TurnsBack ext.trig) (ho : UsualOptions o)
    (hjoin : 2 ≤ o.slicing.joinPolygonSnapDistance) (hjs : o.slicing.joinPolygonSnapDistance < 2 ^ 26)
    (gap m : Mesh) (hm : m = (ext.stl content).map stlTriangleToFace) (hsheet : IsSheet o.slicing.meldDistance m) {lo hi : Vec3} (hbox : IsBox (vertices m) lo hi)
    (hsmall : SmallBody o.printer.center lo hi) (harea : ((modelArea o.printer.center lo hi).grow (supportMargin o)).Small) (hheight : o.print.initialLayerThickness ≤ hi.z - lo.z) :
    ∃ t om sliced top, gcodeOf ext o content = .ok t ∧ optimize o m = .ok om ∧ slice ext.lib o om = .ok sliced ∧ sliced.length = top + 1 ∧
      layerHeight o top ≤ hi.z - lo.z ∧ hi.z - lo.z < layerHeight o (top + 1) ∧
      ∃ body mc moves, t = startText o ++ body ++ endText o ∧ run body = some (mc, moves) ∧
        EndIn ((modelArea o.printer.center lo hi).grow (printMargin o)) moves ∧
        ∀ w, (∀ l ∈ sliced, wallCount ext.lib o l.parts ≤ w) → (5 + w) * tol ≤ 9 * 10 ^ 4 →
          PrintsWhere (GoodGap o (placedBody o.printer.center lo hi gap) (placedBody o.printer.center lo hi m)) o (placedBody o.printer.center lo hi (gap ++ m)) tol w top moves := by
  obtain ⟨t, om, sliced, top, ht, hom, hsl, hlen, ht1, ht2, body, mc, moves, hb1, hb2, hin, hprint⟩ :=
    program_prints ext o content h0 hlib htrig ho m hm hsheet hbox hsmall harea hheight
  refine ⟨t, om, sliced, top, ht, hom, hsl, hlen, ht1, ht2, body, mc, moves, hb1, hb2, hin, fun w hw htol => ?_⟩
  obtain ⟨lo', hi', hlo, hhi, hprint⟩ := hprint w hw htol
  obtain ⟨segs, hseg, -⟩ := bind_ok.1 hsl
  refine hprint _ _ fun k n l hn hg hl => ?_
  obtain ⟨layer, hlay⟩ := segments_exist hseg hsl (show n < sliced.length by omega)
  rw [show placedBody o.printer.center lo hi (gap ++ m) = placedBody o.printer.center lo hi gap ++ placedBody o.printer.center lo hi m from List.map_append]
  exact slicedAs_missing hom (body_faces hsheet hbox hom) (smallSurface_placed hbox hsmall) ho.meld hjoin hjs ho.sensible.thickness ho.finish hseg hlay hg hlib.sides h0 hsl hl hlo hhi

end Verif
