import Verif.Spec.Together
import Verif.Props.SidesWhole

/-! # Planes which cut the surface well (for C137) -/
namespace Verif
open Verif.Go Verif.Model Verif.Spec

/-- The segments of a layer whose plane cuts the surface well can be joined in only one way. -/
theorem follows_once {o : Options} {m : Mesh} {om : OptModel} (hom : optimize o m = .ok om) {fs : List (Tri Vec3)} (hfs : om.faces.mapM om.facePoints = .ok fs)
    (hclosed : ClosedSurface fs) (ht : 0 < o.print.layerThickness) {segs : List (Option SliceLayer)} (h : sliceSegments o om = .ok segs) {n : Nat} {layer : SliceLayer}
    (hn : segs[n]? = some (some layer)) (hspread : SpreadOut (o.slicing.meldDistance + 4) (heightOf o.print.initialLayerThickness o.print.layerThickness n) fs)
    (a b b' : Nat) (hb : Spec.Follows o.slicing.meldDistance om layer a b) (hb' : Spec.Follows o.slicing.meldDistance om layer a b') : b = b' := by
  obtain ⟨-, h2, h3⟩ := C53_segments o om segs h ht fs hfs n layer hn
  obtain ⟨hproper, -⟩ := C47_faces o m om hom fs hfs
  generalize heightOf o.print.initialLayerThickness o.print.layerThickness n = z at *
  obtain ⟨s, s1, -, hs, hs1, -, -, hw1⟩ := hb
  obtain ⟨s0, s2, -, hs0, hs2, -, -, hw2⟩ := hb'
  rw [hs] at hs0
  cases hs0
  obtain ⟨f, d, u, hf, hd, hu, hdd, huu, -, hoe⟩ := h2 s (List.mem_of_getElem? hs)
  obtain ⟨j, g, hji, hgj, hgs, honly⟩ := hclosed _ f u hf hu
  have key : ∀ (k : Nat) (s' : SliceSegment), layer.segments[k]? = some s' → Within s.finish s'.start o.slicing.meldDistance → layer.faceToSegmentIndex j = some k := by
    intro k s' hk hw
    obtain ⟨g', d', u', hg', hd', hu', hdd', huu', hos', -⟩ := h2 s' (List.mem_of_getElem? hk)
    have hnear : NearPt (o.slicing.meldDistance + 4) (meetPoint z u) (meetPoint z d') := by
      have e1 := (near_of_onSide hoe).symm
      have e2 := near_of_onSide hos'
      have e3 : NearPt o.slicing.meldDistance (exactPt s.finish) (exactPt s'.start) := by
        refine ⟨by exact_mod_cast hw.1, ?_⟩
        simp only [exactPt]
        exact_mod_cast hw.2
      exact ((e1.trans e3).trans e2).mono (by linarith)
    have hsw : d' = u.swap := by
      by_contra hne
      exact hspread f (List.mem_of_getElem? hf) g' (List.mem_of_getElem? hg') u (isSide_iff.2 hu) d' (isSide_iff.2 hd') huu hdd' hne hnear
    subst hsw
    have hside := isSide_hasSide hd'
    rcases honly _ g' hg' ⟨hside.2, hside.1⟩ with e | e
    · exfalso
      rw [e, hf] at hg'
      cases hg'
      exact isSide_not_both (hproper _ (List.mem_of_getElem? hf)) hu hd'
    · exact (h3 j k).2 (by rw [hk, ← e]; rfl)
  have k1 := key b s1 hs1 hw1
  have k2 := key b' s2 hs2 hw2
  rw [k1, Option.some.injEq] at k2
  exact k2

/-- There is one segment for each face which the plane of the layer cuts. -/
theorem segments_cut {o : Options} {om : OptModel} {fs : List (Tri Vec3)} (hfs : om.faces.mapM om.facePoints = .ok fs) (ht : 0 < o.print.layerThickness) {segs : List (Option SliceLayer)}
    (h : sliceSegments o om = .ok segs) {n : Nat} {layer : SliceLayer} (hn : segs[n]? = some (some layer)) :
    layer.segments.length = cutFaces (heightOf o.print.initialLayerThickness o.print.layerThickness n) fs := by
  obtain ⟨h1, -⟩ := C53_segments o om segs h ht fs hfs n layer hn
  rw [← List.length_map (f := SliceSegment.faceIndex), h1, ← List.countP_eq_length_filter]
  unfold cutFaces
  generalize (fun f => decide (Crosses (heightOf o.print.initialLayerThickness o.print.layerThickness n) f)) = P
  clear * -
  induction fs using List.reverseRecOn with
  | nil => rfl
  | append_singleton xs x ih =>
    rw [List.length_append, List.length_singleton, List.range_succ, List.countP_append, List.countP_append, ← ih]
    congr 1
    · refine List.countP_congr fun i hi => ?_
      rw [List.getElem?_append_left (List.mem_range.1 hi)]
    · simp

/-- The outlines of a layer have at most one point more than there are segments. -/
theorem outlines_length {o : Options} {m : Mesh} {om : OptModel} (hom : optimize o m = .ok om) {fs : List (Tri Vec3)} (hfs : om.faces.mapM om.facePoints = .ok fs)
    (hclosed : ClosedSurface fs) (hmeld : 2 ≤ o.slicing.meldDistance) (ht : 0 < o.print.layerThickness) {segs : List (Option SliceLayer)} (h : sliceSegments o om = .ok segs) {n : Nat}
    {layer : SliceLayer} (hn : segs[n]? = some (some layer)) (hw : CutsWell o (heightOf o.print.initialLayerThickness o.print.layerThickness n) fs) {paths : Paths}
    (hp : makePolygons o om layer = .ok paths) : ∀ p ∈ paths, p.length ≤ cutFaces (heightOf o.print.initialLayerThickness o.print.layerThickness n) fs + 1 := by
  obtain ⟨σ, hσ⟩ := C56_cycles o m om hom fs hfs hclosed hmeld ht segs h n layer hn hw.1
  obtain ⟨chains, hperm, -, hpaths⟩ := C56_outlines o om layer (goodLayer_of h ht hn) σ fun a b =>
    ⟨fun hf => follows_once hom hfs hclosed ht h hn hw.2 a b (σ a) hf (hσ a), by rintro rfl; exact hσ a⟩
  rw [hp] at hpaths
  obtain rfl := Except.ok.inj hpaths
  have hlen := segments_cut hfs ht h hn
  intro p hpm
  obtain ⟨c, hc, rfl⟩ := List.mem_map.1 (List.mem_filter.1 hpm).1
  have e1 : (pathOf (segmentsOf layer c)).length ≤ (segmentsOf layer c).length + 1 := by
    cases segmentsOf layer c with
    | nil => simp [pathOf]
    | cons x xs => simp [pathOf]
  have e2 : (segmentsOf layer c).length ≤ c.length := List.length_filterMap_le _ _
  have e3 : c.length ≤ chains.flatten.length := (List.sublist_flatten_of_mem hc).length_le
  have e4 := hperm.length_eq
  rw [List.length_range] at e4
  omega

/-- A layer whose plane cuts the surface well is sliced well. `Simplify` removes at most as many points as there are cut faces (and one). -/
theorem cutsWell_sliced {o : Options} {m : Mesh} {om : OptModel} (hom : optimize o m = .ok om) {fs : List (Tri Vec3)} (hfs : om.faces.mapM om.facePoints = .ok fs)
    (hclosed : ClosedSurface fs) (hmeld : 2 ≤ o.slicing.meldDistance) (ht : 0 < o.print.layerThickness) {segs : List (Option SliceLayer)} (h : sliceSegments o om = .ok segs) {n : Nat}
    {layer : SliceLayer} (hn : segs[n]? = some (some layer)) (hw : CutsWell o (heightOf o.print.initialLayerThickness o.print.layerThickness n) fs) {k : Nat}
    (hk : cutFaces (heightOf o.print.initialLayerThickness o.print.layerThickness n) fs < k) : WellSliced o om fs segs k n := by
  refine ⟨layer, hn, hw.1, follows_once hom hfs hclosed ht h hn hw.2, fun paths simple hp hs => ?_⟩
  have hlen := outlines_length hom hfs hclosed hmeld ht h hn hw hp
  have hf := mapM_ok.1 hs
  clear hs hp
  unfold Removed
  induction hf with
  | nil => exact .nil
  | cons hab _ ih =>
    refine .cons ?_ (ih fun p hp => hlen p (List.mem_cons_of_mem _ hp))
    have := hlen _ List.mem_cons_self
    omega

end Verif
