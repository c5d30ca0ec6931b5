import Verif.Props.ThinnedSide
import Verif.Props.SidesWhole

/-! # The walls are closed (C122) -/
namespace Verif
open Verif.Go Verif.Model Verif.Spec Verif.Spec.GCode

section
variable {lib : ClipperLib} {o : Options} {tol : ℚ} {x y : ℚ × ℚ}

/-- How far wall number `j` is inside of the outlines. -/
def wallInset (o : Options) (j : Nat) : Int := o.printer.extrusionWidth / 2 + j * o.printer.extrusionWidth

/-- The areas whose contours are wall number `j`. -/
def wallParts (lib : ClipperLib) (o : Options) (parts : List LayerPart) (j : Nat) : List LayerPart := parts.flatMap fun p => lib.inset1 p (-((wallInset o j : Int) : ℚ))

theorem wallParts_mem (hw : 0 < o.printer.extrusionWidth) (hw' : o.printer.extrusionWidth < 2 ^ 31) (hc : o.print.insetCount < 2 ^ 20) {parts : List LayerPart} {j : Nat}
    (hj : (j : Int) < o.print.insetCount) {p : LayerPart} (hp : p ∈ wallParts lib o parts j) : p ∈ (perimetersOf lib o parts).flatten.flatten := by
  obtain ⟨part, hpart, hp⟩ := List.mem_flatMap.1 hp
  have h := C39_perimeters lib part o.printer.extrusionWidth o.print.insetCount hw hw' hc j hj
  have e : ((-(o.printer.extrusionWidth / 2) - j * o.printer.extrusionWidth : Int) : ℚ) = -((wallInset o j : Int) : ℚ) := by unfold wallInset; push_cast; ring
  rw [e] at h
  exact List.mem_flatten.2 ⟨_, List.mem_flatten.2 ⟨_, List.mem_map.2 ⟨part, hpart, rfl⟩, List.mem_of_getElem? h⟩, hp⟩

theorem wallParts_sides (hk : KeepsSides lib tol) (hw : 0 < o.printer.extrusionWidth) {parts : List LayerPart} (harea : ∀ p ∈ parts, LibArea lib (partContours p)) {j : Nat} {D : ℚ}
    (hD : 0 ≤ D) (hx : Clear (D + 3 / 2 * wallInset o j + tol) parts x) : Alike D parts (wallParts lib o parts j) x := by
  refine alike_flatMap fun p hp => inset1_sides hk hD (harea p hp) ?_
  have h0 : (0 : ℚ) ≤ wallInset o j := by
    have : 0 ≤ wallInset o j := by unfold wallInset; have := mul_nonneg (Int.natCast_nonneg j) hw.le; omega
    exact_mod_cast this
  rw [abs_neg, abs_of_nonneg h0]
  exact hx.single hp

/-- If a region contains only one of two points, then a contour encloses only one of them. -/
theorem contour_between {cs : List (List IntPoint)} (hx : x ∈ evenOdd enclosedBy cs) (hy : y ∉ evenOdd enclosedBy cs) :
    ∃ c ∈ cs, ¬(Encloses (asPath c) x ↔ Encloses (asPath c) y) := by
  classical
  by_contra hno
  push Not at hno
  refine hy ?_
  have : crossings enclosedBy cs x = crossings enclosedBy cs y := by
    unfold crossings
    refine List.countP_congr fun c hc => ?_
    simp only [decide_eq_true_eq]
    exact hno c hc
  unfold evenOdd at hx ⊢
  rw [Set.mem_ofPred_eq] at hx ⊢
  rw [← this]
  exact hx

/-- **C122** Every way from a point inside of a layer to a point outside crosses what is drawn of each of the walls. -/
theorem C122_layer (hk : KeepsSides lib tol) (hw : 0 < o.printer.extrusionWidth) {parts : List LayerPart} (harea : ∀ p ∈ parts, LibArea lib (partContours p)) {j : Nat}
    (hsmall : ∀ p ∈ wallParts lib o parts j, ∀ c ∈ p.holes ++ [p.outline], SmallPath c)
    (hx : Clear (138 + 3 / 2 * wallInset o j + tol) parts x) (hy : Clear (138 + 3 / 2 * wallInset o j + tol) parts y) (hxin : x ∈ region enclosedBy parts)
    (hyout : y ∉ region enclosedBy parts) {way : List (ℚ × ℚ)} (hway : WayFrom x y way) :
    ∃ z, OnWay way z ∧ ∃ p ∈ wallParts lib o parts j, ∃ c ∈ p.holes ++ [p.outline], ∃ s ∈ sidesOf (douglasPeuckerM c (-1)), s.1 ≠ s.2 ∧ OnSegment (exactPt s.1) (exactPt s.2) z := by
  have ax := wallParts_sides hk hw harea (by norm_num) hx
  have ay := wallParts_sides hk hw harea (by norm_num) hy
  obtain ⟨k, hkm, hne⟩ := contour_between (ax.region.2 hxin) (fun h => hyout (ay.region.1 h))
  obtain ⟨p, hp, hkp⟩ := List.mem_flatMap.1 hkm
  obtain ⟨c, hc, rfl⟩ := List.mem_map.1 hkp
  have hcp : asPath (c.map fun q => (⟨q.x, q.y⟩ : IntPoint)) = c := asPath_clipperPath c
  have hc' : c ∈ p.holes ++ [p.outline] := by
    simp only [List.mem_append, List.mem_cons, List.not_mem_nil, or_false] at hc ⊢
    exact hc.symm
  have fx := ax.1 p hp _ hkp
  have fy := ay.1 p hp _ hkp
  rw [hcp] at hne fx fy
  have hs := hsmall p hp c hc'
  obtain ⟨z, hz, s, hs1, hs2, hs3⟩ := way_meets (p := douglasPeuckerM c (-1)) hway (by rw [drawn_encloses hs fx, drawn_encloses hs fy]; exact hne)
  exact ⟨z, hz, p, hp, c, hc', s, hs1, hs2, hs3⟩

end

/-- The distance from the surface at which a point is on the side of wall number `j` where it should be; `Simplify` removes at most `k` points of an outline. -/
def wallDepth (o : Options) (tol : ℚ) (k j : Nat) : ℚ := 3 / 2 * (o.printer.extrusionWidth / 2 + j * o.printer.extrusionWidth) + 2 * tol + 5 * k + 140

/-- **C122** for any surface of which the layer is the cross-section. The walls are closed. In the G-code of the program, every way in the plane of a layer, from a point inside of the solid to a point outside of it, both not near to the surface, comes
within 8 µm of an extruding move at the height of the layer. This is so for each of the walls: the point where wall number `j` (from 0) is met is not nearer to the outside of the solid than
its inset, up to 69 µm and the tolerance of the library. -/
theorem C122_sliced (ext : Externals) (o : Options) (content t : Str) (h : gcodeOf ext o content = .ok t) {tol : ℚ} (h0 : 0 ≤ tol)
    (hsides : KeepsSides ext.lib tol) (hinsets : InsetsKeep enclosedBy ext.lib tol)
    (ho : Extrudes o) (hw' : o.printer.extrusionWidth < 2 ^ 31) (hi : 1 ≤ o.print.insetCount) (hc : o.print.insetCount < 2 ^ 20) :
    ∃ om sliced, optimize o ((ext.stl content).map stlTriangleToFace) = .ok om ∧ slice ext.lib o om = .ok sliced ∧ (sliced ≠ [] →
      ∃ body m moves, t = startText o ++ body ++ endText o ∧ run body = some (m, moves) ∧
        ∀ fs lo hi n sl k, sliced[n]? = some sl → SlicedAs o tol fs lo hi k n sl.parts →
          (∀ p ∈ (perimetersOf ext.lib o sl.parts).flatten.flatten, ∀ c ∈ p.holes ++ [p.outline], Ordinary c) →
          ∀ x y way, WayFrom x y way → InsideSolid fs (layerHeight o n) x → ¬ InsideSolid fs (layerHeight o n) y →
          (∀ q ∈ [x, y], FarFromSurface (2 * max 0 o.slicing.finishPolygonSnapDistance + 2) fs (layerHeight o n) q) →
          ∀ j : Nat, j < o.print.insetCount → (∀ q ∈ [x, y], FarFromSurface (wallDepth o tol k j) fs (layerHeight o n) q) →
          ∃ z, OnWay way z ∧ PrintedNear moves (layerHeight o n) 8 z ∧
            ∀ q, ¬ InsideSolid fs (layerHeight o n) q → FarFromSurface (tol + 5 * k + 2) fs (layerHeight o n) q →
              FarFromSurface (2 * max 0 o.slicing.finishPolygonSnapDistance + 2) fs (layerHeight o n) q →
              Apart (((o.printer.extrusionWidth / 2 + j * o.printer.extrusionWidth : Int) : ℚ) - tol - 69) z q) := by
  obtain ⟨om, sliced, layers, pt, g0, h1, h2, h3, h4, h5⟩ := gcodeOf_steps h
  refine ⟨om, sliced, h1, h2, fun hne => ?_⟩
  have hparts := C61_parts ext.lib ext.tan o _ (fun m hm => hm) sliced layers h3
  obtain ⟨body, m, moves, b1, b2, b3⟩ := C111_printed ho (by
    rintro rfl
    exact hne (by simpa using hparts.symm)) h5
  refine ⟨body, m, moves, b1, b2, fun fs lo hi' n sl k hsl hwell hord x y way hway hx hy hfin2 j hj hfar => ?_⟩
  have hw0 : 0 < o.printer.extrusionWidth := by have := ho.width; omega
  have hk0 : (0 : ℚ) ≤ 5 * k := by positivity
  have hsl' := fun {D : ℚ} (hD : 0 ≤ D) {q : ℚ × ℚ} => hwell.sides hD (q := q)
  have hin0 : 0 ≤ wallInset o j := by unfold wallInset; have := mul_nonneg (Int.natCast_nonneg j) hw0.le; omega
  have hinq : (wallInset o j : ℚ) ≤ o.printer.extrusionWidth / 2 + j * o.printer.extrusionWidth := by
    unfold wallInset
    push_cast
    have : 2 * (o.printer.extrusionWidth / 2 : Int) ≤ o.printer.extrusionWidth := Int.mul_ediv_self_le (by norm_num)
    have : 2 * ((o.printer.extrusionWidth / 2 : Int) : ℚ) ≤ o.printer.extrusionWidth := by exact_mod_cast this
    linarith
  have hin0' : (0 : ℚ) ≤ wallInset o j := by exact_mod_cast hin0
  have hdepth : 0 ≤ 138 + 3 / 2 * (wallInset o j : ℚ) + tol := by linarith
  have depth : ∀ q ∈ [x, y], FarFromSurface (138 + 3 / 2 * (wallInset o j : ℚ) + tol + tol + 5 * k + 2) fs (layerHeight o n) q := fun q hq =>
    farFromSurface_mono (hfar q hq) (by linarith) (by unfold wallDepth; linarith)
  obtain ⟨cx, -, rx⟩ := hsl' hdepth (depth x (by simp)) (hfin2 x (by simp))
  obtain ⟨cy, -, ry⟩ := hsl' hdepth (depth y (by simp)) (hfin2 y (by simp))
  have hmem : ∀ p ∈ wallParts ext.lib o sl.parts j, p ∈ (perimetersOf ext.lib o sl.parts).flatten.flatten := fun p hp => wallParts_mem hw0 hw' hc hj hp
  have harea := sliced_areas h2 sl (List.mem_of_getElem? hsl)
  obtain ⟨z, hz, p, hp, c, hcm, s, s1, s2, s3⟩ := C122_layer hsides hw0 harea (fun p hp c hc => (hord p (hmem p hp) c hc).small) cx cy (rx.2 hx) (fun h => hy (ry.1 h)) hway
  refine ⟨z, hz, ?_, fun q hq hq1 hq2 => ?_⟩
  · -- the line is printed
    obtain ⟨l, hl⟩ : ∃ l, layers[n]? = some l := by
      have hle : layers.length = sliced.length := by simpa using congrArg List.length hparts
      exact ⟨_, List.getElem?_eq_getElem (by rw [hle]; exact (List.getElem?_eq_some_iff.1 hsl).1)⟩
    obtain ⟨sl', hsl2, -, hper⟩ := final_perimeters hi h3 n l hl
    rw [hsl] at hsl2
    cases hsl2
    obtain ⟨⟨walls, hwalls, hprint⟩, -⟩ := b3 n l hl
    rw [hper] at hwalls
    cases hwalls
    have ord := (hord p (hmem p hp) c hcm).near
    have hsub : ∀ q ∈ douglasPeuckerM c (-1), q ∈ c := fun q hq => (C05_int64_subsequence c (-1)).subset hq
    have m1 := ord _ (hsub _ (List.of_mem_zip s1).1)
    have m2 := ord _ (hsub _ (by have := (List.of_mem_zip s1).2; exact List.mem_rotate.1 this))
    obtain ⟨i, before, line, p1, p2, p3, p4, p5, p6⟩ := hprint p (hmem p hp) c hcm s.1 s.2 (by rw [pathLines_sides]; exact s1) s2
      ((abs_sub _ _).trans (by linarith [m1.1, m2.1])) ((abs_sub _ _).trans (by linarith [m1.2, m2.2]))
    obtain ⟨w, hw1, hw2⟩ := near_passes p3 p6 m1.1 m1.2 m2.1 m2.2 s3
    exact ⟨i, before, line, p1, p2, p4, p5, p3.2.2, p6.2.2, w, hw1, hw2.mono (by norm_num)⟩
  · -- it keeps its distance
    obtain ⟨part, hpart, hp⟩ := List.mem_flatMap.1 hp
    obtain ⟨-, aq, rq⟩ := hsl' le_rfl (q := q) (by rw [zero_add]; exact hq1) hq2
    have hqp : q ∉ region enclosedBy [part] := fun hin => hq (rq.1 (mem_region_of_atMostOne aq hpart hin))
    exact C113_inset hinsets part (harea part hpart) hin0' hp hcm (hord p (hmem p (List.mem_flatMap.2 ⟨part, hpart, hp⟩)) c hcm).small
      ⟨s.1, s.2, by rw [pathLines_sides]; exact s1, s3⟩ hqp

/-- **C122** The walls are closed. In the G-code of the program, every way in the plane of a layer, from a point inside of the solid to a point outside of it, both not near to the surface, comes
within 8 µm of an extruding move at the height of the layer. This is so for each of the walls: the point where wall number `j` (from 0) is met is not nearer to the outside of the solid than
its inset, up to 69 µm and the tolerance of the library. -/
theorem C122_program (ext : Externals) (o : Options) (content t : Str) (h : gcodeOf ext o content = .ok t) {tol : ℚ} (h0 : 0 ≤ tol)
    (hsides : KeepsSides ext.lib tol) (hinsets : InsetsKeep enclosedBy ext.lib tol)
    (ho : Extrudes o) (hmeld : 2 ≤ o.slicing.meldDistance) (ht : 0 < o.print.layerThickness)
    (hfin : o.slicing.finishPolygonSnapDistance < 2 ^ 26 - 1) (hw' : o.printer.extrusionWidth < 2 ^ 31) (hi : 1 ≤ o.print.insetCount) (hc : o.print.insetCount < 2 ^ 20) :
    ∃ om segs sliced, optimize o ((ext.stl content).map stlTriangleToFace) = .ok om ∧ sliceSegments o om = .ok segs ∧ slice ext.lib o om = .ok sliced ∧
      ∀ fs, om.faces.mapM om.facePoints = .ok fs → ClosedSurface fs → SmallSurface fs → sliced ≠ [] →
      ∃ body m moves, t = startText o ++ body ++ endText o ∧ run body = some (m, moves) ∧
        ∀ n sl k, sliced[n]? = some sl → WellSliced o om fs segs k n →
          (∀ p ∈ (perimetersOf ext.lib o sl.parts).flatten.flatten, ∀ c ∈ p.holes ++ [p.outline], Ordinary c) →
          ∀ x y way, WayFrom x y way → InsideSolid fs (layerHeight o n) x → ¬ InsideSolid fs (layerHeight o n) y →
          (∀ q ∈ [x, y], FarFromSurface (2 * max 0 o.slicing.finishPolygonSnapDistance + 2) fs (layerHeight o n) q) →
          ∀ j : Nat, j < o.print.insetCount → (∀ q ∈ [x, y], FarFromSurface (wallDepth o tol k j) fs (layerHeight o n) q) →
          ∃ z, OnWay way z ∧ PrintedNear moves (layerHeight o n) 8 z ∧
            ∀ q, ¬ InsideSolid fs (layerHeight o n) q → FarFromSurface (tol + 5 * k + 2) fs (layerHeight o n) q →
              FarFromSurface (2 * max 0 o.slicing.finishPolygonSnapDistance + 2) fs (layerHeight o n) q →
              Apart (((o.printer.extrusionWidth / 2 + j * o.printer.extrusionWidth : Int) : ℚ) - tol - 69) z q := by
  obtain ⟨om, sliced, e1, e2, e3⟩ := C122_sliced ext o content t h h0 hsides hinsets ho hw' hi hc
  obtain ⟨segs, hsegs, -⟩ := bind_ok.1 e2
  refine ⟨om, segs, sliced, e1, hsegs, e2, fun fs hfs hclosed hsmall hne => ?_⟩
  obtain ⟨body, m, moves, b1, b2, b3⟩ := e3 hne
  refine ⟨body, m, moves, b1, b2, fun n sl k hsl hwell => ?_⟩
  obtain ⟨lo, hi', e4, e5⟩ : ∃ lo hi', om.min = .ok lo ∧ om.max = .ok hi' := by
    obtain ⟨om', _, _, _, _, g1, _, _, g4, _⟩ := gcodeOf_steps h
    rw [e1] at g1
    cases g1
    obtain ⟨lo, e4, g4⟩ := bind_ok.1 g4
    obtain ⟨hi', e5, -⟩ := bind_ok.1 g4
    exact ⟨lo, hi', e4, e5⟩
  exact b3 fs lo hi' n sl k hsl (slicedAs_closed e1 hfs hclosed hsmall hmeld ht hfin hsegs hwell hsides h0 e2 hsl e4 e5)

end Verif
