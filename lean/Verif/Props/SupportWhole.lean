import Verif.Props.SupportSides
import Verif.Props.SidesWhole
import Verif.Props.SupportClear

/-! # C123: overhangs get columns of printed support -/
namespace Verif
open Verif.Go Verif.Model Verif.Spec Verif.Spec.GCode

/-- A part on the bed which is filled with printed lines is covered by them. -/
theorem covered_onBed {lib : ClipperLib} {o : Options} {tol : ℚ} (h0 : 0 ≤ tol) (h1 : tol ≤ 10 ^ 4) (hn : NothingOutside enclosedBy lib tol) (ho : OpenClipping lib)
    (hk : KeepsInside enclosedBy lib) {trig : ℚ → ℚ × ℚ} (ht : TurnsBack trig) {p : Linear} (hd : 0 < p.lineDistance) (hd' : p.lineDistance ≤ 2 ^ 34) (hw : 0 ≤ p.lineWidth)
    (hw' : p.lineWidth ≤ 2 ^ 34) (hmin : |p.min.x| ≤ 2 ^ 34 ∧ |p.min.y| ≤ 2 ^ 34) (hmax : |p.max.x| ≤ 2 ^ 34 ∧ |p.max.y| ≤ 2 ^ 34) {n : Nat} {part : LayerPart}
    (hb9 : ∀ c ∈ part.outline :: part.holes, ∀ q ∈ c, |q.x| ≤ 9 * 10 ^ 5 ∧ |q.y| ≤ 9 * 10 ^ 5) {lines : Paths} (hl : p.fill lib trig n part = .ok lines) {moves : List Move}
    (hp : ∀ path ∈ lines, PathPrinted o moves n true path) {x : ℚ × ℚ}
    (hx1 : Deep (p.lineDistance / 2 + (if p.zigZag then (p.lineWidth : ℚ) / 2 else 0) + 5) (partContours part) x)
    (hx2 : InLimits (p.lineDistance / 2 + (if p.zigZag then (p.lineWidth : ℚ) / 2 else 0) + 5) p.min p.max x) :
    PrintedNear moves (layerHeight o n) (p.lineDistance / 2 + 9) x := by
  have hsmall : SmallPart part := fun c hc q hq => ⟨(hb9 c hc q hq).1.trans (by norm_num), (hb9 c hc q hq).2.trans (by norm_num)⟩
  have htol : tol ≤ 2 ^ 30 := h1.trans (by norm_num)
  obtain ⟨a, b, hab, hne, hx, hy, q, hq, hxq⟩ := C118_fill h0 htol hn ho hk ht p hd hd' hw hw' hmin hmax n hsmall _ hl x hx1 hx2
  obtain ⟨-, hfill⟩ := C114_fill h0 htol hn ho ht p hw n hsmall _ hl _ hab
  have hbox : ∀ x, OnPath true [a, b] x → |x.1| ≤ 10 ^ 6 ∧ |x.2| ≤ 10 ^ 6 := by
    intro x hx
    have := nearArea_box (B := 9 * 10 ^ 5) (fun c hc q hq => ⟨by exact_mod_cast (hb9 c hc q hq).1, by exact_mod_cast (hb9 c hc q hq).2⟩) (hfill _ hx)
    exact ⟨this.1.trans (by norm_num at h1 ⊢; linarith), this.2.trans (by norm_num at h1 ⊢; linarith)⟩
  have hlines : (a, b) ∈ pathLines true [a, b] := by simp [pathLines]
  obtain ⟨k1, k2⟩ := onPath_ends hlines
  have k1 := hbox _ k1
  have k2 := hbox _ k2
  simp only [exactPt] at k1 k2
  obtain ⟨k, before, line, e1, e2, e3, e4, e5, e6⟩ := hp _ hab a b (by rw [C05_int64_short _ _ (by simp)]; exact hlines) hne hx hy
  obtain ⟨y, hy1, hy2⟩ := near_passes e3 e6 (by exact_mod_cast k1.1) (by exact_mod_cast k1.2) (by exact_mod_cast k2.1) (by exact_mod_cast k2.2) hq
  exact ⟨k, before, line, e1, e2, e4, e5, e3.2.2, e6.2.2, y, hy1, (hxq.trans hy2).mono (by linarith)⟩

theorem box_tight {fs : List (Tri Vec3)} (hs : SmallSurface fs) {lo hi : Vec3} (hbox : IsBox (vertices fs) lo hi) :
    (|lo.x| ≤ 2 ^ 26 ∧ |lo.y| ≤ 2 ^ 26) ∧ |hi.x| ≤ 2 ^ 26 ∧ |hi.y| ≤ 2 ^ 26 := by
  have key : ∀ p ∈ vertices fs, |p.x| < 2 ^ 26 ∧ |p.y| < 2 ^ 26 := fun p hp => by
    obtain ⟨f, hf, hv⟩ := List.mem_flatMap.1 hp
    exact hs f hf p (by simpa [Tri.corners] using hv)
  obtain ⟨⟨p1, h1, e1⟩, ⟨p2, h2, e2⟩, ⟨p3, h3, e3⟩, ⟨p4, h4, e4⟩, -⟩ := hbox.reached
  have := key _ h1
  have := key _ h2
  have := key _ h3
  have := key _ h4
  rw [← e1, ← e2, ← e3, ← e4]
  refine ⟨⟨?_, ?_⟩, ?_, ?_⟩ <;> norm_num at * <;> omega

/-- The modifiers before those of the support keep the parts, and set none of the attributes of the support. -/
theorem before_support {lib : ClipperLib} {tan : ℚ} {o : Options} {ls layers : List Layer} (h : (standardModifiers lib tan o).foldlM (fun ls m => m ls) ls = .ok layers)
    (hplain : ∀ l ∈ ls, l.attrs = none) :
    ∃ ls4 ls5, supportDetector lib tan o ls4 = .ok ls5 ∧ supportGenerator lib o ls5 = .ok layers ∧ ls4.length = ls.length ∧
      ∀ (i : Nat) (l : Layer), ls4[i]? = some l → (∃ l0, ls[i]? = some l0 ∧ l.parts = l0.parts) ∧
        (l.attr "support" = none ∧ l.attr "fullSupport" = none ∧ l.attr "supportInterface" = none) ∧ (1 ≤ i ∨ o.print.brimSkirt.brimCount = 0 → l.attr "outerBrim" = none) := by
  simp only [standardModifiers, List.foldlM_cons, List.foldlM_nil, bind_ok, pure, Except.pure, Except.ok.injEq] at h
  obtain ⟨l1, h1, l2, h2, l3, h3, l4, h4, l5, h5, l6, h6, rfl⟩ := h
  have s3 : SameLayersBut ["perimeters", "overlapPerimeters", "bottom", "top", "infill"] ls l3 :=
    ((C61_perimeter _ _ _ _ h1).mono (by simp)).trans <| ((C61_infill _ _ _ _ h2).mono (by simp)).trans ((C61_internal _ _ _ _ h3).mono (by simp))
  have s4 := C61_brim _ _ _ _ h4
  have attr_of : ∀ {names : List String} {a b : List Layer}, SameLayersBut names a b → ∀ (j : Nat) (lb : Layer), b[j]? = some lb → ∃ la, a[j]? = some la ∧ SameBut names la lb := by
    intro names a b hs j lb hb
    obtain ⟨hj, rfl⟩ := List.getElem?_eq_some_iff.1 hb
    have hj' : j < a.length := by rw [hs.length_eq]; exact hj
    have := (List.forall₂_iff_get.1 hs).2 j hj' hj
    exact ⟨a[j], List.getElem?_eq_getElem hj', this⟩
  refine ⟨l4, l5, h5, h6, by rw [s3.length_eq, s4.length_eq], fun i l hl => ?_⟩
  obtain ⟨l', hl', hp4, ha4⟩ := attr_of s4 i l hl
  obtain ⟨l0, hl0, hp3, ha3⟩ := attr_of s3 i l' hl'
  have h0 : ∀ name, l0.attr name = none := fun name => by simp [Layer.attr, hplain l0 (List.mem_of_getElem? hl0)]
  refine ⟨⟨l0, hl0, by rw [hp4, hp3]⟩, ⟨?_, ?_, ?_⟩, fun hi => ?_⟩
  · rw [ha4 _ (by simp), ha3 _ (by simp), h0]
  · rw [ha4 _ (by simp), ha3 _ (by simp), h0]
  · rw [ha4 _ (by simp), ha3 _ (by simp), h0]
  · have same : l3[i]? = some l := by
      unfold brimModifier at h4
      split at h4
      · cases h4; exact hl
      · rename_i hb
        have hi := hi.resolve_right hb
        cases l3 with
        | nil => cases h4
        | cons a rest =>
          simp only [bind_ok, pure, Except.pure, Except.ok.injEq] at h4
          obtain ⟨a', -, rfl⟩ := h4
          obtain ⟨j, rfl⟩ : ∃ j, i = j + 1 := ⟨i - 1, by omega⟩
          simpa using hl
    obtain ⟨l0', hl0', -, ha⟩ := attr_of s3 i l same
    rw [hl0] at hl0'
    cases hl0'
    rw [ha _ (by simp), h0]

/-- Columns of printed support, for layers which are cross-sections of the solid with the surface `fs`. -/
theorem support_program (ext : Externals) (o : Options) (content t : Str) (h : gcodeOf ext o content = .ok t) {tol : ℚ} (h0 : 0 ≤ tol) (h1 : tol ≤ 10 ^ 4)
    (hn : NothingOutside enclosedBy ext.lib tol) (hlib : OpenClipping ext.lib) (hk : KeepsInside enclosedBy ext.lib) (hsides : KeepsSides ext.lib tol) (htrig : TurnsBack ext.trig)
    (hm : Moderate o) (ho : Extrudes o) (hdeg : |o.print.infillRotationDegree| ≤ 2 ^ 31) 
    (hen : o.print.support.enabled = true) {g : Nat} (hg : o.print.support.topGapLayers = g)
    (hd : |supportDistance ext.tan o| ≤ 2 ^ 53) (hgap : |toMicrometer o.print.support.gap| ≤ 2 ^ 53)
    (hs : 0 < toMicrometer o.print.support.patternSpacing) (hs' : toMicrometer o.print.support.patternSpacing ≤ 2 ^ 33) :
    ∃ om sliced layers lo hi, optimize o ((ext.stl content).map stlTriangleToFace) = .ok om ∧ om.min = .ok lo ∧ om.max = .ok hi ∧ slice ext.lib o om = .ok sliced ∧
      (standardModifiers ext.lib ext.tan o).foldlM (fun ls m => m ls) sliced = .ok layers ∧
      ∀ fs0, om.faces.mapM om.facePoints = .ok fs0 → SmallSurface fs0 → sliced ≠ [] →
      ∃ body m moves, t = startText o ++ body ++ endText o ∧ run body = some (m, moves) ∧
        ∀ fs n l k, layers[n]? = some l → SupportOnBed l → n + 2 < sliced.length → 1 ≤ n ∨ o.print.brimSkirt.brimCount = 0 →
          (∀ i l, n ≤ i → sliced[i]? = some l → SlicedAs o tol fs lo hi k i l.parts) →
          ∀ x, (∀ i, n ≤ i → i < sliced.length → FarFromSurface (2 * max 0 o.slicing.finishPolygonSnapDistance + 2) fs (layerHeight o i) x) →
          let inside := fun i => InsideSolid fs (layerHeight o i) x
          let far := fun D : ℚ => ∀ i, n ≤ i → i < sliced.length → FarFromSurface (supportDepth ext.tan o tol D sliced.length + tol + 5 * k + 2) fs (layerHeight o i) x
          Column g sliced.length inside n →
          (¬ ColumnAbove o.print.support.interfaceLayers sliced.length (Column g sliced.length inside) n → far (o.printer.extrusionWidth + 5) →
            PrintedNear moves (layerHeight o n) (o.printer.extrusionWidth / 2 + 9) x) ∧
          (ColumnAbove o.print.support.interfaceLayers sliced.length (Column g sliced.length inside) n →
            far (toMicrometer o.print.support.patternSpacing / 2 + o.printer.extrusionWidth / 2 + 5) →
            PrintedNear moves (layerHeight o n) (toMicrometer o.print.support.patternSpacing / 2 + 9) x) := by
  obtain ⟨om, sliced, layers, pt, g0, e1, e2, e3, h4, h5⟩ := gcodeOf_steps h
  unfold initPatterns at h4
  obtain ⟨lo, hlo, h4⟩ := bind_ok.1 h4
  obtain ⟨hi, hhi, h4⟩ := bind_ok.1 h4
  refine ⟨om, sliced, layers, lo, hi, e1, hlo, hhi, e2, e3, fun fs0 hfs hsmall hne => ?_⟩
  have hparts := C61_parts ext.lib ext.tan o _ (fun m hm => hm) sliced layers e3
  obtain ⟨body, m, moves, hb1, hb2, hb3⟩ := C111_printed ho (by
    rintro rfl
    exact hne (by simpa using hparts.symm)) h5
  obtain ⟨support, interface, solid, internal, ⟨p1, p2, -, -, -⟩, -, -, ⟨d1, d2, -⟩, ⟨l1, l2, l3, l4⟩, ⟨z1, z2, -⟩, -, -, -, hw⟩ :=
    C98_patterns ext.lib ext.trig o lo.pointXY hi.pointXY pt h4 hdeg
  have hw0 : 0 < o.printer.extrusionWidth := by have := ho.width; omega
  have hw1 : o.printer.extrusionWidth ≤ 2 ^ 34 := hm.width.2.trans (by norm_num)
  have hwq : (0 : ℚ) < o.printer.extrusionWidth := by exact_mod_cast hw0
  have hsq : (0 : ℚ) < toMicrometer o.print.support.patternSpacing := by exact_mod_cast hs
  have ws : support.lineWidth = o.printer.extrusionWidth := hw support (by simp)
  have wi : interface.lineWidth = o.printer.extrusionWidth := hw interface (by simp)
  refine ⟨body, m, moves, hb1, hb2, fun fs n l k hl hbed hlen hbrim hwell x hx2 => ?_⟩
  intro inside far hcol
  have hbox : IsBox (vertices fs0) lo hi := by
    simp only [OptModel.min, OptModel.max, hfs, bind, Except.bind] at hlo hhi
    exact mesh_box hlo hhi
  obtain ⟨⟨b1, b2⟩, b3, b4⟩ := box_tight hsmall hbox
  obtain ⟨ls4, ls5, m5, m6, hlen4, h4s⟩ := before_support e3 (sliced_plain e2)
  have hk0 : (0 : ℚ) ≤ 5 * k := by positivity
  have hmn : |support.min.x| ≤ 2 ^ 34 ∧ |support.min.y| ≤ 2 ^ 34 := by
    rw [l1, d1]
    simp only [Vec3.pointXY, abs_le] at *
    norm_num at *
    omega
  have hmx : |support.max.x| ≤ 2 ^ 34 ∧ |support.max.y| ≤ 2 ^ 34 := by
    rw [l2, d1]
    simp only [Vec3.pointXY, abs_le] at *
    norm_num at *
    omega
  -- the attributes at this point
  have key : ∀ D, 0 ≤ D → far D → InLimits D support.min support.max x ∧
      AttrShows D l "supportInterface" x (Column g sliced.length inside n ∧ ¬ ColumnAbove o.print.support.interfaceLayers sliced.length (Column g sliced.length inside) n) ∧
      AttrShows D l "support" x (Column g sliced.length inside n ∧ ColumnAbove o.print.support.interfaceLayers sliced.length (Column g sliced.length inside) n) := by
    intro D hD hfar
    have hle : D ≤ supportDepth ext.tan o tol D sliced.length := by
      unfold supportDepth detectDepth
      have b1 := abs_nonneg (((toMicrometer o.print.support.gap).tdiv 2 : Int) : ℚ)
      have b2 := abs_nonneg (r64 (((toMicrometer o.print.support.patternSpacing * 3).tdiv 2 : Int) : ℚ))
      have b3 := abs_nonneg (((supportDistance ext.tan o).tdiv 2 : Int) : ℚ)
      have : (0 : ℚ) ≤ 2 * (sliced.length + 1) * tol := by positivity
      linarith
    refine ⟨?_, ?_⟩
    · obtain ⟨j, hj1, hj2, ⟨hj3, hj4, -⟩, -⟩ := hcol
      have := (hwell (j + g + 1) _ (by omega) (List.getElem?_eq_getElem hj3)).limits hD
        (farFromSurface_mono (hfar _ (by omega) hj3) (by linarith) (by linarith)) (hx2 _ (by omega) hj3) hj4
      rw [l1, l2, d1]
      unfold InLimits at this ⊢
      push_cast
      obtain ⟨i1, i2, i3, i4⟩ := this
      exact ⟨by linarith, by linarith, by linarith, by linarith⟩
    · obtain ⟨l', q1, q2, q3⟩ := C123_areas (x := x) (m := n) (ins := inside) hsides h0 hD hen hg hd hgap m5 m6 (fun l hl => by
          obtain ⟨i, hi, rfl⟩ := List.mem_iff_getElem.1 hl
          exact (h4s i _ (List.getElem?_eq_getElem hi)).2.1) (fun l hl p hp => by
          obtain ⟨i, hi, rfl⟩ := List.mem_iff_getElem.1 hl
          obtain ⟨⟨l0, hl0, hpp⟩, -⟩ := h4s i _ (List.getElem?_eq_getElem hi)
          rw [hpp] at hp
          exact sliced_areas e2 l0 (List.mem_of_getElem? hl0) p hp) (by rw [hlen4]; exact hlen) (fun i l hi hl => (h4s i l hl).2.2 (hbrim.imp_left (by omega)))
          (fun i l hi hl => by
            obtain ⟨⟨l0, hl0, hpp⟩, -⟩ := h4s i l hl
            have hil := (List.getElem?_eq_some_iff.1 hl0).1
            obtain ⟨c1, -, c3⟩ := (hwell i l0 hi hl0).sides (hD.trans hle) (hfar i hi hil) (hx2 i hi hil)
            rw [hpp, hlen4]
            exact ⟨c1, c3⟩)
      rw [hl] at q1
      cases q1
      rw [hlen4] at q2 q3
      exact ⟨q2, q3⟩
  obtain ⟨-, -, hfill, -⟩ := hb3 n l hl
  refine ⟨fun hab hfar => ?_, fun hab hfar => ?_⟩
  · obtain ⟨hlim, hsh, -⟩ := key _ (by linarith) hfar
    obtain ⟨parts, hpa, hpf⟩ := hfill (interface.fill ext.lib ext.trig) "supportInterface" (by simp [infillKinds, p2])
    obtain ⟨hcl, hin⟩ := hsh parts hpa
    obtain ⟨p, hpm, hdeep⟩ := deep_of_clear (hin.2 ⟨hcol, hab⟩) hcl
    obtain ⟨lines, hl1, hl2⟩ := hpf p hpm
    have e : (o.printer.extrusionWidth : ℚ) / 2 + o.printer.extrusionWidth / 2 + 5 = o.printer.extrusionWidth + 5 := by ring
    have := covered_onBed h0 h1 hn hlib hk htrig (p := interface) (by rw [d2, wi]; exact hw0) (by rw [d2, wi]; exact hw1) (by rw [wi]; omega) (by rw [wi]; exact hw1) (by rw [l3]; exact hmn)
      (by rw [l4]; exact hmx) (hbed "supportInterface" (by simp) _ hpa p hpm) hl1 hl2 (x := x) (by rw [z2, d2, wi, if_pos rfl, e]; exact hdeep)
      (by rw [z2, d2, wi, if_pos rfl, l3, l4, e]; exact hlim)
    rw [d2, wi] at this
    exact this
  · obtain ⟨hlim, -, hsh⟩ := key _ (by linarith) hfar
    obtain ⟨parts, hpa, hpf⟩ := hfill (support.fill ext.lib ext.trig) "support" (by simp [infillKinds, p1])
    obtain ⟨hcl, hin⟩ := hsh parts hpa
    obtain ⟨p, hpm, hdeep⟩ := deep_of_clear (hin.2 ⟨hcol, hab⟩) hcl
    obtain ⟨lines, hl1, hl2⟩ := hpf p hpm
    have := covered_onBed h0 h1 hn hlib hk htrig (p := support) (by rw [d1]; exact hs) (by rw [d1]; exact hs'.trans (by norm_num)) (by rw [ws]; omega) (by rw [ws]; exact hw1) hmn hmx
      (hbed "support" (by simp) _ hpa p hpm) hl1 hl2 (x := x) (by rw [z1, d1, ws, if_pos rfl]; exact hdeep) (by rw [z1, d1, ws, if_pos rfl]; exact hlim)
    rw [d1] at this
    exact this

/-- **C123** Below an overhang there is a column of printed support. Take a point which is not near to the surface of the solid in the planes of layer `n` and all layers above, and which is outside of
the solid in layer `n`. If the column at the point starts in this layer or one above (`topGapLayers` layers below the overhang) and is not interrupted by the solid, then it is printed in layer `n`:
as interface, with lines such that a move passes within half the extrusion width and 9 µm of the point, if there is no column `interfaceLayers` layers above, otherwise within half the distance of the lines of the
support and 9 µm. -/
theorem C123_program (ext : Externals) (o : Options) (content t : Str) (h : gcodeOf ext o content = .ok t) {tol : ℚ} (h0 : 0 ≤ tol) (h1 : tol ≤ 10 ^ 4)
    (hn : NothingOutside enclosedBy ext.lib tol) (hlib : OpenClipping ext.lib) (hk : KeepsInside enclosedBy ext.lib) (hsides : KeepsSides ext.lib tol) (htrig : TurnsBack ext.trig)
    (hm : Moderate o) (ho : Extrudes o) (hdeg : |o.print.infillRotationDegree| ≤ 2 ^ 31) (hmeld : 2 ≤ o.slicing.meldDistance) (ht : 0 < o.print.layerThickness)
    (hfin : o.slicing.finishPolygonSnapDistance < 2 ^ 26 - 1) (hen : o.print.support.enabled = true) {g : Nat} (hg : o.print.support.topGapLayers = g)
    (hd : |supportDistance ext.tan o| ≤ 2 ^ 53) (hgap : |toMicrometer o.print.support.gap| ≤ 2 ^ 53)
    (hs : 0 < toMicrometer o.print.support.patternSpacing) (hs' : toMicrometer o.print.support.patternSpacing ≤ 2 ^ 33) :
    ∃ om segs sliced layers, optimize o ((ext.stl content).map stlTriangleToFace) = .ok om ∧ sliceSegments o om = .ok segs ∧ slice ext.lib o om = .ok sliced ∧
      (standardModifiers ext.lib ext.tan o).foldlM (fun ls m => m ls) sliced = .ok layers ∧
      ∀ fs, om.faces.mapM om.facePoints = .ok fs → ClosedSurface fs → SmallSurface fs → sliced ≠ [] →
      ∃ body m moves, t = startText o ++ body ++ endText o ∧ run body = some (m, moves) ∧
        ∀ n l k, layers[n]? = some l → SupportOnBed l → n + 2 < sliced.length → 1 ≤ n ∨ o.print.brimSkirt.brimCount = 0 →
          (∀ i, n ≤ i → i < sliced.length → WellSliced o om fs segs k i) →
          ∀ x, (∀ i, n ≤ i → i < sliced.length → FarFromSurface (2 * max 0 o.slicing.finishPolygonSnapDistance + 2) fs (layerHeight o i) x) →
          let inside := fun i => InsideSolid fs (layerHeight o i) x
          let far := fun D : ℚ => ∀ i, n ≤ i → i < sliced.length → FarFromSurface (supportDepth ext.tan o tol D sliced.length + tol + 5 * k + 2) fs (layerHeight o i) x
          Column g sliced.length inside n →
          (¬ ColumnAbove o.print.support.interfaceLayers sliced.length (Column g sliced.length inside) n → far (o.printer.extrusionWidth + 5) →
            PrintedNear moves (layerHeight o n) (o.printer.extrusionWidth / 2 + 9) x) ∧
          (ColumnAbove o.print.support.interfaceLayers sliced.length (Column g sliced.length inside) n →
            far (toMicrometer o.print.support.patternSpacing / 2 + o.printer.extrusionWidth / 2 + 5) →
            PrintedNear moves (layerHeight o n) (toMicrometer o.print.support.patternSpacing / 2 + 9) x) := by
  obtain ⟨om, sliced, layers, lo, hi, e1, hlo, hhi, e2, e3, h'⟩ := support_program ext o content t h h0 h1 hn hlib hk hsides htrig hm ho hdeg hen hg hd hgap hs hs'
  obtain ⟨segs, hsegs⟩ : ∃ segs, sliceSegments o om = .ok segs := by
    have := e2
    unfold slice at this
    obtain ⟨segs, hsegs, -⟩ := bind_ok.1 this
    exact ⟨segs, hsegs⟩
  refine ⟨om, segs, sliced, layers, e1, hsegs, e2, e3, fun fs hfs hclosed hsmall hne => ?_⟩
  obtain ⟨body, m, moves, hb1, hb2, hb3⟩ := h' fs hfs hsmall hne
  refine ⟨body, m, moves, hb1, hb2, fun n l k hl hbed hlen hbrim hwell => ?_⟩
  exact hb3 fs n l k hl hbed hlen hbrim fun i l hi hl =>
    slicedAs_closed e1 hfs hclosed hsmall hmeld ht hfin hsegs (hwell i hi (List.getElem?_eq_some_iff.1 hl).1) hsides h0 e2 hl hlo hhi

end Verif
