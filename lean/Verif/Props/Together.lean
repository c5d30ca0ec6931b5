import Verif.Spec.Together
import Verif.Props.CutsWell
import Verif.Props.Shell
import Verif.Props.Climb
import Verif.Props.Bodies
import Verif.Props.PrintAreaWhole
import Verif.Props.Cleaned

/-! # C137: the print of a closed body as a whole -/
namespace Verif
open Verif.Go Verif.Model Verif.Spec Verif.Spec.GCode

/-- All assumptions about the clipper library which are used for the print of a body. -/
structure GoodLibrary (lib : ClipperLib) (tol : ℚ) : Prop where
  never : NeverFails lib
  lines : OpenClipping lib
  area : StaysInside lib
  sides : KeepsSides lib tol
  outside : NothingOutside enclosedBy lib tol
  insets : InsetsKeep enclosedBy lib tol
  covers : KeepsInside enclosedBy lib

/-- Options of usual size. -/
structure UsualOptions (o : Options) : Prop where
  sensible : Sensible o
  moderate : Moderate o
  extrudes : Extrudes o
  meld : 2 ≤ o.slicing.meldDistance
  finish : o.slicing.finishPolygonSnapDistance < 2 ^ 26 - 1
  insets : o.print.insetCount < 2 ^ 20
  rotation : |o.print.infillRotationDegree| ≤ 2 ^ 31
  overlap : |100 - o.print.infillOverlapPercent| ≤ 2 ^ 20
  overlap2 : |100 - (o.print.infillOverlapPercent + o.print.additionalInternalInfillOverlapPercent)| ≤ 2 ^ 20

/-! ## The body on the bed -/

theorem isSide_map {f : Vec3 → Vec3} {t : Tri Vec3} {s : Vec3 × Vec3} (h : IsSide (t.map f) s) : ∃ r, IsSide t r ∧ s = (f r.1, f r.2) := by
  rcases h with rfl | rfl | rfl
  · exact ⟨_, .inl rfl, rfl⟩
  · exact ⟨_, .inr (.inl rfl), rfl⟩
  · exact ⟨_, .inr (.inr rfl), rfl⟩

theorem map_isSide {f : Vec3 → Vec3} {t : Tri Vec3} {s : Vec3 × Vec3} (h : IsSide t s) : IsSide (t.map f) (f s.1, f s.2) := by
  rcases h with rfl | rfl | rfl
  · exact .inl rfl
  · exact .inr (.inl rfl)
  · exact .inr (.inr rfl)

theorem closedSurface_map {f : Vec3 → Vec3} (hf : Function.Injective f) {m : Mesh} (h : ClosedSurface m) : ClosedSurface (m.map (Tri.map f)) := by
  intro i t s ht hs
  rw [List.getElem?_map, Option.map_eq_some_iff] at ht
  obtain ⟨t, ht, rfl⟩ := ht
  obtain ⟨r, hr, rfl⟩ := isSide_map hs
  obtain ⟨j, g, hji, hg, hgs, honly⟩ := h i t r ht hr
  refine ⟨j, g.map f, hji, by rw [List.getElem?_map, hg]; rfl, map_isSide hgs, fun k u hu hside => ?_⟩
  rw [List.getElem?_map, Option.map_eq_some_iff] at hu
  obtain ⟨u, hu, rfl⟩ := hu
  have corners : ∀ v, f v ∈ (u.map f).corners → v ∈ u.corners := by
    intro v hv
    simp only [Tri.corners, Tri.map, List.mem_cons, List.not_mem_nil, or_false, hf.eq_iff] at hv ⊢
    exact hv
  exact honly k u hu ⟨corners _ hside.1, corners _ hside.2⟩

theorem placed_injective (center lo hi : Vec3) : Function.Injective (placed center lo hi) := by
  intro p q h
  unfold placed at h
  obtain ⟨a, b, c⟩ := p
  obtain ⟨a', b', c'⟩ := q
  simp only [Vec3.mk.injEq] at h ⊢
  omega

theorem sheet_of_body {d : Int} {m : Mesh} (h : IsBody d m) : IsSheet d m := ⟨h.nonempty, h.proper, h.different, h.separated, h.noGap⟩

/-- The faces of the optimized model of a body. -/
theorem body_faces {o : Options} {m : Mesh} (hb : IsSheet o.slicing.meldDistance m) {lo hi : Vec3} (hbox : IsBox (vertices m) lo hi) {om : OptModel} (h : optimize o m = .ok om) :
    om.faces.mapM om.facePoints = .ok (placedBody o.printer.center lo hi m) := by
  obtain ⟨lo', hi', hbox', -, hfs⟩ := faces_of_separated h hb.separated
  obtain ⟨rfl, rfl⟩ := box_unique hbox hbox'
  rw [firstFaces_self m [] hb.proper hb.different] at hfs
  exact hfs

theorem placed_in {m : Mesh} {lo hi : Vec3} (hbox : IsBox (vertices m) lo hi) (center : Vec3) : ∀ f ∈ placedBody center lo hi m, FaceIn (modelArea center lo hi) f := by
  intro f hf p hp
  obtain ⟨t, ht, rfl⟩ := List.mem_map.1 hf
  have : ∃ v ∈ t.corners, p = placed center lo hi v := by
    simp only [Tri.corners, Tri.map, List.mem_cons, List.not_mem_nil, or_false] at hp ⊢
    rcases hp with rfl | rfl | rfl
    · exact ⟨_, .inl rfl, rfl⟩
    · exact ⟨_, .inr (.inl rfl), rfl⟩
    · exact ⟨_, .inr (.inr rfl), rfl⟩
  obtain ⟨v, hv, rfl⟩ := this
  have hin := hbox.inside v (List.mem_flatMap.2 ⟨t, ht, hv⟩)
  simp only [modelArea, Rect.Has, placed]
  have tx := tdiv_two (lo.x + hi.x)
  have ty := tdiv_two (lo.y + hi.y)
  refine ⟨?_, ?_, ?_, ?_⟩ <;> omega

theorem small_in {R : Rect} (h1 : -900000 ≤ R.minX) (h2 : R.maxX ≤ 900000) (h3 : -900000 ≤ R.minY) (h4 : R.maxY ≤ 900000) {x y : Int} (h : R.Has x y) : |x| ≤ 9 * 10 ^ 5 ∧ |y| ≤ 9 * 10 ^ 5 := by
  obtain ⟨a, b, c, d⟩ := h
  constructor <;> rw [abs_le] <;> constructor <;> omega

theorem smallSurface_placed {m : Mesh} {lo hi : Vec3} (hbox : IsBox (vertices m) lo hi) {center : Vec3} (hs : SmallBody center lo hi) :
    SmallSurface (placedBody center lo hi m) := by
  intro f hf v hv
  obtain ⟨a, b⟩ := small_in hs.minX hs.maxX hs.minY hs.maxY (placed_in hbox center f hf v hv)
  constructor <;> omega

theorem smallPath_in {center lo hi : Vec3} (hs : SmallBody center lo hi) {p : Path} (hp : (modelArea center lo hi).HasPath p) : SmallPath p := by
  intro a ha b hb
  obtain ⟨a1, a2, a3, a4⟩ := hp a ha
  obtain ⟨b1, b2, b3, b4⟩ := hp b hb
  have hsz := hs.size
  simp only [modelArea] at a1 a2 a3 a4 b1 b2 b3 b4
  have hx : |a.x - b.x| ≤ hi.x - lo.x + 1 := by rw [abs_le]; constructor <;> omega
  have hy : |a.y - b.y| ≤ hi.y - lo.y + 1 := by rw [abs_le]; constructor <;> omega
  have h1 := sq_le_sq' (abs_le.1 hx).1 (abs_le.1 hx).2
  have h2 := sq_le_sq' (abs_le.1 hy).1 (abs_le.1 hy).2
  unfold safe
  linarith

/-! ## The program -/

/-- A layer exists in the segments if it exists in the result. -/
theorem segments_exist {lib : ClipperLib} {o : Options} {om : OptModel} {segs : List (Option SliceLayer)} (h1 : sliceSegments o om = .ok segs) {sliced : List Layer}
    (h2 : slice lib o om = .ok sliced) {n : Nat} (hn : n < sliced.length) : ∃ layer, segs[n]? = some (some layer) := by
  obtain ⟨segs', h6, h7⟩ := bind_ok.1 h2
  rw [h1] at h6
  cases h6
  have hf := mapM_ok.1 h7
  rw [List.forall₂_iff_get] at hf
  have hfin := hf.2 n (by rw [hf.1]; exact hn) hn
  simp only [List.get_eq_getElem] at hfin
  cases hs : segs[n]'(by rw [hf.1]; exact hn) with
  | none => rw [hs] at hfin; cases hfin
  | some segments => exact ⟨segments, List.getElem?_eq_some_iff.2 ⟨_, hs⟩⟩

theorem innerCount_le (lib : ClipperLib) (o : Options) (parts : List LayerPart) : innerCount (perimetersOf lib o parts) ≤ wallCount lib o parts := by
  unfold innerCount wallCount
  generalize perimetersOf lib o parts = pe
  induction pe with
  | nil => simp
  | cons w ws ih =>
    rw [List.map_cons, List.sum_cons, List.flatten_cons, List.flatten_append, List.length_append]
    refine Nat.add_le_add ?_ ih
    induction w using List.reverseRecOn with
    | nil => simp
    | append_singleton xs x => simp [List.getLastD_eq_getLast?]

/-- Without brim, skirt and support there are no extra paths. -/
theorem no_extras {ext : Externals} {o : Options} {sliced layers : List Layer} (h3 : (standardModifiers ext.lib ext.tan o).foldlM (fun ls m => m ls) sliced = .ok layers)
    (hplain : ∀ l ∈ sliced, l.attrs = none) (hbrim : o.print.brimSkirt.brimCount = 0) (hskirt : o.print.brimSkirt.skirtCount = 0) (hsup : o.print.support.enabled = false)
    {pt : Patterns} {n : Nat} {l : Layer} (hl : layers[n]? = some l) {isOpen : Bool} {path : Path} : ¬ ExtraPath ext.lib o pt n l isOpen path := by
  simp only [standardModifiers, List.foldlM_cons, List.foldlM_nil, bind_ok, pure, Except.pure, Except.ok.injEq] at h3
  obtain ⟨l1, h1, l2, h2, l3, h3, l4, h4, l5, h5, l6, h6, rfl⟩ := h3
  unfold brimModifier at h4
  rw [if_pos hbrim] at h4
  unfold supportDetector at h5
  unfold supportGenerator at h6
  simp only [hsup, Bool.false_eq_true, if_false] at h5 h6
  cases h4; cases h5; cases h6
  have attr_of : ∀ {names : List String} {a b : List Layer}, SameLayersBut names a b → ∀ (j : Nat) (lb : Layer), b[j]? = some lb → ∃ la, a[j]? = some la ∧ SameBut names la lb := by
    intro names a b hs j lb hb
    obtain ⟨hj, rfl⟩ := List.getElem?_eq_some_iff.1 hb
    have hj' : j < a.length := by rw [hs.length_eq]; exact hj
    exact ⟨a[j], List.getElem?_eq_getElem hj', (List.forall₂_iff_get.1 hs).2 j hj' hj⟩
  obtain ⟨a2, e2, -, s2⟩ := attr_of (C61_internal _ _ _ _ h3) n l hl
  obtain ⟨a1, e1, -, s1⟩ := attr_of (C61_infill _ _ _ _ h2) n a2 e2
  obtain ⟨a0, e0, -, s0⟩ := attr_of (C61_perimeter _ _ _ _ h1) n a1 e1
  have hno : ∀ name ∈ ["brim", "support", "supportInterface"], l.attr name = none := by
    intro name hname
    have : a0.attr name = none := by simp [Layer.attr, hplain a0 (List.mem_of_getElem? e0)]
    simp only [List.mem_cons, List.not_mem_nil, or_false] at hname
    rcases hname with rfl | rfl | rfl <;> rw [s2 _ (by simp), s1 _ (by simp), s0 _ (by simp), this]
  rintro (⟨-, brim, hb, p, hp, -⟩ | ⟨-, -, hs, -⟩ | ⟨-, fill, name, hkind, parts, hparts, part, hpart, -⟩)
  · rw [Layer.brim, hno "brim" (by simp)] at hb
    cases hb
    cases hp
  · exact hs hskirt
  · rcases hkind with ⟨-, rfl⟩ | ⟨-, rfl⟩
    all_goals
      rw [Layer.partsAttribute, hno _ (by simp)] at hparts
      cases hparts
      cases hpart

/-- The layers of a body are on its area. -/
theorem body_in {ext : Externals} {o : Options} (hl : StaysInside ext.lib) (hm : Moderate o) (ht : 0 < o.print.layerThickness) {m : Mesh} {lo hi : Vec3} (hbox : IsBox (vertices m) lo hi)
    {om : OptModel} (hfs : om.faces.mapM om.facePoints = .ok (placedBody o.printer.center lo hi m)) {sliced layers : List Layer} (h2 : slice ext.lib o om = .ok sliced)
    (h3 : (standardModifiers ext.lib ext.tan o).foldlM (fun ls m => m ls) sliced = .ok layers) :
    (∀ l ∈ sliced, (modelArea o.printer.center lo hi).HasParts l.parts) ∧ LayersIn (modelArea o.printer.center lo hi) o layers := by
  have hin : LayersIn (modelArea o.printer.center lo hi) o sliced := by
    intro l hlm
    obtain ⟨parts, rfl, hp⟩ := slice_in hl ht hfs (placed_in hbox _) sliced h2 l hlm
    exact layerIn_plain hp
  exact ⟨fun l hl => (hin l hl).1, modifiers_in hl hm ext.tan hin layers h3⟩

theorem infillDistance_eq {o : Options} (ho : Sensible o) (hp : o.print.infillPercent ≠ 0) :
    infillDistance o.printer.extrusionWidth o.print.infillPercent = .ok (infillSpacing o) ∧ 0 < infillSpacing o ∧ infillSpacing o ≤ 2 ^ 34 := by
  obtain ⟨w1, w2⟩ := ho.width
  obtain ⟨p1, p2⟩ := ho.percent
  unfold infillSpacing
  generalize o.printer.extrusionWidth = w at *
  generalize o.print.infillPercent = p at *
  obtain ⟨w, rfl⟩ := Int.eq_ofNat_of_zero_le w1.le
  obtain ⟨p, rfl⟩ := Int.eq_ofNat_of_zero_le p1
  have h := C80_distance w p (by omega) (by omega) (by omega) (by omega)
  have hn : 0 < 10000 / w := Nat.div_pos (by omega) (by omega)
  have hn' : 10000 / w ≤ 10000 := Nat.div_le_self _ _
  have e : ((1000000 / (10000 / w * p) : Nat) : Int) = 1000000 / (10000 / (w : Int) * p) := by push_cast; rfl
  have hle : 10000 / w * p ≤ 1000000 := by nlinarith
  have hpos : 0 < 10000 / w * p := Nat.mul_pos hn (by omega)
  have a1 : 0 < 1000000 / (10000 / w * p) := Nat.div_pos hle hpos
  have a2 : 1000000 / (10000 / w * p) ≤ 1000000 := Nat.div_le_self _ _
  rw [← e]
  exact ⟨h, by exact_mod_cast a1, by omega⟩

/-- The program prints the body of whose surface the layers are the cross-sections. -/
theorem program_prints (ext : Externals) (o : Options) (content : Str) {tol : ℚ} (h0 : 0 ≤ tol) (hlib : GoodLibrary ext.lib tol) (htrig : TurnsBack ext.trig) (ho : UsualOptions o)
    (m : Mesh) (hm : m = (ext.stl content).map stlTriangleToFace) (hbody : IsSheet o.slicing.meldDistance m) {lo hi : Vec3} (hbox : IsBox (vertices m) lo hi)
    (hsmall : SmallBody o.printer.center lo hi) (harea : ((modelArea o.printer.center lo hi).grow (supportMargin o)).Small) (hheight : o.print.initialLayerThickness ≤ hi.z - lo.z) :
    ∃ t om sliced top, gcodeOf ext o content = .ok t ∧ optimize o m = .ok om ∧ slice ext.lib o om = .ok sliced ∧ sliced.length = top + 1 ∧
      layerHeight o top ≤ hi.z - lo.z ∧ hi.z - lo.z < layerHeight o (top + 1) ∧
      ∃ body mc moves, t = startText o ++ body ++ endText o ∧ run body = some (mc, moves) ∧
        EndIn ((modelArea o.printer.center lo hi).grow (printMargin o)) moves ∧
        ∀ w, (∀ l ∈ sliced, wallCount ext.lib o l.parts ≤ w) → (5 + w) * tol ≤ 9 * 10 ^ 4 →
          ∃ lo' hi', om.min = .ok lo' ∧ om.max = .ok hi' ∧ ∀ (fs : List (Tri Vec3)) (good : Nat → Nat → Prop),
            (∀ k n l, n ≤ top → good k n → sliced[n]? = some l → SlicedAs o tol fs lo' hi' k n l.parts) → PrintsWhere good o fs tol w top moves := by
  subst hm
  have hth := ho.sensible.thickness
  obtain ⟨t, ht⟩ := C90_gcode ext o content ho.sensible hlib.never hlib.lines _ rfl hbody.nonempty hbody.proper hbody.separated hbody.noGap (.inl (by
    obtain ⟨-, -, -, -, ⟨p, hp, ep⟩, q, hq, eq⟩ := hbox.reached
    exact ⟨q, hq, p, hp, by omega⟩))
  obtain ⟨top, om, sliced, layers, hom, hsl, hmod, hlen, ht1, ht2, body, mc, moves, hb1, hb2, hz1, hz2, hz3, -⟩ :=
    C129_program ext o content t ht ho.extrudes ho.sensible.initial.1 hth lo hi hbox hheight
  have hfs := body_faces hbody hbox hom
  have hsurf := smallSurface_placed hbox hsmall
  obtain ⟨hin1, hin2⟩ := body_in hlib.area ho.moderate hth hbox hfs hsl hmod
  have hlen' : sliced.length = top + 1 := by
    have := congrArg List.length (C61_parts ext.lib ext.tan o _ (fun _ h => h) _ _ hmod)
    simpa [hlen] using this.symm
  have hne : sliced ≠ [] := by rintro rfl; simp at hlen'
  have hne' : layers ≠ [] := by rintro rfl; simp at hlen
  have hmoves : ∀ {body' mc' moves'}, t = startText o ++ body' ++ endText o → run body' = some (mc', moves') → moves' = moves := by
    intro body' mc' moves' e1 e2
    rw [hb1] at e1
    obtain rfl := body_unique e1
    rw [hb2, Option.some.injEq, Prod.mk.injEq] at e2
    exact e2.2.symm
  refine ⟨t, om, sliced, top, ht, hom, hsl, hlen', ht1, ht2, body, mc, moves, hb1, hb2, ?_, ?_⟩
  · rcases C102_program ext o content t hlib.area hlib.lines htrig ho.moderate hth hbox harea ht with rfl | ⟨body', mc', start, rest, e1, e2, e3, e4, e5⟩
    · have hb : body = [] := by
        have := congrArg List.length hb1
        simp only [List.length_nil, List.length_append] at this
        exact List.length_eq_zero_iff.1 (by omega)
      subst hb
      rw [show moves = [] by cases hb2; rfl]
      exact ⟨[], [], rfl, by simp, by simp, by simp⟩
    · exact ⟨start, rest, (hmoves e1 e2).symm, e3, e4, e5⟩
  intro w hw htol
  have hwq : ∀ l ∈ sliced, (wallCount ext.lib o l.parts : ℚ) ≤ w := fun l hl => by exact_mod_cast hw l hl
  have hbed : ∀ l ∈ sliced, OnBed ext.lib o tol l := by
    intro l hl
    refine ⟨fun part hp c hc q hq => ?_, ?_⟩
    · have hpart := hin1 l hl part hp
      refine small_in hsmall.minX hsmall.maxX hsmall.minY hsmall.maxY ?_
      rcases List.mem_cons.1 hc with rfl | hc
      · exact hpart.1 q hq
      · exact hpart.2 c hc q hq
    · have := hwq l hl
      nlinarith
  have hget : ∀ {n : Nat}, n ≤ top → ∃ sl, sliced[n]? = some sl := fun hn => ⟨_, List.getElem?_eq_getElem (show _ < sliced.length by omega)⟩
  have hwidth := ho.extrudes.width
  have hwq0 : (0 : ℚ) ≤ o.printer.extrusionWidth := by exact_mod_cast (by omega : 0 ≤ o.printer.extrusionWidth)
  have hdepth : ∀ {k n : Nat} {sl : Layer} (hs : sliced[n]? = some sl) (D : ℚ), 0 ≤ D → 0 ≤ solidDepth ext.lib o tol k sl.parts D ∧ solidDepth ext.lib o tol k sl.parts D ≤ fillDepth o tol k w D := by
    intro k n sl hs D hD
    have h1 : (innerCount (perimetersOf ext.lib o sl.parts) : ℚ) ≤ w := by
      exact_mod_cast (innerCount_le ext.lib o sl.parts).trans (hw sl (List.mem_of_getElem? hs))
    have g1 : 0 ≤ overlapReach o o.print.infillOverlapPercent := by unfold overlapReach; positivity
    have g2 : 0 ≤ overlapReach o (o.print.infillOverlapPercent + o.print.additionalInternalInfillOverlapPercent) := by unfold overlapReach; positivity
    have hi : (0 : ℚ) ≤ o.print.insetCount := by exact_mod_cast (by linarith [ho.sensible.insets] : (0 : Int) ≤ o.print.insetCount)
    unfold solidDepth sideDepth fillDepth
    push_cast
    refine ⟨by positivity, ?_⟩
    have := mul_le_mul_of_nonneg_right h1 h0
    linarith
  obtain ⟨om', sliced', lo', hi', d1, d2, d3, d3', d4⟩ := C121_sliced ext o content t ht h0 hlib.outside hlib.lines hlib.covers hlib.sides htrig ho.moderate ho.extrudes ho.rotation
    ho.sensible.insets (by have := ho.insets; have := ho.sensible.width; nlinarith) ho.overlap ho.overlap2
  rw [hom] at d1; cases d1
  rw [hsl] at d2; cases d2
  obtain ⟨body', mc', moves', e1, e2, d4⟩ := d4 _ hfs hsurf hne
  obtain rfl := hmoves e1 e2
  clear e1 e2
  refine ⟨lo', hi', d3, d3', fun fs good hwell => ?_⟩
  have hnear : ∀ {k n : Nat} (hn : n ≤ top) (hg : good k n) {sl : Layer} (hs : sliced[n]? = some sl)
      {D : ℚ} (hD : 0 ≤ D) {q : ℚ × ℚ} (hq : FarFromSurface (D + tol + 5 * k + 2) fs (layerHeight o n) q) (hq2 : FarEnough o fs n q),
      Clear D sl.parts q ∧ AtMostOne sl.parts q ∧ (q ∈ region enclosedBy sl.parts ↔ InsideSolid fs (layerHeight o n) q) :=
    fun hn hg _ hs _ hD _ hq hq2 => (hwell _ _ _ hn hg hs).sides hD hq hq2
  have hparts : ∀ {k n : Nat} (hn : n ≤ top), good k n ∧ ReachesInside o fs tol k n → ∀ l, sliced[n]? = some l → l.parts ≠ [] := by
    rintro k n hn ⟨hg, y, hy, hfar, hen⟩ l hl he
    have := (hnear hn hg hl le_rfl (by rwa [zero_add]) hen).2.2.2 hy
    rw [he] at this
    simp [region_nil] at this
  refine ⟨?_, ?_, ?_, ?_, hz1, ?_⟩
  · intro hbrim hskirt hsup j before line hbe hli he hmove
    obtain ⟨om', sliced', layers', pt, c1, c2, c3, c4, c5⟩ := C114_program ext o content t ht h0 hlib.outside hlib.lines htrig ho.moderate
    rw [hom] at c1; cases c1
    rw [hsl] at c2; cases c2
    rw [hmod] at c3; cases c3
    obtain ⟨body'', mc'', moves'', e1, e2, c5⟩ := c5 hne'
    obtain rfl := hmoves e1 e2
    obtain ⟨n, sl, l, hs, hln, isOpen, path, a, b, hab, ha, hb, hbel, hor⟩ := c5 j before line hbe hli he hmove
    have hn : n ≤ top := by
      have := (List.getElem?_eq_some_iff.1 hs).1
      omega
    refine ⟨n, hn, ha.2.2, hb.2.2, fun k hg x hx => ?_⟩
    have hwc := hwq sl (List.mem_of_getElem? hs)
    have hD : (0 : ℚ) ≤ 80 + (5 + wallCount ext.lib o sl.parts) * tol := by positivity
    by_cases hfar : FarFromSurface (82 + 5 * k + (6 + w) * tol) fs (layerHeight o n) x ∧
        FarEnough o fs n x
    · left
      rcases hor with hor | hextra
      · obtain ⟨part, hpart, hnr⟩ := hor (hbed sl (List.mem_of_getElem? hs)) (fun hclosed' => by
          rcases hbel with ⟨-, walls, hwalls, p, hp, hpath⟩ | hbel | hbel | ⟨h, -⟩
          · obtain ⟨ps, hps, hp⟩ := List.mem_flatten.1 hp
            obtain ⟨wl, hwl, hps⟩ := List.mem_flatten.1 hps
            have hpin := layerIn_perimeters (hin2 l (List.mem_of_getElem? hln)) walls hwalls wl hwl ps hps p hp
            refine smallPath_in hsmall ?_
            rcases List.mem_append.1 hpath with hpath | hpath
            · exact hpin.2 path hpath
            · rw [List.mem_singleton.1 hpath]
              exact hpin.1
          · exact absurd (.inl hbel) (no_extras (ext := ext) (o := o) (pt := pt) hmod (sliced_plain hsl) hbrim hskirt hsup hln)
          · exact absurd (.inr (.inl hbel)) (no_extras (ext := ext) (o := o) (pt := pt) hmod (sliced_plain hsl) hbrim hskirt hsup hln)
          · rw [h] at hclosed'; cases hclosed') x hx
        obtain ⟨hc, hone, hreg⟩ := hnear hn hg hs hD (farFromSurface_mono hfar.1 (by positivity) (by
          have := mul_le_mul_of_nonneg_right hwc h0
          linarith)) hfar.2
        exact hreg.1 (region_near hc hone hpart hnr)
      · exact absurd hextra (no_extras hmod (sliced_plain hsl) hbrim hskirt hsup hln)
    · right
      unfold lineReach
      refine near_surface (le_max_of_le_left (by positivity)) fun h => hfar ⟨?_, ?_⟩
      · exact farFromSurface_mono h (by positivity) (le_max_left _ _)
      · exact farFromSurface_mono h (by positivity) (le_max_right _ _)
  · intro n hn k hins hgood x hx hfar hskin hdeep
    obtain ⟨sl, hs⟩ := hget hn
    obtain ⟨q1, -⟩ := d4 fs n sl k hs (hbed sl (List.mem_of_getElem? hs)) (fun i l hi hl => hparts (by omega) (hins i hi) l hl) (fun i l a b c => by
        have := (List.getElem?_eq_some_iff.1 c).1
        exact hwell _ _ _ (by omega) (hgood i ⟨a, b, by omega⟩) c) x hx
      (fun i a b c => hfar i ⟨a, b, by omega⟩)
    obtain ⟨r1, r2⟩ := hdepth (k := k) hs (o.printer.extrusionWidth / 2 + 5) (by positivity)
    exact q1 (by rwa [hlen']) fun i a b c => farFromSurface_mono (hdeep i ⟨a, b, by omega⟩) r1 r2
  · intro hp n hn k hins hgood x hx hfar hskin hdeep
    obtain ⟨sl, hs⟩ := hget hn
    obtain ⟨-, q1⟩ := d4 fs n sl k hs (hbed sl (List.mem_of_getElem? hs)) (fun i l hi hl => hparts (by omega) (hins i hi) l hl) (fun i l a b c => by
        have := (List.getElem?_eq_some_iff.1 c).1
        exact hwell _ _ _ (by omega) (hgood i ⟨a, b, by omega⟩) c) x hx
      (fun i a b c => hfar i ⟨a, b, by omega⟩)
    obtain ⟨s1, s2, s3⟩ := infillDistance_eq ho.sensible hp
    obtain ⟨d, hd, q1⟩ := q1 hp
    rw [s1] at hd; cases hd
    obtain ⟨r1, r2⟩ := hdepth (k := k) hs (infillSpacing o / 2 + (if o.print.infillZigZag then (o.printer.extrusionWidth : ℚ) / 2 else 0) + 5) (by
      have : (0 : ℚ) ≤ infillSpacing o := by exact_mod_cast s2.le
      split <;> positivity)
    exact q1 s2 s3 (by rwa [hlen']) fun i a b c => farFromSurface_mono (hdeep i ⟨a, b, by omega⟩) r1 r2
  · intro n hn k hg x y way hway hx hy hfar j hj hdeep
    obtain ⟨sl, hs⟩ := hget hn
    obtain ⟨om', sliced', c1, c2, c4⟩ := C122_sliced ext o content t ht h0 hlib.sides hlib.insets ho.extrudes
      (by have := ho.sensible.width; omega) ho.sensible.insets ho.insets
    rw [hom] at c1; cases c1
    rw [hsl] at c2; cases c2
    obtain ⟨body'', mc'', moves'', e1, e2, c4⟩ := c4 hne
    obtain rfl := hmoves e1 e2
    refine c4 fs _ _ n sl k hs (hwell _ _ _ hn hg hs) (fun p hp c hc => ?_) x y way hway hx hy hfar j hj hdeep
    obtain ⟨ps, hps, hp⟩ := List.mem_flatten.1 hp
    obtain ⟨wl, hwl, hps⟩ := List.mem_flatten.1 hps
    have hpin := perimetersOf_in hlib.area ho.moderate (hin1 sl (List.mem_of_getElem? hs)) wl hwl ps hps p hp
    have hcin : (modelArea o.printer.center lo hi).HasPath c := by
      rcases List.mem_append.1 hc with hc | hc
      · exact hpin.2 c hc
      · rw [List.mem_singleton.1 hc]
        exact hpin.1
    refine ⟨smallPath_in hsmall hcin, fun q hq => ?_⟩
    obtain ⟨a, b⟩ := small_in hsmall.minX hsmall.maxX hsmall.minY hsmall.maxY (hcin q hq)
    constructor <;> omega
  · exact hz2

/-- **C137** The print of a closed body as a whole. With a library which meets the assumptions and with options of usual size, the program prints every model of closed bodies which is not smaller than the first
layer and not larger than 55.1 mm, and the G-code prints the body (`PrintsBody`) on the area of the model and its margin. All statements are about the triangles in the file and the moves in the G-code only; the
number of walls `w` is the only value in between. -/
theorem C137_program (ext : Externals) (o : Options) (content : Str) {tol : ℚ} (h0 : 0 ≤ tol) (hlib : GoodLibrary ext.lib tol) (htrig : TurnsBack ext.trig) (ho : UsualOptions o)
    (m : Mesh) (hm : m = (ext.stl content).map stlTriangleToFace) (hbody : IsBody o.slicing.meldDistance m) {lo hi : Vec3} (hbox : IsBox (vertices m) lo hi)
    (hsmall : SmallBody o.printer.center lo hi) (harea : ((modelArea o.printer.center lo hi).grow (supportMargin o)).Small) (hheight : o.print.initialLayerThickness ≤ hi.z - lo.z) :
    ∃ t om sliced top, gcodeOf ext o content = .ok t ∧ optimize o m = .ok om ∧ slice ext.lib o om = .ok sliced ∧ sliced.length = top + 1 ∧
      layerHeight o top ≤ hi.z - lo.z ∧ hi.z - lo.z < layerHeight o (top + 1) ∧
      ∃ body mc moves, t = startText o ++ body ++ endText o ∧ run body = some (mc, moves) ∧
        EndIn ((modelArea o.printer.center lo hi).grow (printMargin o)) moves ∧
        ∀ w, (∀ l ∈ sliced, wallCount ext.lib o l.parts ≤ w) → (5 + w) * tol ≤ 9 * 10 ^ 4 →
          PrintsBody o (placedBody o.printer.center lo hi m) tol w top moves := by
  obtain ⟨t, om, sliced, top, ht, hom, hsl, hlen, ht1, ht2, body, mc, moves, hb1, hb2, hin, hprint⟩ :=
    program_prints ext o content h0 hlib htrig ho m hm (sheet_of_body hbody) hbox hsmall harea hheight
  refine ⟨t, om, sliced, top, ht, hom, hsl, hlen, ht1, ht2, body, mc, moves, hb1, hb2, hin, fun w hw htol => ?_⟩
  obtain ⟨lo', hi', hlo, hhi, hprint⟩ := hprint w hw htol
  have hth := ho.sensible.thickness
  have hfs := body_faces (sheet_of_body hbody) hbox hom
  have hclosed := closedSurface_map (placed_injective o.printer.center lo hi) hbody.closed
  obtain ⟨segs, hseg, -⟩ := bind_ok.1 hsl
  refine hprint _ _ fun k n l hn hg hl => ?_
  obtain ⟨layer, hlay⟩ := segments_exist hseg hsl (show n < sliced.length by omega)
  exact slicedAs_closed hom hfs hclosed (smallSurface_placed hbox hsmall) ho.meld hth ho.finish hseg (cutsWell_sliced hom hfs hclosed ho.meld hth hseg hlay hg.1 hg.2) hlib.sides h0 hsl hl hlo hhi

end Verif
