import Verif.Props.MotionModifiers
import Verif.Props.Moved
import Verif.Props.Independent

/-! # C136: another place or another direction of the model -/
namespace Verif
open Verif.Go Verif.Model Verif.Spec Verif.Spec.GCode

section
variable (m : Motion)

/-! ## Lines -/

theorem Spec.Motion.seekLoopM (a b : Pt) (ps : Path) : ∀ (i : Nat) (r : Nat × Micrometer),
    Model.seekLoopM (m.pt a) (m.pt b) (m.path ps) i r = Model.seekLoopM a b ps i r := by
  induction ps with
  | nil => intro i r; rfl
  | cons p ps ih =>
    intro i r
    obtain ⟨j, d⟩ := r
    show Model.seekLoopM _ _ (m.pt p :: m.path ps) _ _ = _
    rw [Model.seekLoopM, Model.seekLoopM, m.distance2M]
    exact ih _ _

theorem Spec.Motion.douglasAux (e : Micrometer) (n : Nat) : ∀ ps : Path, douglasPeuckerAuxM e n (m.path ps) = m.path (douglasPeuckerAuxM e n ps) := by
  induction n with
  | zero => intro ps; rfl
  | succ n ih =>
    intro ps
    match ps with
    | [] => rfl
    | [_] => rfl
    | [_, _] => rfl
    | p0 :: p1 :: p2 :: rest =>
      have hp : m.path (p0 :: p1 :: p2 :: rest) = m.pt p0 :: m.pt p1 :: m.pt p2 :: m.path rest := rfl
      have hl : (m.pt p2 :: m.path rest).getLast (by simp) = m.pt ((p2 :: rest).getLast (by simp)) :=
        List.getLast_map (f := m.pt) (l := p2 :: rest) (by simp)
      have hs : seekMostDistantPointM (m.pt p0) (m.pt ((p2 :: rest).getLast (by simp))) (m.pt p0 :: m.pt p1 :: m.pt p2 :: m.path rest) =
          seekMostDistantPointM p0 ((p2 :: rest).getLast (by simp)) (p0 :: p1 :: p2 :: rest) := m.seekLoopM _ _ (p0 :: p1 :: p2 :: rest) 0 (0, 0)
      rw [hp, douglasPeuckerAuxM, douglasPeuckerAuxM]
      simp only [hl, hs]
      split
      · have h1 : ∀ k, (m.pt p0 :: m.pt p1 :: m.pt p2 :: m.path rest).take k = m.path ((p0 :: p1 :: p2 :: rest).take k) := fun k => by
          rw [← hp, Motion.path, Motion.path, List.map_take]
        have h2 : ∀ k, (m.pt p0 :: m.pt p1 :: m.pt p2 :: m.path rest).drop k = m.path ((p0 :: p1 :: p2 :: rest).drop k) := fun k => by
          rw [← hp, Motion.path, Motion.path, List.map_drop]
        rw [h1, h2, ih, ih]
        simp only [Motion.path, List.map_append, List.map_dropLast]
      · rfl

theorem Spec.Motion.douglasPeuckerM (ps : Path) (e : Micrometer) : Model.douglasPeuckerM (m.path ps) e = m.path (Model.douglasPeuckerM ps e) :=
  m.douglasAux _ _ ps

theorem Spec.Motion.pathLines (isOpen : Bool) (ps : Path) : Spec.pathLines isOpen (m.path ps) = (Spec.pathLines isOpen ps).map fun l => (m.pt l.1, m.pt l.2) := by
  cases ps with
  | nil => rfl
  | cons p ps =>
    show List.zip (List.map m.pt (p :: ps)) (List.map m.pt ps ++ _) = List.map (Prod.map m.pt m.pt) (List.zip _ _)
    rw [← List.zip_map]
    cases isOpen <;> simp

/-! ## The optimizer -/

theorem optimize_recentered (d : Pt) (o : Options) (fs : Mesh) : optimize (recentered d o) fs = (optimize o fs).map (Motion.by_ d).model := by
  unfold optimize
  refine res_same _ fun s _ => res_same _ fun faces _ => res_same _ fun lo _ => res_same _ fun hi _ => ?_
  simp only [pure, Except.pure, Except.map, Motion.model, Motion.by_, Except.ok.injEq, OptModel.mk.injEq, List.map_map, true_and]
  refine ⟨List.map_congr_left fun p _ => ?_, (if_neg (by decide)).symm⟩
  simp only [Function.comp, MPoint.mk.injEq, and_true, Vec3.sub, vectorOffset, recentered, Motion.vec, Vec3.mk.injEq]
  omega

theorem Spec.Motion.vertices (fs : Mesh) : Spec.vertices (m.mesh fs) = (Spec.vertices fs).map m.vec := by
  simp only [Spec.vertices, Motion.mesh, List.flatMap_map, List.map_flatMap]
  rfl

theorem Spec.Motion.vec_inj {p q : Vec3} (h : m.vec p = m.vec q) : p = q := by
  obtain ⟨a, b, c⟩ := p
  obtain ⟨a', b', c'⟩ := q
  simp only [Motion.vec, Vec3.mk.injEq] at h ⊢
  rcases m.quarter with ⟨h1, h2⟩ | ⟨h1, h2⟩ | ⟨h1, h2⟩ | ⟨h1, h2⟩ <;> rw [h1, h2] at h <;> omega

theorem Spec.Motion.dist2 (p q : Vec3) : vecDist2 (m.vec p) (m.vec q) = vecDist2 p q := by
  simp only [vecDist2, Motion.vec]
  rcases m.quarter with ⟨h1, h2⟩ | ⟨h1, h2⟩ | ⟨h1, h2⟩ | ⟨h1, h2⟩ <;> rw [h1, h2] <;> ring

theorem Spec.Motion.separated {d : Int} {fs : Mesh} (hs : Separated d fs) : Separated d (m.mesh fs) := by
  intro p hp q hq hne
  rw [m.vertices] at hp hq
  obtain ⟨p, hp', rfl⟩ := List.mem_map.1 hp
  obtain ⟨q, hq', rfl⟩ := List.mem_map.1 hq
  rw [m.dist2]
  exact hs p hp' q hq' fun h => hne (by rw [h])


theorem Spec.Motion.isBox (h0 : m.shift = ⟨0, 0⟩) {ps : List Vec3} {lo hi : Vec3} (h : IsBox ps lo hi) :
    ∃ lo' hi', IsBox (ps.map m.vec) lo' hi' ∧ lo'.x + hi'.x = m.c * (lo.x + hi.x) - m.s * (lo.y + hi.y) ∧
      lo'.y + hi'.y = m.s * (lo.x + hi.x) + m.c * (lo.y + hi.y) ∧ lo'.z = lo.z ∧
      hi'.sub lo' = if m.c = 0 then ⟨(hi.sub lo).y, (hi.sub lo).x, (hi.sub lo).z⟩ else hi.sub lo := by
  obtain ⟨i, ⟨p1, m1, e1⟩, ⟨p2, m2, e2⟩, ⟨p3, m3, e3⟩, ⟨p4, m4, e4⟩, ⟨p5, m5, e5⟩, ⟨p6, m6, e6⟩⟩ := h
  have mm : ∀ {p}, p ∈ ps → m.vec p ∈ ps.map m.vec := fun h => List.mem_map_of_mem h
  have hx : m.shift.x = 0 := by rw [h0]
  have hy : m.shift.y = 0 := by rw [h0]
  rcases m.quarter with ⟨h1, h2⟩ | ⟨h1, h2⟩ | ⟨h1, h2⟩ | ⟨h1, h2⟩
  · refine ⟨⟨lo.x, lo.y, lo.z⟩, ⟨hi.x, hi.y, hi.z⟩, ⟨?_, ⟨_, mm m1, ?_⟩, ⟨_, mm m2, ?_⟩, ⟨_, mm m3, ?_⟩, ⟨_, mm m4, ?_⟩, ⟨_, mm m5, ?_⟩, ⟨_, mm m6, ?_⟩⟩, ?_⟩
    · intro p hp
      obtain ⟨q, hq, rfl⟩ := List.mem_map.1 hp
      have := i q hq
      simp only [Motion.vec, h1, h2, hx, hy]
      omega
    all_goals simp [Motion.vec, *, Vec3.sub]
  · refine ⟨⟨-hi.y, lo.x, lo.z⟩, ⟨-lo.y, hi.x, hi.z⟩, ⟨?_, ⟨_, mm m4, ?_⟩, ⟨_, mm m3, ?_⟩, ⟨_, mm m1, ?_⟩, ⟨_, mm m2, ?_⟩, ⟨_, mm m5, ?_⟩, ⟨_, mm m6, ?_⟩⟩, ?_⟩
    · intro p hp
      obtain ⟨q, hq, rfl⟩ := List.mem_map.1 hp
      have := i q hq
      simp only [Motion.vec, h1, h2, hx, hy]
      omega
    all_goals simp [Motion.vec, *, Vec3.sub]
    all_goals omega
  · refine ⟨⟨-hi.x, -hi.y, lo.z⟩, ⟨-lo.x, -lo.y, hi.z⟩, ⟨?_, ⟨_, mm m2, ?_⟩, ⟨_, mm m1, ?_⟩, ⟨_, mm m4, ?_⟩, ⟨_, mm m3, ?_⟩, ⟨_, mm m5, ?_⟩, ⟨_, mm m6, ?_⟩⟩, ?_⟩
    · intro p hp
      obtain ⟨q, hq, rfl⟩ := List.mem_map.1 hp
      have := i q hq
      simp only [Motion.vec, h1, h2, hx, hy]
      omega
    all_goals simp [Motion.vec, *, Vec3.sub]
    all_goals omega
  · refine ⟨⟨lo.y, -hi.x, lo.z⟩, ⟨hi.y, -lo.x, hi.z⟩, ⟨?_, ⟨_, mm m3, ?_⟩, ⟨_, mm m4, ?_⟩, ⟨_, mm m2, ?_⟩, ⟨_, mm m1, ?_⟩, ⟨_, mm m5, ?_⟩, ⟨_, mm m6, ?_⟩⟩, ?_⟩
    · intro p hp
      obtain ⟨q, hq, rfl⟩ := List.mem_map.1 hp
      have := i q hq
      simp only [Motion.vec, h1, h2, hx, hy]
      omega
    all_goals simp [Motion.vec, *, Vec3.sub]
    all_goals omega

/-- A model turned about the origin of its file is turned about the center. -/
theorem optimize_turned (h0 : m.shift = ⟨0, 0⟩) (o : Options) (fs : Mesh) (hs : Separated o.slicing.meldDistance fs) :
    optimize o (m.mesh fs) = (optimize o fs).map (m.about o.printer.center).model := by
  by_cases hm : fs = []
  · subst hm
    rfl
  by_cases hd : (2 : Int) ^ 64 ∣ o.slicing.meldDistance
  · rw [optimize_no_hash o fs hm hd, optimize_no_hash o (m.mesh fs) (by simpa [Motion.mesh] using hm) hd]
    rfl
  obtain ⟨om, h⟩ := C87_succeeds o fs hm hd
  obtain ⟨om', h'⟩ := C87_succeeds o (m.mesh fs) (by simpa [Motion.mesh] using hm) hd
  rw [h, h']
  simp only [optimize, bind_ok, pure, Except.pure, Except.ok.injEq] at h h'
  obtain ⟨s, hs1, ts, hts, lo, hlo, hi, hhi, rfl⟩ := h
  obtain ⟨s', hs1', ts', hts', lo', hlo', hi', hhi', rfl⟩ := h'
  have hh : toHash o.slicing.meldDistance ≠ 0 := by
    intro hz
    cases fs with
    | nil => cases hlo
    | cons f fs => simp [addFaces, addFace, addPoint, pointHash, hz, bind, Except.bind] at hs1
  have hits : ∀ p ∈ Spec.vertices fs, ∀ q ∈ Spec.vertices fs, meldHit o.slicing.meldDistance (m.vec q) (m.vec p) = meldHit o.slicing.meldDistance q p := by
    intro p hp q hq
    rw [meldHit_separated hs hp hq, meldHit_separated (m.separated hs) (by rw [m.vertices]; exact List.mem_map_of_mem hp)
      (by rw [m.vertices]; exact List.mem_map_of_mem hq)]
    exact decide_eq_decide.2 ⟨m.vec_inj, fun h => by rw [h]⟩
  have f0 : FInv {} := ⟨by simp, by simp⟩
  have r0 : Moves o.slicing.meldDistance (Spec.vertices fs) m.vec {} {} :=
    ⟨⟨⟨fun h => rfl, by simp [posOf], by simp [posOf]⟩, f0⟩, ⟨⟨fun h => rfl, by simp [posOf], by simp [posOf]⟩, f0⟩, rfl, rfl⟩
  obtain ⟨t, t', h1, h2, r⟩ := addFaces_moves hh hits fs r0 (fun _ h => h)
  rw [hs1] at h1
  cases h1
  have h2 : addFaces o.slicing.meldDistance {} (m.mesh fs) = .ok t' := h2
  rw [hs1'] at h2
  cases h2
  rw [r.points, r.faces, touchingFaces_withPos, hts] at hts'
  cases hts'
  obtain ⟨lo2, hi2, hbox, ex, ey, ez, es⟩ := m.isBox h0 (mesh_box hlo hhi)
  rw [← m.vertices] at hbox
  obtain ⟨rfl, rfl⟩ := isBox_unique hbox (mesh_box hlo' hhi')
  simp only [Except.map, Motion.model, Except.ok.injEq, OptModel.mk.injEq, true_and, r.points, withPos, List.map_map]
  refine ⟨List.map_congr_left fun p _ => ?_, es⟩
  have hx : m.shift.x = 0 := by rw [h0]
  have hy : m.shift.y = 0 := by rw [h0]
  have neg : ∀ a : Int, (-a).tdiv 2 = -a.tdiv 2 := fun a => Int.neg_tdiv a 2
  simp only [Function.comp, MPoint.mk.injEq, and_true, Vec3.sub, vectorOffset, Motion.vec, Motion.about, Vec3.mk.injEq, ex, ey, ez, hx, hy]
  rcases m.quarter with ⟨h1, h2⟩ | ⟨h1, h2⟩ | ⟨h1, h2⟩ | ⟨h1, h2⟩
  · simp only [h1, h2, one_mul, zero_mul, sub_zero, zero_add]
    omega
  · simp only [h1, h2, one_mul, zero_mul, add_zero, zero_sub, neg]
    omega
  · simp only [h1, h2, neg_one_mul, zero_mul, sub_zero, zero_add, neg]
    omega
  · simp only [h1, h2, neg_one_mul, zero_mul, zero_sub, add_zero, neg, neg_neg]
    omega

/-! ## The layers -/

theorem Spec.Motion.skirtLines {lib : ClipperLib} (hlib : m.Respected lib) (o : Options) (support : List LayerPart) (walls : OffsetResult) :
    Model.skirtLines lib o (support.map m.part) (walls.map (List.map (List.map m.part))) = (Model.skirtLines lib o support walls).map (List.map m.part) := by
  unfold Model.skirtLines
  rw [← m.inset hlib, toOneDimension_map, ← List.map_append, m.hullOf hlib]
  rfl

/-- The layers of a print with all attributes: the pipeline without the printing. -/
def layersOf (ext : Externals) (o : Options) (fs : Mesh) : Res (List Layer) := do
  let om ← optimize o fs
  let ls ← slice ext.lib o om
  (standardModifiers ext.lib ext.tan o).foldlM (fun ls m => m ls) ls

theorem modifiers_recentered (lib : ClipperLib) (tan : ℚ) (d : Pt) (o : Options) : standardModifiers lib tan (recentered d o) = standardModifiers lib tan o := by
  have e1 : perimeterModifier lib (recentered d o) = perimeterModifier lib o := funext (perimeterModifier_depends rfl rfl rfl)
  have e2 : infillModifier lib (recentered d o) = infillModifier lib o := funext (infillModifier_depends ⟨rfl, rfl, rfl, rfl, rfl⟩)
  have e3 : internalInfillModifier lib (recentered d o) = internalInfillModifier lib o := funext (internalInfillModifier_depends Iff.rfl)
  have e4 : brimModifier lib (recentered d o) = brimModifier lib o := funext (brimModifier_depends rfl rfl)
  have e5 : supportDetector lib tan (recentered d o) = supportDetector lib tan o := funext (supportDetector_depends rfl rfl rfl rfl)
  have e6 : supportGenerator lib (recentered d o) = supportGenerator lib o := funext (supportGenerator_depends rfl rfl rfl)
  simp only [standardModifiers, e1, e2, e3, e4, e5, e6]

/-- **C136** Another center: everything in every layer (parts, walls, areas of infill, brim, support) is moved with it, and nothing else changes. It fails
in the same cases with the same error. -/
theorem C136_moved (ext : Externals) (d : Pt) (hlib : (Motion.by_ d).Respected ext.lib) (o : Options) (fs : Mesh) :
    layersOf ext (recentered d o) fs = (layersOf ext o fs).map (List.map (Motion.by_ d).layer) := by
  unfold layersOf
  refine res_bind _ (optimize_recentered d o fs) _ fun om _ => ?_
  rw [← slice_depends (o := o) (o' := recentered d o) ⟨rfl, rfl, rfl⟩]
  rw [modifiers_recentered]
  refine res_bind _ ((Motion.by_ d).sliced hlib o om) _ fun ls _ => ?_
  exact (Motion.by_ d).modified hlib ext.tan o ls

/-- **C136** A model which is turned by a multiple of 90 degrees about the vertical axis in its file: all layers are turned about the center, if the corners of the
model are farther apart than the meld distance. -/
theorem C136_turned (ext : Externals) (h0 : m.shift = ⟨0, 0⟩) (o : Options) (hlib : (m.about o.printer.center).Respected ext.lib) (fs : Mesh)
    (hs : Separated o.slicing.meldDistance fs) :
    layersOf ext o (m.mesh fs) = (layersOf ext o fs).map (List.map (m.about o.printer.center).layer) := by
  unfold layersOf
  refine res_bind _ (optimize_turned m h0 o fs hs) _ fun om _ => ?_
  refine res_bind _ ((m.about o.printer.center).sliced hlib o om) _ fun ls _ => ?_
  exact (m.about o.printer.center).modified hlib ext.tan o ls

/-- **C136** The polygons found by the slicer, without any assumption about the library: those of a moved or turned model are the moved polygons. -/
theorem C136_polygons (o : Options) (om : OptModel) :
    sliceSegments o (m.model om) = (sliceSegments o om).map (List.map (Option.map m.slices)) ∧
    ∀ l, makePolygons o (m.model om) (m.slices l) = (makePolygons o om l).map (List.map m.path) :=
  ⟨m.sliceSegments o om, m.makePolygons o om⟩

end

/-- The lines of a path are printed at their place, and in the other print at the moved place. -/
def PrintedMoved (m : Motion) (o : Options) (moves moves' : List Move) (n : Nat) (path : Path) : Prop :=
  ∀ a b, (a, b) ∈ pathLines false (douglasPeuckerM path (-1)) → a ≠ b → |b.x - a.x| ≤ 2 ^ 53 → |b.y - a.y| ≤ 2 ^ 53 →
    Printed moves (layerHeight o n) a b ∧ Printed moves' (layerHeight o n) (m.pt a) (m.pt b)

theorem printedMoved_of {o : Options} {moves moves' : List Move} {n : Nat} {path : Path} {d : Pt} (h : PathPrinted o moves n false path)
    (h' : PathPrinted o moves' n false ((Motion.by_ d).path path)) : PrintedMoved (Motion.by_ d) o moves moves' n path := by
  intro a b hab hne hx hy
  refine ⟨h a b hab hne hx hy, ?_⟩
  have e : ∀ p, (Motion.by_ d).pt p = ⟨p.x + d.x, p.y + d.y⟩ := fun p => by simp [Motion.pt, Motion.by_]
  refine h' _ _ ?_ ?_ ?_ ?_
  · rw [Motion.douglasPeuckerM, Motion.pathLines]
    exact List.mem_map_of_mem (f := fun l : Pt × Pt => ((Motion.by_ d).pt l.1, (Motion.by_ d).pt l.2)) hab
  · intro he
    apply hne
    rw [e, e, Pt.mk.injEq] at he
    obtain ⟨_, _⟩ := a
    obtain ⟨_, _⟩ := b
    simp only [Pt.mk.injEq] at he ⊢
    omega
  · rw [e, e]
    simpa using hx
  · rw [e, e]
    simpa using hy

/-- **C136** In the text: every line of the walls, the brim and the skirt is printed, and the print with the other center prints it at the moved place. -/
theorem C136_printed (ext : Externals) (d : Pt) (hlib : (Motion.by_ d).Respected ext.lib) (o : Options) (ho : Extrudes o) {content t t' : Str}
    (h : gcodeOf ext o content = .ok t) (h' : gcodeOf ext (recentered d o) content = .ok t') :
    ∃ layers, layersOf ext o ((ext.stl content).map stlTriangleToFace) = .ok layers ∧
      layersOf ext (recentered d o) ((ext.stl content).map stlTriangleToFace) = .ok (layers.map (Motion.by_ d).layer) ∧
      (layers = [] ∨ ∃ body m moves body' m' moves', t = startText o ++ body ++ endText o ∧ t' = startText o ++ body' ++ endText o ∧
        run body = some (m, moves) ∧ run body' = some (m', moves') ∧ ∀ n l, layers[n]? = some l →
          (∃ walls, l.perimeters = .ok walls ∧ ∀ p ∈ walls.flatten.flatten, ∀ contour ∈ p.holes ++ [p.outline],
            PrintedMoved (Motion.by_ d) o moves moves' n contour) ∧
          (∃ brim, l.brim = .ok brim ∧ ∀ p ∈ brim.flatten.flatten, PrintedMoved (Motion.by_ d) o moves moves' n p.outline) ∧
          (n = 0 → o.print.brimSkirt.skirtCount ≠ 0 → ∃ walls support, l.perimeters = .ok walls ∧ l.fullSupport = .ok support ∧
            (¬ (support = [] ∧ walls = []) → ∀ p ∈ (skirtLines ext.lib o support walls).flatten,
              PrintedMoved (Motion.by_ d) o moves moves' n p.outline))) := by
  obtain ⟨om, sliced, layers, pt, g0, a1, a2, a3, -, a5⟩ := gcodeOf_steps h
  obtain ⟨om', sliced', layers', pt', g0', b1, b2, b3, -, b5⟩ := gcodeOf_steps h'
  have e1 : layersOf ext o ((ext.stl content).map stlTriangleToFace) = .ok layers := by
    simp only [layersOf, a1, a2, bind, Except.bind]
    exact a3
  have e2 : layersOf ext (recentered d o) ((ext.stl content).map stlTriangleToFace) = .ok layers' := by
    simp only [layersOf, b1, b2, bind, Except.bind]
    exact b3
  have e3 := C136_moved ext d hlib o ((ext.stl content).map stlTriangleToFace)
  rw [e1, e2] at e3
  cases e3
  refine ⟨layers, e1, e2, ?_⟩
  by_cases hne : layers = []
  · exact .inl hne
  obtain ⟨body, m, moves, c1, c2, c3⟩ := C111_printed ho hne a5
  obtain ⟨body', m', moves', d1, d2, d3⟩ := C111_printed (o := recentered d o) ⟨ho.1, ho.2, ho.3, ho.4, ho.5⟩ (by simpa using hne) b5
  refine .inr ⟨body, m, moves, body', m', moves', c1, d1, c2, d2, fun n l hl => ?_⟩
  obtain ⟨⟨walls, w1, w2⟩, ⟨brim, r1, r2⟩, -, s⟩ := c3 n l hl
  obtain ⟨⟨walls', v1, v2⟩, ⟨brim', q1, q2⟩, -, s'⟩ := d3 n ((Motion.by_ d).layer l) (by rw [List.getElem?_map, hl]; rfl)
  rw [Motion.perimeters, w1] at v1
  cases v1
  rw [Motion.brim, r1] at q1
  cases q1
  refine ⟨⟨walls, w1, fun p hp c hc => printedMoved_of (w2 p hp c hc) (v2 ((Motion.by_ d).part p) ?_ _ ?_)⟩,
    ⟨brim, r1, fun p hp => printedMoved_of (r2 p hp) (q2 ((Motion.by_ d).part p) ?_)⟩, fun hn hk => ?_⟩
  · rw [← List.map_flatten, ← List.map_flatten]
    exact List.mem_map_of_mem hp
  · have : ((Motion.by_ d).part p).holes ++ [((Motion.by_ d).part p).outline] = (p.holes ++ [p.outline]).map (Motion.by_ d).path := by
      simp [Motion.part]
    rw [this]
    exact List.mem_map_of_mem hc
  · rw [← List.map_flatten, ← List.map_flatten]
    exact List.mem_map_of_mem hp
  · obtain ⟨walls1, support, x1, x2, x3⟩ := s hn hk
    obtain ⟨walls2, support', y1, y2, y3⟩ := s' hn hk
    rw [w1] at x1
    cases x1
    rw [Motion.perimeters, w1] at y1
    cases y1
    have : ((Motion.by_ d).layer l).fullSupport = l.fullSupport.map (List.map (Motion.by_ d).part) := by
      unfold Layer.fullSupport
      rw [Motion.layer_attr]
      rcases l.attr _ with _ | (_ | _ | _ | _) <;> rfl
    rw [this, x2] at y2
    cases y2
    refine ⟨walls, support, w1, x2, fun hnot p hp => printedMoved_of (x3 hnot p hp) (y3 ?_ ((Motion.by_ d).part p) ?_)⟩
    · simpa using hnot
    · rw [show Model.skirtLines ext.lib (recentered d o) _ _ = _ from Motion.skirtLines (Motion.by_ d) hlib o support walls, ← List.map_flatten]
      exact List.mem_map_of_mem hp

/-- A library for the examples: it keeps everything as it is. -/
def keepingClipper : ClipperLib where
  execute := fun _ s _ => some (s.map (fun l => .node l []))
  executeOpen := fun t s _ => some (if t = .intersection then s.map (fun l => .node (l.take 2) []) else [])
  offset := fun s _ => s.map (fun l => .node l [])
  hull := id

/-- It respects all movements. -/
theorem keeping_respects (m : Motion) : m.Respected keepingClipper := by
  have e : ∀ s : List (List IntPoint), (s.map (List.map m.ipt)).map (fun l => PolyNode.node l []) = m.nodes (s.map (fun l => PolyNode.node l [])) := by
    intro s
    rw [m.nodes_eq, List.map_map, List.map_map]
    rfl
  refine ⟨fun t a b => ?_, fun t a b => ?_, fun a d => e a, fun p => rfl⟩
  · simp only [keepingClipper, e, Option.map_some]
  · simp only [keepingClipper]
    split
    · rw [Option.map_some, m.nodes_eq, List.map_map, List.map_map]
      simp only [Function.comp_def, Motion.node, Motion.nodes, List.map_take]
    · rfl

/-- Non-vacuity: the tetrahedron 5 mm farther to the right. -/
example : ∃ t t', gcodeOf { cornerExt with lib := keepingClipper } {} [] = .ok t ∧ gcodeOf { cornerExt with lib := keepingClipper } (recentered ⟨5000, 0⟩ {}) [] = .ok t' ∧
    (Motion.by_ ⟨5000, 0⟩).Respected keepingClipper := by
  have hm : cornerMesh = (cornerExt.stl []).map stlTriangleToFace := by decide +kernel
  have ho : OpenClipping keepingClipper := by
    refine ⟨fun t s c => ⟨_, rfl⟩, ?_⟩
    intro s c tree h hs n hn
    simp only [keepingClipper, if_true, Option.some.injEq] at h
    subst h
    obtain ⟨l, hl, rfl⟩ := List.mem_map.1 hn
    simp [PolyNode.contour, hs l hl]
  obtain ⟨t, ht⟩ := C90_gcode { cornerExt with lib := keepingClipper } {} [] sensible_default (fun _ _ _ => rfl) ho cornerMesh hm (by decide) (by decide)
    (by unfold Separated; decide +kernel) corner_noGap (.inr rfl)
  obtain ⟨t', ht'⟩ := C90_gcode { cornerExt with lib := keepingClipper } (recentered ⟨5000, 0⟩ {}) []
    ⟨by decide, by decide, by decide, by decide, by decide, by decide, by decide, by decide +kernel, by decide⟩ (fun _ _ _ => rfl) ho cornerMesh hm (by decide) (by decide)
    (by unfold Separated; decide +kernel) corner_noGap (.inr rfl)
  exact ⟨t, t', ht, ht', keeping_respects _⟩

/-- Non-vacuity of `C136_turned`: the tetrahedron turned by 90 degrees. -/
example : layersOf { cornerExt with lib := keepingClipper } {} ((⟨0, 1, ⟨0, 0⟩, by simp⟩ : Motion).mesh cornerMesh) =
    (layersOf { cornerExt with lib := keepingClipper } {} cornerMesh).map (List.map ((⟨0, 1, ⟨0, 0⟩, by simp⟩ : Motion).about ({} : Options).printer.center).layer) :=
  C136_turned ⟨0, 1, ⟨0, 0⟩, by simp⟩ { cornerExt with lib := keepingClipper } rfl {} (keeping_respects _) cornerMesh corner_separated

end Verif
