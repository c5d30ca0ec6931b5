import Verif.Props.Whole

/-! # C108: the place of the model in its file -/
namespace Verif
open Verif.Go Verif.Model Verif.Spec

/-- Points with changed positions. -/
def withPos (g : Vec3 → Vec3) (ps : List MPoint) : List MPoint := ps.map fun p => { p with pos := g p.pos }

theorem index_withPos (g : Vec3 → Vec3) (ps : List MPoint) (i : Int) :
    index (withPos g ps) i = (index ps i).map fun p => { p with pos := g p.pos } := by
  unfold index withPos
  split
  · rw [List.getElem?_map]
    cases ps[i.toNat]? <;> rfl
  · rfl

theorem addFaceIndex_withPos (g : Vec3 → Vec3) (face i : Nat) (ps : List MPoint) :
    addFaceIndex face i (withPos g ps) = withPos g (addFaceIndex face i ps) := by
  apply List.ext_getElem?
  intro j
  rw [getElem?_addFaceIndex, withPos, withPos, List.getElem?_map, List.getElem?_map, getElem?_addFaceIndex]
  cases ps[j]? with
  | none => rfl
  | some p =>
    simp only [Option.map_some]
    split <;> rfl

theorem findIdx_congr {α : Type} {p q : α → Bool} {l : List α} (h : ∀ a ∈ l, p a = q a) : l.findIdx? p = l.findIdx? q := by
  induction l with
  | nil => rfl
  | cons a l ih => rw [List.findIdx?_cons, List.findIdx?_cons, h a (by simp), ih fun b hb => h b (by simp [hb])]

/-- Two states of the optimizer which differ in the positions only. -/
structure Moves (meld : Micrometer) (vs : List Vec3) (g : Vec3 → Vec3) (s s' : OptState) : Prop where
  left : PInv meld vs s ∧ FInv s
  right : PInv meld (vs.map g) s' ∧ FInv s'
  points : s'.points = withPos g s.points
  faces : s'.faces = s.faces

section
variable {meld : Micrometer} {vs : List Vec3} {g : Vec3 → Vec3} (hh : toHash meld ≠ 0)
  (hits : ∀ p ∈ vs, ∀ v ∈ vs, meldHit meld (g v) (g p) = meldHit meld v p)
include hh hits

theorem addPoint_moves {s s' : OptState} (r : Moves meld vs g s s') {v : Vec3} (hv : v ∈ vs) :
    ∃ i t t', addPoint meld s v = .ok (i, t) ∧ addPoint meld s' (g v) = .ok (i, t') ∧ Moves meld vs g t t' ∧ i < t.points.length ∧
      s.points.length ≤ t.points.length := by
  obtain ⟨⟨i, t⟩, h1⟩ := addPoint_total hh r.left.1.buckets v
  obtain ⟨⟨i', t'⟩, h2⟩ := addPoint_total hh r.right.1.buckets (g v)
  obtain ⟨a1, a2, a3, a4, a5⟩ := addPoint_inv r.left.1 r.left.2 hv h1
  obtain ⟨b1, b2, b3, b4, b5⟩ := addPoint_inv r.right.1 r.right.2 (List.mem_map_of_mem hv) h2
  have hpos : posOf s' = (posOf s).map g := by
    simp only [posOf, r.points, withPos, List.map_map]
    rfl
  have hfind : (posOf s').findIdx? (meldHit meld (g v)) = (posOf s).findIdx? (meldHit meld v) := by
    rw [hpos, List.findIdx?_map]
    exact findIdx_congr fun p hp => hits p (r.left.1.mem p hp) v hv
  have hlen : s'.points.length = s.points.length := by rw [r.points, withPos, List.length_map]
  have hi : i < t.points.length := by rw [← length_posOf]; exact findIdx_lt a5
  have hl : s.points.length ≤ t.points.length := by rw [← length_posOf, ← length_posOf]; exact a4.length_le
  have key : i' = i ∧ t'.points = withPos g t.points := by
    rcases addPoint_ok r.left.1.buckets v i t h1 with ⟨c1, rfl⟩ | ⟨c1, rfl, c2, -⟩ <;>
      rcases addPoint_ok r.right.1.buckets (g v) i' t' h2 with ⟨d1, rfl⟩ | ⟨d1, rfl, d2, -⟩ <;>
      rw [hfind, c1] at d1 <;> cases d1
    · exact ⟨rfl, r.points⟩
    · exact ⟨hlen, by rw [d2, c2, r.points]; simp [withPos]⟩
  obtain ⟨rfl, hp⟩ := key
  exact ⟨_, t, t', h1, h2, ⟨⟨a1, a2⟩, ⟨b1, b2⟩, hp, by rw [b3, a3, r.faces]⟩, hi, hl⟩

omit hh hits in
theorem addIndices_moves {s s' : OptState} (r : Moves meld vs g s s') {t : Tri Nat} (ht : ∀ i ∈ t.corners, i < s.points.length) :
    ∃ u u', addIndices s t = .ok u ∧ addIndices s' t = .ok u' ∧ Moves meld vs g u u' := by
  have hlen : s'.points.length = s.points.length := by rw [r.points, withPos, List.length_map]
  obtain ⟨u, h1⟩ := addIndices_total ht
  obtain ⟨u', h2⟩ := addIndices_total (s := s') (t := t) (by rwa [hlen])
  obtain ⟨a1, a2, -⟩ := addIndices_inv r.left.1 r.left.2 ht h1
  obtain ⟨b1, b2, -⟩ := addIndices_inv r.right.1 r.right.2 (by rwa [hlen]) h2
  suffices u'.points = withPos g u.points ∧ u'.faces = u.faces from ⟨u, u', h1, h2, ⟨a1, a2⟩, ⟨b1, b2⟩, this.1, this.2⟩
  have e : ∀ i ∈ t.corners, index s.points (i : Int) = .ok (s.points[i]?.getD ⟨⟨0, 0, 0⟩, []⟩) := fun i hi => by
    rw [List.getElem?_eq_getElem (ht i hi)]
    exact index_of (List.getElem?_eq_getElem (ht i hi))
  unfold addIndices at h1 h2
  by_cases hc : t.a = t.b ∨ t.a = t.c ∨ t.b = t.c
  · rw [if_pos hc] at h1 h2
    cases h1
    cases h2
    exact ⟨r.points, r.faces⟩
  · rw [if_neg hc] at h1 h2
    simp only [r.points, index_withPos, e t.a (by simp [Tri.corners]), e t.b (by simp [Tri.corners]), e t.c (by simp [Tri.corners]), Except.map,
      bind, Except.bind, r.faces] at h1 h2
    split at h1
    · next hs =>
      rw [if_pos hs] at h2
      cases h1
      cases h2
      exact ⟨r.points, r.faces⟩
    · next hs =>
      rw [if_neg hs] at h2
      cases h1
      cases h2
      simp only [addFaceIndex_withPos, and_self]

theorem addFace_moves {s s' : OptState} (r : Moves meld vs g s s') {f : Tri Vec3} (hv : ∀ v ∈ f.corners, v ∈ vs) :
    ∃ t t', addFace meld s f = .ok t ∧ addFace meld s' (f.map g) = .ok t' ∧ Moves meld vs g t t' := by
  obtain ⟨i0, s0, s0', h0, h0', r0, l0, -⟩ := addPoint_moves hh hits r (hv f.a (by simp [Tri.corners]))
  obtain ⟨i1, s1, s1', h1, h1', r1, l1, m1⟩ := addPoint_moves hh hits r0 (hv f.b (by simp [Tri.corners]))
  obtain ⟨i2, s2, s2', h2, h2', r2, l2, m2⟩ := addPoint_moves hh hits r1 (hv f.c (by simp [Tri.corners]))
  obtain ⟨u, u', h3, h3', r3⟩ := addIndices_moves r2 (t := ⟨i0, i1, i2⟩) (by
    intro i hi
    simp only [Tri.corners, List.mem_cons, List.not_mem_nil, or_false] at hi
    omega)
  exact ⟨u, u', by simp only [addFace, h0, bind, Except.bind, h1, h2, h3],
    by simp only [addFace, Tri.map, h0', bind, Except.bind, h1', h2', h3'], r3⟩

theorem addFaces_moves (m : Mesh) {s s' : OptState} (r : Moves meld vs g s s') (hv : ∀ v ∈ vertices m, v ∈ vs) :
    ∃ t t', addFaces meld s m = .ok t ∧ addFaces meld s' (m.map (Tri.map g)) = .ok t' ∧ Moves meld vs g t t' := by
  induction m generalizing s s' with
  | nil => exact ⟨s, s', rfl, rfl, r⟩
  | cons f m ih =>
    obtain ⟨s1, s1', h1, h1', r1⟩ := addFace_moves hh hits r (f := f) (fun v hv' => hv v (by simp [vertices, hv']))
    obtain ⟨s2, s2', h2, h2', r2⟩ := ih r1 (fun v hv' => hv v (by simp only [vertices, List.flatMap_cons, List.mem_append]; exact .inr hv'))
    exact ⟨s2, s2', by simp only [addFaces, h1, bind, Except.bind, h2],
      by simp only [List.map_cons, addFaces, h1', bind, Except.bind, h2'], r2⟩

end

theorem getFaceIdx_withPos (g : Vec3 → Vec3) (ps : List MPoint) (a b i : Nat) :
    getFaceIdxWithPoints (withPos g ps) a b i = getFaceIdxWithPoints ps a b i := by
  unfold getFaceIdxWithPoints
  rw [index_withPos, index_withPos]
  cases index ps (a : Int) <;> cases index ps (b : Int) <;> rfl

theorem touchingFaces_withPos (g : Vec3 → Vec3) (ps : List MPoint) (i : Nat) (fs : List OptFace) :
    touchingFaces (withPos g ps) i fs = touchingFaces ps i fs := by
  induction fs generalizing i with
  | nil => rfl
  | cons f fs ih => simp only [touchingFaces, touchingFace, getFaceIdx_withPos, ih]

/-- The movement of a point. -/
def moveBy (v p : Vec3) : Vec3 := ⟨p.x + v.x, p.y + v.y, p.z + v.z⟩

theorem minVec_moved (v a b : Vec3) : minVec (moveBy v a) (moveBy v b) = moveBy v (minVec a b) := by
  simp only [minVec, moveBy, Vec3.mk.injEq]
  refine ⟨?_, ?_, ?_⟩ <;> split_ifs <;> omega

theorem maxVec_moved (v a b : Vec3) : maxVec (moveBy v a) (moveBy v b) = moveBy v (maxVec a b) := by
  simp only [maxVec, moveBy, Vec3.mk.injEq]
  refine ⟨?_, ?_, ?_⟩ <;> split_ifs <;> omega

theorem vertices_moved (v : Vec3) (m : Mesh) : vertices (movedMesh v m) = (vertices m).map (moveBy v) := by
  simp only [vertices, movedMesh, List.flatMap_map, List.map_flatMap]
  rfl

theorem fold_moved (v : Vec3) (g : Vec3 → Vec3 → Vec3) (hg : ∀ a b, g (moveBy v a) (moveBy v b) = moveBy v (g a b)) (l : List Vec3) (a : Vec3) :
    (l.map (moveBy v)).foldl g (moveBy v a) = moveBy v (l.foldl g a) := by
  induction l generalizing a with
  | nil => rfl
  | cons b l ih => rw [List.map_cons, List.foldl_cons, List.foldl_cons, hg, ih]

theorem meshMin_moved (v : Vec3) (m : Mesh) : meshMin (movedMesh v m) = (meshMin m).map (moveBy v) := by
  cases m with
  | nil => rfl
  | cons f m =>
    show Except.ok _ = Except.ok _
    rw [foldl_corners, foldl_corners, vertices_moved]
    exact congrArg _ (fold_moved v _ (minVec_moved v) _ _)

theorem meshMax_moved (v : Vec3) (m : Mesh) : meshMax (movedMesh v m) = (meshMax m).map (moveBy v) := by
  cases m with
  | nil => rfl
  | cons f m =>
    show Except.ok _ = Except.ok _
    rw [foldl_corners, foldl_corners, vertices_moved]
    exact congrArg _ (fold_moved v _ (maxVec_moved v) _ _)

theorem tdiv_two_moved (s d : Int) : |s.tdiv 2 + d - (s + 2 * d).tdiv 2| ≤ 1 ∧ (SameRounding s d → (s + 2 * d).tdiv 2 = s.tdiv 2 + d) := by
  have h1 : ∀ a : Int, 0 ≤ a → a.tdiv 2 = a / 2 := fun a h => Int.tdiv_eq_ediv_of_nonneg h
  have h2 : ∀ a : Int, a ≤ 0 → a.tdiv 2 = -((-a) / 2) := fun a h => by
    have : a.tdiv 2 = -((-a).tdiv 2) := by rw [Int.neg_tdiv]; omega
    rw [this, h1 _ (by omega)]
  rw [abs_le]
  unfold SameRounding
  rcases Int.le_total 0 s with hs | hs <;> rcases Int.le_total 0 (s + 2 * d) with ht | ht
  · rw [h1 _ hs, h1 _ ht]; omega
  · rw [h1 _ hs, h2 _ ht]; omega
  · rw [h2 _ hs, h1 _ ht]; omega
  · rw [h2 _ hs, h2 _ ht]; omega

theorem meldHit_separated {d : Micrometer} {m : Mesh} (hs : Separated d m) {p v : Vec3} (hp : p ∈ vertices m) (hv : v ∈ vertices m) :
    meldHit d v p = decide (p = v) := by
  by_cases h : p = v
  · subst h
    simp [meldHit_self]
  · rw [decide_eq_false h]
    by_contra hc
    have h1 := dist2_le_of_meldHit (Bool.not_eq_false _ ▸ hc)
    have h2 := hs p hp v hv h
    omega

theorem isBox_unique {ps : List Vec3} {lo hi lo' hi' : Vec3} (h : IsBox ps lo hi) (h' : IsBox ps lo' hi') : lo = lo' ∧ hi = hi' := by
  obtain ⟨i, ⟨p1, m1, e1⟩, ⟨p2, m2, e2⟩, ⟨p3, m3, e3⟩, ⟨p4, m4, e4⟩, ⟨p5, m5, e5⟩, ⟨p6, m6, e6⟩⟩ := h
  obtain ⟨i', ⟨q1, n1, f1⟩, ⟨q2, n2, f2⟩, ⟨q3, n3, f3⟩, ⟨q4, n4, f4⟩, ⟨q5, n5, f5⟩, ⟨q6, n6, f6⟩⟩ := h'
  have a1 := i' p1 m1; have a2 := i' p2 m2; have a3 := i' p3 m3; have a4 := i' p4 m4; have a5 := i' p5 m5; have a6 := i' p6 m6
  have b1 := i q1 n1; have b2 := i q2 n2; have b3 := i q3 n3; have b4 := i q4 n4; have b5 := i q5 n5; have b6 := i q6 n6
  obtain ⟨x, y, z⟩ := lo
  obtain ⟨x', y', z'⟩ := lo'
  obtain ⟨u, v, w⟩ := hi
  obtain ⟨u', v', w'⟩ := hi'
  simp only [Vec3.mk.injEq] at *
  omega

theorem moveBy_inj {v a b : Vec3} (h : moveBy v a = moveBy v b) : a = b := by
  obtain ⟨a1, a2, a3⟩ := a
  obtain ⟨b1, b2, b3⟩ := b
  simp only [moveBy, Vec3.mk.injEq] at h ⊢
  omega

theorem separated_moved {d : Micrometer} {m : Mesh} (hs : Separated d m) (v : Vec3) : Separated d (movedMesh v m) := by
  intro p hp q hq hne
  rw [vertices_moved] at hp hq
  obtain ⟨p, hp', rfl⟩ := List.mem_map.1 hp
  obtain ⟨q, hq', rfl⟩ := List.mem_map.1 hq
  have := hs p hp' q hq' (fun h => hne (by rw [h]))
  have e : vecDist2 (moveBy v p) (moveBy v q) = vecDist2 p q := by simp only [vecDist2, moveBy]; ring
  rwa [e]

/-- **C108** A model whose corners are farther apart than the meld distance, at another place in its file: the optimizer gives the same model, at most
one micrometer away in X and Y. It gives exactly the same model if the rounding of the middle goes to the same side. -/
theorem C108_optimized (o : Options) (m : Mesh) (v : Vec3) (hs : Separated o.slicing.meldDistance m) (om : OptModel) (h : optimize o m = .ok om)
    (lo hi : Vec3) (hbox : IsBox (vertices m) lo hi) :
    ∃ om' dx dy, optimize o (movedMesh v m) = .ok om' ∧ |dx| ≤ 1 ∧ |dy| ≤ 1 ∧ om'.faces = om.faces ∧ om'.size = om.size ∧
      om'.points = om.points.map (fun p => { p with pos := ⟨p.pos.x + dx, p.pos.y + dy, p.pos.z⟩ }) ∧
      (SameRounding (lo.x + hi.x) v.x → dx = 0) ∧ (SameRounding (lo.y + hi.y) v.y → dy = 0) := by
  simp only [optimize, bind_ok, pure, Except.pure, Except.ok.injEq] at h
  obtain ⟨s, hs1, fs, hfs, lo', hlo, hi', hhi, rfl⟩ := h
  obtain ⟨rfl, rfl⟩ := isBox_unique hbox (mesh_box hlo hhi)
  have hh : toHash o.slicing.meldDistance ≠ 0 := by
    intro hz
    cases m with
    | nil => cases hlo
    | cons f m => simp [addFaces, addFace, addPoint, pointHash, hz, bind, Except.bind] at hs1
  have hits : ∀ p ∈ vertices m, ∀ q ∈ vertices m, meldHit o.slicing.meldDistance (moveBy v q) (moveBy v p) = meldHit o.slicing.meldDistance q p := by
    intro p hp q hq
    rw [meldHit_separated hs hp hq, meldHit_separated (separated_moved hs v) (by rw [vertices_moved]; exact List.mem_map_of_mem hp)
      (by rw [vertices_moved]; exact List.mem_map_of_mem hq)]
    exact decide_eq_decide.2 ⟨moveBy_inj, fun h => by rw [h]⟩
  have f0 : FInv {} := ⟨by simp, by simp⟩
  have r0 : Moves o.slicing.meldDistance (vertices m) (moveBy v) {} {} :=
    ⟨⟨⟨fun h => rfl, by simp [posOf], by simp [posOf]⟩, f0⟩, ⟨⟨fun h => rfl, by simp [posOf], by simp [posOf]⟩, f0⟩, rfl, rfl⟩
  obtain ⟨t, t', h1, h2, r⟩ := addFaces_moves hh hits m r0 (fun _ h => h)
  rw [hs1] at h1
  cases h1
  have h2 : addFaces o.slicing.meldDistance {} (movedMesh v m) = .ok t' := h2
  have hfs' : touchingFaces t'.points 0 t'.faces = .ok fs := by rw [r.points, r.faces, touchingFaces_withPos, hfs]
  have hopt : optimize o (movedMesh v m) = .ok { points := t'.points.map fun p => { p with pos := p.pos.sub (vectorOffset o.printer.center (moveBy v lo) (moveBy v hi)) }, faces := fs, size := (moveBy v hi).sub (moveBy v lo) } := by
    simp only [optimize, h2, hfs', meshMin_moved, meshMax_moved, hlo, hhi, Except.map, bind, Except.bind, pure, Except.pure]
  refine ⟨_, (lo.x + hi.x).tdiv 2 + v.x - (lo.x + hi.x + 2 * v.x).tdiv 2, (lo.y + hi.y).tdiv 2 + v.y - (lo.y + hi.y + 2 * v.y).tdiv 2, hopt,
    (tdiv_two_moved _ _).1, (tdiv_two_moved _ _).1, rfl, ?_, ?_, fun h => ?_, fun h => ?_⟩
  · simp only [Vec3.sub, moveBy, Vec3.mk.injEq]
    omega
  · simp only [r.points, withPos, List.map_map]
    apply List.map_congr_left
    intro p _
    have e1 : lo.x + v.x + (hi.x + v.x) = lo.x + hi.x + 2 * v.x := by ring
    have e2 : lo.y + v.y + (hi.y + v.y) = lo.y + hi.y + 2 * v.y := by ring
    simp only [Function.comp, MPoint.mk.injEq, and_true, Vec3.sub, moveBy, vectorOffset, Vec3.mk.injEq, e1, e2]
    omega
  · have := (tdiv_two_moved (lo.x + hi.x) v.x).2 h
    omega
  · have := (tdiv_two_moved (lo.y + hi.y) v.y).2 h
    omega

theorem optimize_no_hash (o : Options) (m : Mesh) (hm : m ≠ []) (hd : (2 : Int) ^ 64 ∣ o.slicing.meldDistance) :
    optimize o m = .error (.panic "integer divide by zero") := by
  have hz : toHash o.slicing.meldDistance = 0 := by
    obtain ⟨k, hk⟩ := hd
    rw [toHash, hk]
    apply BitVec.eq_of_toNat_eq
    simp
  cases m with
  | nil => exact absurd rfl hm
  | cons f m => simp [optimize, addFaces, addFace, addPoint, pointHash, hz, bind, Except.bind]

theorem optimize_moved (o : Options) (m : Mesh) (v : Vec3) (hs : Separated o.slicing.meldDistance m)
    (lo hi : Vec3) (hbox : IsBox (vertices m) lo hi) (hx : SameRounding (lo.x + hi.x) v.x) (hy : SameRounding (lo.y + hi.y) v.y) :
    optimize o (movedMesh v m) = optimize o m := by
  have hm : m ≠ [] := by
    rintro rfl
    obtain ⟨_, ⟨p, hp, _⟩, _⟩ := hbox
    simp [vertices] at hp
  by_cases hd : (2 : Int) ^ 64 ∣ o.slicing.meldDistance
  · rw [optimize_no_hash o m hm hd, optimize_no_hash o (movedMesh v m) (by simpa [movedMesh] using hm) hd]
  · obtain ⟨om, hom⟩ := C87_succeeds o m hm hd
    obtain ⟨⟨ps, fs, sz⟩, dx, dy, h1, _, _, h2, h3, h4, h5, h6⟩ := C108_optimized o m v hs om hom lo hi hbox
    rw [h1, hom, Except.ok.injEq]
    simp only at h2 h3 h4
    rw [h2, h3, h4, h5 hx, h6 hy]
    simp

/-- **C108** The program does exactly the same for a model at another place in its file, if the corners are farther apart than the meld distance and the
rounding of the middle goes to the same side. (The package stl gives other triangles for the same file here.) -/
theorem C108_program (ext : Externals) (o : Options) (w : World) (content : Str) (hfile : w.files o.goSlice.inputFilePath = some content)
    (stl' : Str → List StlTriangle) (m : Mesh) (v : Vec3) (hm : (ext.stl content).map stlTriangleToFace = m)
    (hv : (stl' content).map stlTriangleToFace = movedMesh v m) (hs : Separated o.slicing.meldDistance m)
    (lo hi : Vec3) (hbox : IsBox (vertices m) lo hi) (hx : SameRounding (lo.x + hi.x) v.x) (hy : SameRounding (lo.y + hi.y) v.y) :
    goSlice { ext with stl := stl' } o w = goSlice ext o w := by
  have hd : describeMesh (movedMesh v m) = describeMesh m := by
    unfold describeMesh
    rw [meshMin_moved, meshMax_moved]
    cases meshMin m <;> cases meshMax m <;> rfl
  have ho : optimize o (movedMesh v m) = optimize o m := optimize_moved o m v hs lo hi hbox hx hy
  unfold goSlice process
  simp only [Act.andThen, standardHandlers, readModel, hfile, hm, hv, hd, ho, pureAct]

/-- **C108** (limit) If corners are nearer than the meld distance, the place does matter: the two faces of `crack` do not
touch, but they do if the model is moved by 5 µm. -/
theorem C108_melding : ∃ om om', optimize {} crack = .ok om ∧ optimize {} (movedMesh ⟨0, 5, 0⟩ crack) = .ok om' ∧
    om.faces ≠ om'.faces ∧ om.points.length ≠ om'.points.length := by
  refine ⟨_, _, rfl, rfl, ?_, ?_⟩ <;> decide +kernel

/-- A triangle whose sum of smallest and largest x is odd. -/
def oddMesh : Mesh := [⟨⟨0, 0, 0⟩, ⟨1001, 0, 0⟩, ⟨0, 1000, 0⟩⟩]

/-- **C108** (limit) A model with an odd size is printed 1 µm farther to the side, if it is moved over the origin, because the division by 2 rounds
towards 0. -/
theorem C108_rounding : ∃ om om', optimize {} oddMesh = .ok om ∧ optimize {} (movedMesh ⟨-4000, 0, 0⟩ oddMesh) = .ok om' ∧
    om'.points = om.points.map fun p => { p with pos := ⟨p.pos.x - 1, p.pos.y, p.pos.z⟩ } := by
  refine ⟨_, _, rfl, rfl, ?_⟩
  decide +kernel

theorem corner_box : IsBox (vertices cornerMesh) ⟨0, 0, 0⟩ ⟨1000, 1000, 1000⟩ := by
  refine ⟨?_, ?_, ?_, ?_, ?_, ?_, ?_⟩ <;> decide +kernel

theorem corner_separated : Separated ({} : Options).slicing.meldDistance cornerMesh := by unfold Separated; decide +kernel

example : ∃ om om' dx dy, optimize {} cornerMesh = .ok om ∧ optimize {} (movedMesh ⟨-700, 31, 7⟩ cornerMesh) = .ok om' ∧ |dx| ≤ 1 ∧ |dy| ≤ 1 ∧
    om'.faces = om.faces ∧ om'.points = om.points.map fun p => { p with pos := ⟨p.pos.x + dx, p.pos.y + dy, p.pos.z⟩ } := by
  obtain ⟨om, hom⟩ := C87_succeeds {} cornerMesh (by decide) (by decide)
  obtain ⟨om', dx, dy, h, hx, hy, h1, _, h2, _⟩ := C108_optimized {} cornerMesh ⟨-700, 31, 7⟩ corner_separated om hom _ _ corner_box
  exact ⟨om, om', dx, dy, hom, h, hx, hy, h1, h2⟩
example (ext : Externals) (w : World) (content : Str) (hfile : w.files [] = some content) (stl' : Str → List StlTriangle)
    (hm : (ext.stl content).map stlTriangleToFace = cornerMesh) (hv : (stl' content).map stlTriangleToFace = movedMesh ⟨-700, 31, 7⟩ cornerMesh) :
    goSlice { ext with stl := stl' } {} w = goSlice ext {} w :=
  C108_program ext {} w content hfile stl' cornerMesh ⟨-700, 31, 7⟩ hm hv corner_separated _ _ corner_box (.inl (by decide)) (.inl (by decide))

end Verif
