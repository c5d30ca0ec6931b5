import Verif.Props.Moved

/-! # C109: triangles which do not matter -/
namespace Verif
open Verif.Go Verif.Model Verif.Spec

/-! ## What the rest of the program uses of the optimized model -/

/-- Two optimized models which differ only in the numbering of the points. -/
structure SameModel (om om' : OptModel) : Prop where
  size : om.size = om'.size
  points : om.faces.mapM om.facePoints = om'.faces.mapM om'.facePoints
  touching : om.faces.map OptFace.touching = om'.faces.map OptFace.touching

theorem index_touching {om om' : OptModel} (h : om.faces.map OptFace.touching = om'.faces.map OptFace.touching) (i : Int) :
    (index om.faces i).map OptFace.touching = (index om'.faces i).map OptFace.touching := by
  have hl : om.faces.length = om'.faces.length := by simpa using congrArg List.length h
  have hi : ∀ j : Nat, om.faces[j]?.map OptFace.touching = om'.faces[j]?.map OptFace.touching := fun j => by
    rw [← List.getElem?_map, h, List.getElem?_map]
  unfold index
  split
  · have := hi i.toNat
    cases h1 : om.faces[i.toNat]? <;> cases h2 : om'.faces[i.toNat]? <;> simp_all [Except.map]
  · rfl

theorem walk_same {om om' : OptModel} (h : SameModel om om') (meld : Micrometer) (layer : SliceLayer) (start n : Nat) (added : List Nat) (p : Path)
    (c : Nat) : walk meld om layer start n added p c = walk meld om' layer start n added p c := by
  induction n generalizing added p c with
  | zero => rfl
  | succ n ih =>
    simp only [walk, ih]
    cases hseg : index layer.segments (c : Int) with
    | error e => rfl
    | ok seg =>
      have := index_touching h.touching (seg.faceIndex : Int)
      simp only [bind, Except.bind]
      cases h1 : index om.faces (seg.faceIndex : Int) <;> cases h2 : index om'.faces (seg.faceIndex : Int) <;>
        simp only [h1, h2, Except.map, reduceCtorEq, Except.ok.injEq, Except.error.injEq] at this <;> simp only [this]

theorem buildPolygons_same {om om' : OptModel} (h : SameModel om om') (meld : Micrometer) (layer : SliceLayer) (is added : List Nat) (ps : List Poly) :
    buildPolygons meld om layer is added ps = buildPolygons meld om' layer is added ps := by
  induction is generalizing added ps with
  | nil => rfl
  | cons i is ih => simp only [buildPolygons, ih, walk_same h]

/-- The slicer uses only the size, the positions and the neighbours of the faces. -/
theorem slice_same {om om' : OptModel} (h : SameModel om om') (lib : ClipperLib) (o : Options) : slice lib o om = slice lib o om' := by
  have h1 : finishLayer lib o om = finishLayer lib o om' := by
    funext l
    cases l with
    | none => rfl
    | some l => simp only [finishLayer, makePolygons, buildPolygons_same h]
  simp only [slice, sliceSegments, layerCount, h1, h.size, h.points]

theorem initPatterns_same {om om' : OptModel} (h : SameModel om om') (lib : ClipperLib) (trig : ℚ → ℚ × ℚ) (o : Options) :
    initPatterns lib trig o om = initPatterns lib trig o om' := by
  simp only [initPatterns, OptModel.min, OptModel.max, h.points]

theorem runModifiers_init {W OM L : Type} (ms : List (LayerModifier W OM L)) (om om' : OM) (h : ∀ m ∈ ms, m.init om = m.init om') (ls : L) :
    runModifiers om ms ls = runModifiers om' ms ls := by
  induction ms generalizing ls with
  | nil => rfl
  | cons m ms ih =>
    have e : ∀ ls, runModifiers om ms ls = runModifiers om' ms ls := ih fun m hm => h m (by simp [hm])
    simp only [runModifiers, h m (by simp), e]

/-! ## The faces of the optimized model -/

theorem firstFaces_self {α : Type} [DecidableEq α] (ts kept : List (Tri α)) (h1 : ∀ t ∈ ts, Proper t)
    (h2 : (kept ++ ts).Pairwise fun t u => ¬ SameCorners t u) : firstFaces kept ts = kept ++ ts := by
  induction ts generalizing kept with
  | nil => simp [firstFaces]
  | cons t ts ih =>
    have hk : ∀ u ∈ kept, ¬ SameCorners t u := fun u hu hs => (List.pairwise_append.1 h2).2.2 u hu t (by simp) ⟨hs.2, hs.1⟩
    rw [firstFaces, if_pos ⟨h1 t (by simp), hk⟩, ih _ (fun u hu => h1 u (by simp [hu])) (by simpa using h2)]
    simp

theorem touching_unique (o : Options) (m m' : Mesh) (om om' : OptModel) (h : optimize o m = .ok om) (h' : optimize o m' = .ok om')
    (fs : List (Tri Vec3)) (hfs : om.faces.mapM om.facePoints = .ok fs) (hfs' : om'.faces.mapM om'.facePoints = .ok fs) :
    om.faces.map OptFace.touching = om'.faces.map OptFace.touching := by
  have hl := (mapM_ok.1 hfs).length_eq
  have hl' := (mapM_ok.1 hfs').length_eq
  apply List.ext_getElem
  · simp [hl, hl']
  intro k hk hk'
  simp only [List.length_map] at hk hk'
  simp only [List.getElem_map]
  have hside : ∀ n < 3, ofSide om.faces[k].touching n = ofSide om'.faces[k].touching n := by
    intro n hn
    have e1 := C50_touching o m om h fs hfs k _ _ (List.getElem?_eq_getElem hk) (List.getElem?_eq_getElem (hl ▸ hk)) n hn
    have e2 := C50_touching o m' om' h' fs hfs' k _ _ (List.getElem?_eq_getElem hk') (List.getElem?_eq_getElem (hl ▸ hk)) n hn
    rcases e1 with ⟨a1, b1⟩ | ⟨j, a1, b1, ⟨u, hu, c1⟩, d1⟩ <;> rcases e2 with ⟨a2, b2⟩ | ⟨j', a2, b2, ⟨u', hu', c2⟩, d2⟩
    · rw [a1, a2]
    · exact absurd c2 (b1 j' u' hu' b2)
    · exact absurd c1 (b2 j u hu b1)
    · rcases Nat.lt_trichotomy j j' with hj | rfl | hj
      · exact absurd c1 (d2 j u hj hu b1)
      · rw [a1, a2]
      · exact absurd c2 (d1 j' u' hj hu' b2)
  have h0 := hside 0 (by decide)
  have h1 := hside 1 (by decide)
  have h2 := hside 2 (by decide)
  generalize om.faces[k].touching = t at h0 h1 h2
  generalize om'.faces[k].touching = t' at h0 h1 h2
  obtain ⟨a, b, c⟩ := t
  obtain ⟨a', b', c'⟩ := t'
  simp only [ofSide] at h0 h1 h2
  rw [h0, h1, h2]

theorem isBox_congr {ps qs : List Vec3} (h : ∀ v, v ∈ ps ↔ v ∈ qs) {lo hi : Vec3} (hb : IsBox ps lo hi) : IsBox qs lo hi := by
  obtain ⟨h1, h2⟩ := hb
  simp only [h] at h1 h2
  exact ⟨h1, h2⟩

/-- **C109** Two files with the same corners (farther apart than the meld distance), in which the same triangles remain if degenerate ones and
repetitions are dropped: the program does exactly the same for both. -/
theorem C109_same (ext : Externals) (o : Options) (w : World) (content : Str) (hfile : w.files o.goSlice.inputFilePath = some content)
    (stl' : Str → List StlTriangle) (m m' : Mesh) (hm : (ext.stl content).map stlTriangleToFace = m) (hm' : (stl' content).map stlTriangleToFace = m')
    (hs : Separated o.slicing.meldDistance m) (hv : ∀ v, v ∈ vertices m ↔ v ∈ vertices m') (hf : firstFaces [] m = firstFaces [] m') :
    goSlice { ext with stl := stl' } o w = goSlice ext o w := by
  by_cases hne : m = []
  · subst hne
    have : m' = [] := by
      cases m' with
      | nil => rfl
      | cons t m' => exact absurd ((hv t.a).2 (by simp [vertices, Tri.corners])) (by simp [vertices])
    subst this
    unfold goSlice process
    simp only [Act.andThen, standardHandlers, readModel, hfile, hm, hm', describeMesh, meshMin, index, pureAct]
  have hne' : m' ≠ [] := by
    rintro rfl
    obtain ⟨t, ht⟩ := List.exists_mem_of_ne_nil m hne
    exact absurd ((hv t.a).1 (List.mem_flatMap.2 ⟨t, ht, by simp [Tri.corners]⟩)) (by simp [vertices])
  have hs' : Separated o.slicing.meldDistance m' := fun p hp q hq => hs p ((hv p).2 hp) q ((hv q).2 hq)
  have hd : ∀ m : Mesh, m ≠ [] → describeMesh m = .ok () := by
    intro m hm
    cases m with
    | nil => exact absurd rfl hm
    | cons t m => rfl
  unfold goSlice process
  simp only [Act.andThen, standardHandlers, readModel, hfile, hm, hm', hd m hne, hd m' hne', pureAct]
  by_cases hmeld : (2 : Int) ^ 64 ∣ o.slicing.meldDistance
  · rw [optimize_no_hash o m hne hmeld, optimize_no_hash o m' hne' hmeld]
  · obtain ⟨om, hom⟩ := C87_succeeds o m hne hmeld
    obtain ⟨om', hom'⟩ := C87_succeeds o m' hne' hmeld
    obtain ⟨lo, hi, hb, hsz, hfs⟩ := faces_of_separated hom hs
    obtain ⟨lo', hi', hb', hsz', hfs'⟩ := faces_of_separated hom' hs'
    obtain ⟨rfl, rfl⟩ := isBox_unique (isBox_congr hv hb) hb'
    rw [← hf] at hfs'
    have hsame : SameModel om om' := ⟨by rw [hsz, hsz'], by rw [hfs, hfs'], touching_unique o m m' om om' hom hom' _ hfs hfs'⟩
    have hrun := runModifiers_init ((standardModifiers ext.lib ext.tan o).map fun m =>
      ({ init := fun _ => pureAct (.ok ()), modify := fun ls => pureAct (m ls) } : LayerModifier World OptModel (List Layer))) om om' fun m hm => by
        obtain ⟨f, _, rfl⟩ := List.mem_map.1 hm
        rfl
    simp only [hom, hom', slice_same hsame, initPatterns_same hsame, hrun]

theorem vertices_firstFaces {m : Mesh} (hv : ∀ v ∈ vertices m, ∃ t ∈ m, Proper t ∧ v ∈ t.corners) (v : Vec3) :
    v ∈ vertices m ↔ v ∈ vertices (firstFaces [] m) := by
  refine ⟨fun h => ?_, fun h => ?_⟩
  · obtain ⟨t, ht, hp, hvt⟩ := hv v h
    obtain ⟨u, hu, hs⟩ := firstFaces_keeps m [] t (.inr ⟨ht, hp⟩)
    exact List.mem_flatMap.2 ⟨u, hu, hs.1 hvt⟩
  · obtain ⟨t, ht, hvt⟩ := List.mem_flatMap.1 h
    rcases mem_firstFaces m [] ht with h | h
    · simp at h
    · exact List.mem_flatMap.2 ⟨t, h, hvt⟩

/-- **C109** Degenerate triangles and repetitions in the file do not matter, if no corner belongs only to degenerate triangles and the corners are
farther apart than the meld distance. -/
theorem C109_program (ext : Externals) (o : Options) (w : World) (content : Str) (hfile : w.files o.goSlice.inputFilePath = some content)
    (stl' : Str → List StlTriangle) (m : Mesh) (hm : (ext.stl content).map stlTriangleToFace = m)
    (hm' : (stl' content).map stlTriangleToFace = firstFaces [] m) (hs : Separated o.slicing.meldDistance m)
    (hv : ∀ v ∈ vertices m, ∃ t ∈ m, Proper t ∧ v ∈ t.corners) :
    goSlice { ext with stl := stl' } o w = goSlice ext o w := by
  obtain ⟨h1, h2⟩ := firstFaces_spec m [] (by simp) List.Pairwise.nil
  refine C109_same ext o w content hfile stl' m _ hm hm' hs (vertices_firstFaces hv) ?_
  rw [firstFaces_self _ [] h1 (by simpa using h2), List.nil_append]

theorem tdiv_two_rest (s c : Int) : |c - (s - s.tdiv 2 * 2 + 2 * c).tdiv 2| ≤ 1 ∧ (2 ∣ s → c - (s - s.tdiv 2 * 2 + 2 * c).tdiv 2 = 0) := by
  have h1 := (tdiv_two_moved (s - s.tdiv 2 * 2) c)
  have h2 := tdiv_two s
  have h3 : (s - s.tdiv 2 * 2).tdiv 2 = 0 := by
    have : s - s.tdiv 2 * 2 = s.tmod 2 := by have := Int.mul_tdiv_add_tmod s 2; omega
    rw [this]
    rcases (by omega : s.tmod 2 = -1 ∨ s.tmod 2 = 0 ∨ s.tmod 2 = 1) with e | e | e <;> rw [e] <;> rfl
  rw [h3] at h1
  refine ⟨by simpa using h1.1, fun hd => ?_⟩
  have := h1.2 (.inl (by omega))
  omega

/-- **C109** An optimized model, written to a file and read again, is not changed by the optimizer, except that it can be moved by 1 µm in X and Y if its
size is odd. The corners have to be farther apart than the meld distance, and no corner may belong only to degenerate triangles. -/
theorem C109_again (o : Options) (m : Mesh) (om : OptModel) (h : optimize o m = .ok om) (fs : List (Tri Vec3)) (hfs : om.faces.mapM om.facePoints = .ok fs)
    (hs : Separated o.slicing.meldDistance m) (hv : ∀ v ∈ vertices m, ∃ t ∈ m, Proper t ∧ v ∈ t.corners) :
    ∃ om' dx dy, optimize o fs = .ok om' ∧ om'.size = om.size ∧ |dx| ≤ 1 ∧ |dy| ≤ 1 ∧
      om'.faces.mapM om'.facePoints = .ok (fs.map (Tri.map fun p => ⟨p.x + dx, p.y + dy, p.z⟩)) ∧
      (2 ∣ om.size.x → dx = 0) ∧ (2 ∣ om.size.y → dy = 0) := by
  have hspec := C47_faces o m om h fs hfs
  obtain ⟨lo, hi, hb, hsz, hfs'⟩ := faces_of_separated h hs
  rw [hfs, Except.ok.injEq] at hfs'
  have hvs : ∀ q, q ∈ vertices fs ↔ ∃ p ∈ vertices m, placed o.printer.center lo hi p = q := by
    intro q
    have : vertices fs = (vertices (firstFaces [] m)).map (placed o.printer.center lo hi) := by
      rw [hfs', vertices, vertices, List.flatMap_map, List.map_flatMap]
      rfl
    rw [this, List.mem_map]
    simp only [vertices_firstFaces hv]
  have hb' : IsBox (vertices fs) (placed o.printer.center lo hi lo) (placed o.printer.center lo hi hi) := by
    obtain ⟨hin, ⟨p1, m1, e1⟩, ⟨p2, m2, e2⟩, ⟨p3, m3, e3⟩, ⟨p4, m4, e4⟩, ⟨p5, m5, e5⟩, ⟨p6, m6, e6⟩⟩ := hb
    refine ⟨?_, ⟨_, (hvs _).2 ⟨p1, m1, rfl⟩, ?_⟩, ⟨_, (hvs _).2 ⟨p2, m2, rfl⟩, ?_⟩, ⟨_, (hvs _).2 ⟨p3, m3, rfl⟩, ?_⟩, ⟨_, (hvs _).2 ⟨p4, m4, rfl⟩, ?_⟩,
      ⟨_, (hvs _).2 ⟨p5, m5, rfl⟩, ?_⟩, ⟨_, (hvs _).2 ⟨p6, m6, rfl⟩, ?_⟩⟩
    · intro q hq
      obtain ⟨p, hp, rfl⟩ := (hvs q).1 hq
      have := hin p hp
      simp only [placed]
      omega
    all_goals simp only [placed]; omega
  have hne : fs ≠ [] := by
    rintro rfl
    obtain ⟨_, ⟨p, hp, _⟩, _⟩ := hb'
    simp [vertices] at hp
  have hs' : Separated o.slicing.meldDistance fs := by
    intro p hp q hq hpq
    obtain ⟨p, hp', rfl⟩ := (hvs p).1 hp
    obtain ⟨q, hq', rfl⟩ := (hvs q).1 hq
    have := hs p hp' q hq' (fun e => hpq (by rw [e]))
    have e : vecDist2 (placed o.printer.center lo hi p) (placed o.printer.center lo hi q) = vecDist2 p q := by simp only [vecDist2, placed]; ring
    rwa [e]
  have hd : ¬ (2 : Int) ^ 64 ∣ o.slicing.meldDistance := by
    intro hd
    rw [optimize_no_hash o m (by rintro rfl; cases h) hd] at h
    cases h
  obtain ⟨om', hom'⟩ := C87_succeeds o fs hne hd
  obtain ⟨lo', hi', hb2, hsz', hfs2⟩ := faces_of_separated hom' hs'
  obtain ⟨rfl, rfl⟩ := isBox_unique hb' hb2
  rw [firstFaces_self _ [] hspec.1 (by simpa using hspec.2), List.nil_append] at hfs2
  refine ⟨om', _, _, hom', ?_, (tdiv_two_rest (lo.x + hi.x) o.printer.center.x).1, (tdiv_two_rest (lo.y + hi.y) o.printer.center.y).1, ?_,
    fun h => (tdiv_two_rest (lo.x + hi.x) o.printer.center.x).2 ?_, fun h => (tdiv_two_rest (lo.y + hi.y) o.printer.center.y).2 ?_⟩
  · rw [hsz, hsz']
    simp only [placed, Vec3.mk.injEq]
    omega
  · rw [hfs2, Except.ok.injEq]
    congr 2
    funext p
    have e1 : (placed o.printer.center lo hi lo).x + (placed o.printer.center lo hi hi).x =
      lo.x + hi.x - (lo.x + hi.x).tdiv 2 * 2 + 2 * o.printer.center.x := by simp only [placed]; ring
    have e2 : (placed o.printer.center lo hi lo).y + (placed o.printer.center lo hi hi).y =
      lo.y + hi.y - (lo.y + hi.y).tdiv 2 * 2 + 2 * o.printer.center.y := by simp only [placed]; ring
    have e3 : (placed o.printer.center lo hi lo).z = o.printer.center.z := by simp only [placed]; ring
    rw [placed, e1, e2, e3]
    simp only [Vec3.mk.injEq]
    omega
  · rw [hsz] at h
    simp only at h
    omega
  · rw [hsz] at h
    simp only at h
    omega

/-- `cornerMesh` with a degenerate triangle far away. -/
def strayMesh : Mesh := cornerMesh ++ [⟨⟨100000, 0, 0⟩, ⟨100000, 0, 0⟩, ⟨100000, 0, 0⟩⟩]

/-- **C109** (limit) A degenerate triangle with a corner of its own counts for the box: although only `cornerMesh` remains, it is printed 49.5 mm beside
the center. -/
theorem C109_stray : firstFaces [] strayMesh = cornerMesh ∧ ∃ om om' : OptModel, optimize {} cornerMesh = .ok om ∧ optimize {} strayMesh = .ok om' ∧
    om'.faces.map OptFace.indices = om.faces.map OptFace.indices ∧
    (om'.points.map MPoint.pos).take 4 = (om.points.map MPoint.pos).map fun p => ⟨p.x - 49500, p.y, p.z⟩ := by
  refine ⟨by decide +kernel, _, _, rfl, rfl, ?_, ?_⟩ <;> decide +kernel

/-- `cornerMesh` with a repeated triangle (turned) and a degenerate one at its start. -/
def messyMesh : Mesh := [⟨⟨0, 0, 0⟩, ⟨0, 1000, 0⟩, ⟨0, 0, 0⟩⟩] ++ cornerMesh ++ [⟨⟨0, 1000, 0⟩, ⟨1000, 0, 0⟩, ⟨0, 0, 0⟩⟩]

theorem messy_proper : ∀ v ∈ vertices messyMesh, ∃ t ∈ messyMesh, Proper t ∧ v ∈ t.corners := by decide +kernel
theorem messy_separated : Separated ({} : Options).slicing.meldDistance messyMesh := by unfold Separated; decide +kernel

example (ext : Externals) (w : World) (content : Str) (hfile : w.files [] = some content) (stl' : Str → List StlTriangle)
    (hm : (ext.stl content).map stlTriangleToFace = messyMesh) (hm' : (stl' content).map stlTriangleToFace = cornerMesh) :
    goSlice { ext with stl := stl' } {} w = goSlice ext {} w :=
  C109_program ext {} w content hfile stl' messyMesh hm (hm'.trans (by decide +kernel)) messy_separated messy_proper
example : ∃ om fs om', optimize {} messyMesh = .ok om ∧ om.faces.mapM om.facePoints = .ok fs ∧ optimize {} fs = .ok om' ∧
    om'.faces.mapM om'.facePoints = .ok fs := by
  obtain ⟨om, hom⟩ := C87_succeeds {} messyMesh (by decide) (by decide)
  obtain ⟨lo, hi, hb, hsz, hfs⟩ := faces_of_separated hom messy_separated
  have hbox : IsBox (vertices messyMesh) ⟨0, 0, 0⟩ ⟨1000, 1000, 1000⟩ := by refine ⟨?_, ?_, ?_, ?_, ?_, ?_, ?_⟩ <;> decide +kernel
  obtain ⟨rfl, rfl⟩ := isBox_unique hbox hb
  obtain ⟨om', dx, dy, h1, -, -, -, h2, h3, h4⟩ := C109_again {} messyMesh om hom _ hfs messy_separated messy_proper
  rw [hsz] at h3 h4
  refine ⟨om, _, om', hom, hfs, h1, ?_⟩
  rw [h2, h3 (by decide), h4 (by decide)]
  simp [Tri.map]

end Verif
