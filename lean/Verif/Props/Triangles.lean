import Verif.Spec.Triangles
import Verif.Props.SidesWhole
import Verif.Props.Whole
import Verif.Props.Moved
import Mathlib.Data.Finset.Basic
import Mathlib.Data.List.Perm.Basic

/-! # C131: the order of the triangles and of their corners does not matter -/
namespace Verif
open Verif.Go Verif.Model Verif.Spec

theorem sameCorners_refl {α : Type} (t : Tri α) : SameCorners t t := ⟨fun _ h => h, fun _ h => h⟩

theorem same_symm {α : Type} {t u : Tri α} (h : SameCorners t u) : SameCorners u t := ⟨h.2, h.1⟩

theorem same_trans {α : Type} {t u v : Tri α} (h : SameCorners t u) (h' : SameCorners u v) : SameCorners t v :=
  ⟨fun _ hx => h'.1 (h.1 hx), fun _ hx => h.2 (h'.2 hx)⟩

theorem same_map {α β : Type} {t u : Tri α} (h : SameCorners t u) (f : α → β) : SameCorners (t.map f) (u.map f) := by
  have e : ∀ t : Tri α, (t.map f).corners = t.corners.map f := fun _ => rfl
  unfold SameCorners
  rw [e, e]
  exact ⟨List.map_subset f h.1, List.map_subset f h.2⟩

/-- A triangle with the same corners has them in one of the six orders. -/
theorem same_cases {α : Type} {t u : Tri α} (h : SameCorners t u) (ht : Proper t) :
    u = ⟨t.a, t.b, t.c⟩ ∨ u = ⟨t.b, t.c, t.a⟩ ∨ u = ⟨t.c, t.a, t.b⟩ ∨ u = ⟨t.a, t.c, t.b⟩ ∨ u = ⟨t.c, t.b, t.a⟩ ∨ u = ⟨t.b, t.a, t.c⟩ := by
  obtain ⟨a, b, c⟩ := t
  obtain ⟨x, y, z⟩ := u
  obtain ⟨h1, h2, h3⟩ := ht
  obtain ⟨h4, h5⟩ := h
  simp only [Tri.corners, List.cons_subset, List.mem_cons, List.not_mem_nil, or_false, List.nil_subset, and_true] at h4 h5
  simp only [Tri.mk.injEq] at *
  obtain ⟨p1, p2, p3⟩ := h4
  rcases p1 with rfl | rfl | rfl <;> rcases p2 with rfl | rfl | rfl <;> rcases p3 with rfl | rfl | rfl <;> simp_all

theorem same_proper {α : Type} {t u : Tri α} (h : SameCorners t u) (ht : Proper t) : Proper u := by
  obtain ⟨h1, h2, h3⟩ := ht
  rcases same_cases h ⟨h1, h2, h3⟩ with rfl | rfl | rfl | rfl | rfl | rfl <;> exact ⟨by simp_all [Ne.symm], by simp_all [Ne.symm], by simp_all [Ne.symm]⟩

theorem rayCrosses_swap {q a b : ℚ × ℚ} (h : RayCrosses q a b) : RayCrosses q b a := by
  obtain ⟨h1, h2⟩ := h
  refine ⟨fun h => h1 h.symm, ?_⟩
  have hne : b.2 - a.2 ≠ 0 := by
    intro h0
    have : a.2 = b.2 := by linarith
    rw [this] at h1
    exact h1 Iff.rfl
  have hne' : a.2 - b.2 ≠ 0 := by intro h0; apply hne; linarith
  have : b.1 + (a.1 - b.1) * (q.2 - b.2) / (a.2 - b.2) = a.1 + (b.1 - a.1) * (q.2 - a.2) / (b.2 - a.2) := by
    field_simp
    ring
  rwa [this]

theorem farFrom_swap {d : ℚ} {q a b : ℚ × ℚ} (h : FarFrom d a b q) : FarFrom d b a q := by
  intro t h0 h1
  have := h (1 - t) (by linarith) (by linarith)
  refine this.trans_eq ?_
  ring

/-- Each side of a triangle is, in one of the directions, a side of the triangle with the same corners. -/
theorem side_same {f g : Tri Vec3} (h : SameCorners f g) (hf : Proper f) :
    (∀ s ∈ faceSides f, s ∈ faceSides g) ∨ ∀ s ∈ faceSides f, s.swap ∈ faceSides g := by
  rcases same_cases h hf with rfl | rfl | rfl | rfl | rfl | rfl
  · left; simp [faceSides]
  · left; simp [faceSides]
  · left; simp [faceSides]
  · right; simp [faceSides]
  · right; simp [faceSides]
  · right; simp [faceSides]

theorem rayHits_of_same {z : Int} {q : ℚ × ℚ} {f g : Tri Vec3} (h : SameCorners f g) (hf : Proper f) (hr : RayHits z q f) : RayHits z q g := by
  obtain ⟨d, hd, u, hu, h1, h2, h3⟩ := hr
  rcases side_same h hf with hs | hs
  · exact ⟨d, hs d hd, u, hs u hu, h1, h2, h3⟩
  · refine ⟨u.swap, hs u hu, d.swap, hs d hd, ⟨h2.1, h2.2⟩, ⟨h1.1, h1.2⟩, ?_⟩
    rw [meetPoint_swap (by have := h2.1; have := h2.2; omega), meetPoint_swap (by have := h1.1; have := h1.2; omega)]
    exact rayCrosses_swap h3

theorem rayHits_same {z : Int} {q : ℚ × ℚ} {f g : Tri Vec3} (h : SameCorners f g) (hf : Proper f) : RayHits z q f ↔ RayHits z q g :=
  ⟨rayHits_of_same h hf, rayHits_of_same (same_symm h) (same_proper h hf)⟩

/-- The set of the corners. -/
def cornerSet {α : Type} [DecidableEq α] (t : Tri α) : Finset α := t.corners.toFinset

theorem cornerSet_eq {α : Type} [DecidableEq α] {t u : Tri α} : cornerSet t = cornerSet u ↔ SameCorners t u := by
  unfold cornerSet SameCorners
  rw [Finset.ext_iff]
  simp only [List.mem_toFinset]
  exact ⟨fun h => ⟨fun x hx => (h x).1 hx, fun x hx => (h x).2 hx⟩, fun h x => ⟨fun hx => h.1 hx, fun hx => h.2 hx⟩⟩

/-- Lists without repetitions of the same triangles have the same number of triangles with a property which does not depend on the order of the corners. -/
theorem count_same {α : Type} [DecidableEq α] {fs gs : List (Tri α)} (h : SameTriangles fs gs) (hf : fs.Pairwise fun t u => ¬ SameCorners t u)
    (hg : gs.Pairwise fun t u => ¬ SameCorners t u) (P : Tri α → Bool) (hP : ∀ f ∈ fs, ∀ g ∈ gs, SameCorners f g → P f = P g) : fs.countP P = gs.countP P := by
  have nd : ∀ l : List (Tri α), l.Pairwise (fun t u => ¬ SameCorners t u) → (l.map cornerSet).Nodup := by
    intro l hl
    rw [List.Nodup, List.pairwise_map]
    exact hl.imp fun h e => h (cornerSet_eq.1 e)
  have hperm : (fs.map cornerSet).Perm (gs.map cornerSet) := by
    rw [List.perm_ext_iff_of_nodup (nd fs hf) (nd gs hg)]
    intro s
    simp only [List.mem_map]
    constructor
    · rintro ⟨f, hfm, rfl⟩
      obtain ⟨g, hgm, e⟩ := h.1 f hfm
      exact ⟨g, hgm, cornerSet_eq.2 (same_symm e)⟩
    · rintro ⟨g, hgm, rfl⟩
      obtain ⟨f, hfm, e⟩ := h.2 g hgm
      exact ⟨f, hfm, cornerSet_eq.2 (same_symm e)⟩
  have hQ1 : ∀ f ∈ fs, P f = gs.any fun g => decide (cornerSet g = cornerSet f) && P g := by
    intro f hfm
    rw [Bool.eq_iff_iff, List.any_eq_true]
    constructor
    · intro hp
      obtain ⟨g, hgm, e⟩ := h.1 f hfm
      exact ⟨g, hgm, by simp [cornerSet_eq.2 (same_symm e), ← hP f hfm g hgm e, hp]⟩
    · rintro ⟨g, hgm, e⟩
      simp only [Bool.and_eq_true, decide_eq_true_eq] at e
      rw [hP f hfm g hgm (same_symm (cornerSet_eq.1 e.1))]
      exact e.2
  have hQ2 : ∀ f ∈ gs, P f = gs.any fun g => decide (cornerSet g = cornerSet f) && P g := by
    intro g hgm
    obtain ⟨f, hfm, e⟩ := h.2 g hgm
    rw [← hP f hfm g hgm (same_symm e), hQ1 f hfm, cornerSet_eq.2 e]
  have e1 : ∀ l : List (Tri α), (∀ f ∈ l, P f = gs.any fun g => decide (cornerSet g = cornerSet f) && P g) →
      l.countP P = (l.map cornerSet).countP fun s => gs.any fun g => decide (cornerSet g = s) && P g := by
    intro l hl
    rw [List.countP_map]
    refine List.countP_congr fun f hfm => ?_
    rw [hl f hfm]
    rfl
  rw [e1 fs hQ1, e1 gs hQ2, hperm.countP_eq]

/-- The inside of a solid does not depend on the order of the triangles and the order of their corners. -/
theorem insideSolid_same {fs gs : List (Tri Vec3)} (h : SameTriangles fs gs) (hp : ∀ f ∈ fs, Proper f) (hf : fs.Pairwise fun t u => ¬ SameCorners t u)
    (hg : gs.Pairwise fun t u => ¬ SameCorners t u) (z : Int) (q : ℚ × ℚ) : InsideSolid fs z q ↔ InsideSolid gs z q := by
  unfold InsideSolid
  rw [count_same h hf hg _ fun f hfm g _ e => by rw [decide_eq_decide]; exact rayHits_same e (hp f hfm)]

theorem farFromSurface_same {fs gs : List (Tri Vec3)} (h : SameTriangles fs gs) (hp : ∀ f ∈ fs, Proper f) {d : ℚ} {z : Int} {q : ℚ × ℚ} (hq : FarFromSurface d fs z q) :
    FarFromSurface d gs z q := by
  intro g hg s hs s' hs' h1 h2
  obtain ⟨f, hf, e⟩ := h.2 g hg
  have hpg : Proper g := same_proper (same_symm e) (hp f hf)
  rcases side_same e hpg with hk | hk
  · exact hq f hf s (hk s hs) s' (hk s' hs') h1 h2
  · have := hq f hf s'.swap (hk s' hs') s.swap (hk s hs) ⟨h2.1, h2.2⟩ ⟨h1.1, h1.2⟩
    rw [meetPoint_swap (by have := h2.1; have := h2.2; omega), meetPoint_swap (by have := h1.1; have := h1.2; omega)] at this
    exact farFrom_swap this

theorem sameTriangles_firstFaces {m m' : Mesh} (h : SameTriangles m m') : SameTriangles (firstFaces [] m) (firstFaces [] m') := by
  have key : ∀ {m m' : Mesh}, (∀ t ∈ m, ∃ t' ∈ m', SameCorners t t') → ∀ t ∈ firstFaces [] m, ∃ t' ∈ firstFaces [] m', SameCorners t t' := by
    intro m m' h t ht
    have hp := (firstFaces_spec m [] (by simp) List.Pairwise.nil).1 t ht
    obtain ⟨u, hu, e⟩ := h t ((mem_firstFaces _ _ ht).resolve_left (by simp))
    obtain ⟨v, hv, e'⟩ := firstFaces_keeps m' [] u (.inr ⟨hu, same_proper e hp⟩)
    exact ⟨v, hv, same_trans e e'⟩
  exact ⟨key h.1, key h.2⟩

theorem vertices_same {m m' : Mesh} (h : SameTriangles m m') (v : Vec3) : v ∈ vertices m ↔ v ∈ vertices m' := by
  have key : ∀ {m m' : Mesh}, (∀ t ∈ m, ∃ t' ∈ m', SameCorners t t') → v ∈ vertices m → v ∈ vertices m' := by
    intro m m' h hv
    obtain ⟨t, ht, hc⟩ := List.mem_flatMap.1 hv
    obtain ⟨u, hu, e⟩ := h t ht
    exact List.mem_flatMap.2 ⟨u, hu, e.1 hc⟩
  exact ⟨key h.1, key h.2⟩

theorem isBox_same {m m' : Mesh} (h : SameTriangles m m') {lo hi : Vec3} (hb : IsBox (vertices m) lo hi) : IsBox (vertices m') lo hi := by
  have e := vertices_same h
  obtain ⟨h1, h2⟩ := hb
  refine ⟨fun p hp => h1 p ((e p).2 hp), ?_⟩
  simpa only [e] using h2

/-- **C131** The optimized models of two files with the same triangles, whose corners are farther apart than the meld distance: the size is the same, and the triangles are the same, each one once. -/
theorem C131_optimized (o : Options) (m m' : Mesh) (h : SameTriangles m m') (hs : Separated o.slicing.meldDistance m) (om om' : OptModel) (hom : optimize o m = .ok om)
    (hom' : optimize o m' = .ok om') : om.size = om'.size ∧ ∃ fs fs', om.faces.mapM om.facePoints = .ok fs ∧ om'.faces.mapM om'.facePoints = .ok fs' ∧
      SameTriangles fs fs' ∧ ∀ z q, InsideSolid fs z q ↔ InsideSolid fs' z q := by
  have hs' : Separated o.slicing.meldDistance m' := fun v hv w hw => hs v ((vertices_same h v).2 hv) w ((vertices_same h w).2 hw)
  obtain ⟨lo, hi, hb, hsz, hfs⟩ := faces_of_separated hom hs
  obtain ⟨lo', hi', hb', hsz', hfs'⟩ := faces_of_separated hom' hs'
  obtain ⟨rfl, rfl⟩ := isBox_unique (isBox_same h hb) hb'
  have hsame : SameTriangles ((firstFaces [] m).map (Tri.map (placed o.printer.center lo hi))) ((firstFaces [] m').map (Tri.map (placed o.printer.center lo hi))) := by
    have key : ∀ {m m' : Mesh}, (∀ t ∈ m, ∃ t' ∈ m', SameCorners t t') → ∀ t ∈ m.map (Tri.map (placed o.printer.center lo hi)), ∃ t' ∈ m'.map (Tri.map (placed o.printer.center lo hi)), SameCorners t t' := by
      intro m m' h t ht
      obtain ⟨u, hu, rfl⟩ := List.mem_map.1 ht
      obtain ⟨v, hv, e⟩ := h u hu
      exact ⟨_, List.mem_map_of_mem hv, same_map e _⟩
    have := sameTriangles_firstFaces h
    exact ⟨key this.1, key this.2⟩
  refine ⟨by rw [hsz, hsz'], _, _, hfs, hfs', hsame, fun z q => ?_⟩
  obtain ⟨p1, p2⟩ := C47_faces o m om hom _ hfs
  obtain ⟨-, p4⟩ := C47_faces o m' om' hom' _ hfs'
  exact insideSolid_same hsame p1 p2 p4 z q

/-- **C131** The order of the triangles in the file and the order of their corners do not matter: two files with the same triangles, whose corners are farther apart than the meld distance, have
the same number of layers, and each layer has the same inside, up to the tolerances near to the surface. (All triangles of a closed body may also be turned, so that its inside is outside.) -/
theorem C131_program (ext : Externals) (o : Options) (content content' t t' : Str) (h : gcodeOf ext o content = .ok t) (h' : gcodeOf ext o content' = .ok t')
    (hsame : SameTriangles ((ext.stl content).map stlTriangleToFace) ((ext.stl content').map stlTriangleToFace))
    (hs : Separated o.slicing.meldDistance ((ext.stl content).map stlTriangleToFace)) {tol : ℚ} (h0 : 0 ≤ tol) (hk : KeepsSides ext.lib tol)
    (hmeld : 2 ≤ o.slicing.meldDistance) (ht : 0 < o.print.layerThickness) (hfin : o.slicing.finishPolygonSnapDistance < 2 ^ 26 - 1) :
    ∃ om om' segs segs' sliced sliced', optimize o ((ext.stl content).map stlTriangleToFace) = .ok om ∧ optimize o ((ext.stl content').map stlTriangleToFace) = .ok om' ∧
      sliceSegments o om = .ok segs ∧ sliceSegments o om' = .ok segs' ∧ slice ext.lib o om = .ok sliced ∧ slice ext.lib o om' = .ok sliced' ∧ sliced.length = sliced'.length ∧
      ∀ fs fs', om.faces.mapM om.facePoints = .ok fs → om'.faces.mapM om'.facePoints = .ok fs' → ClosedSurface fs → ClosedSurface fs' → SmallSurface fs →
        ∀ n k l l', sliced[n]? = some l → sliced'[n]? = some l' → WellSliced o om fs segs k n → WellSliced o om' fs' segs' k n →
        ∀ q, FarFromSurface (tol + 5 * k + 2) fs (layerHeight o n) q → FarFromSurface (2 * max 0 o.slicing.finishPolygonSnapDistance + 2) fs (layerHeight o n) q →
          (q ∈ region enclosedBy l.parts ↔ q ∈ region enclosedBy l'.parts) := by
  obtain ⟨om, sliced, -, -, -, h1, h2, -⟩ := gcodeOf_steps h
  obtain ⟨om', sliced', -, -, -, h1', h2', -⟩ := gcodeOf_steps h'
  obtain ⟨segs, hsegs, hm⟩ := bind_ok.1 h2
  obtain ⟨segs', hsegs', hm'⟩ := bind_ok.1 h2'
  obtain ⟨hsz, gs, gs', hgs, hgs', hst, hin⟩ := C131_optimized o _ _ hsame hs om om' h1 h1'
  refine ⟨om, om', segs, segs', sliced, sliced', h1, h1', hsegs, hsegs', h2, h2', ?_, fun fs fs' hfs hfs' hc hc' hsm n k l l' hl hl' hw hw' q hq hq2 => ?_⟩
  · obtain ⟨-, cnt, -, hcnt, -, hlen, -⟩ := sliceSegments_inv hsegs
    obtain ⟨-, cnt', -, hcnt', -, hlen', -⟩ := sliceSegments_inv hsegs'
    rw [← (mapM_ok.1 hm).length_eq, ← (mapM_ok.1 hm').length_eq, hlen, hlen']
    unfold layerCount at hcnt hcnt'
    rw [hsz, hcnt', Except.ok.injEq] at hcnt
    rw [hcnt]
  · rw [hgs] at hfs
    rw [hgs'] at hfs'
    cases hfs
    cases hfs'
    have hp := (C47_faces o _ om h1 _ hgs).1
    have hsm' : SmallSurface gs' := fun f hf v hv => by
      obtain ⟨g, hg, e⟩ := hst.2 f hf
      exact hsm g hg v (e.1 hv)
    have k1 := (layer_sides h1 hgs hc hsm hmeld ht hfin hsegs hw hk h0 h2 hl le_rfl (q := q) (by rw [zero_add]; exact hq) hq2).2.2
    have k2 := (layer_sides h1' hgs' hc' hsm' hmeld ht hfin hsegs' hw' hk h0 h2' hl' le_rfl (q := q) (by rw [zero_add]; exact farFromSurface_same hst hp hq)
      (farFromSurface_same hst hp hq2)).2.2
    rw [k1, k2]
    exact hin _ _

end Verif
