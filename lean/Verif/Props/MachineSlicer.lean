import Verif.Model.MachineSlicer
import Verif.Lemmas.Sqrt
import Verif.Props.MachineOptimizer
import Verif.Props.MachineSlice
import Verif.Props.Slice

/-! # `slicer` with int64 arithmetic (C126) -/
namespace Verif
open Verif.Go Verif.Model Verif.Spec

/-- Both coordinates are at most `b`. -/
def PtIn (b : Int) (p : Pt) : Prop := |p.x| ≤ b ∧ |p.y| ≤ b

theorem PtIn.sub {a b : Int} {p q : Pt} (hp : PtIn a p) (hq : PtIn b q) : PtIn (a + b) (p.sub q) :=
  ⟨(abs_sub _ _).trans (add_le_add hp.1 hq.1), (abs_sub _ _).trans (add_le_add hp.2 hq.2)⟩

theorem PtIn.mono {a b : Int} {p : Pt} (h : PtIn a p) (hab : a ≤ b) : PtIn b p := ⟨h.1.trans hab, h.2.trans hab⟩

theorem subM_in {a b : Int} {p q : Pt} (hp : PtIn a p) (hq : PtIn b q) (h : a + b < 2 ^ 30) : subM p q = p.sub q :=
  subM_eq p q ((hp.sub hq).1.trans_lt h) ((hp.sub hq).2.trans_lt h)

theorem shorterM_eq {b : Int} {p : Pt} (hp : PtIn b p) (hb : b < 2 ^ 30) {l : Int} (hl : |l| < 2 ^ 30) : shorterThanOrEqualM p l = p.shorterThanOrEqual l := by
  have h := mul_self_bounds hl.le
  have h1 := mul_self_bounds (hp.1.trans hb.le)
  have h2 := mul_self_bounds (hp.2.trans hb.le)
  rw [abs_lt] at hl
  unfold shorterThanOrEqualM Pt.shorterThanOrEqual
  rw [size2M_eq p (hp.1.trans_lt hb) (hp.2.trans_lt hb), wrap_of_lt (n := -l) (by omega) (by omega), wrap_of_lt (n := l * l) (by omega) (by omega)]

theorem sizeM_eq {b : Int} {p : Pt} (hp : PtIn b p) (hb : b < 2 ^ 30) : sizeM p = p.size := by
  unfold sizeM Pt.size
  rw [size2M_eq p (hp.1.trans_lt hb) (hp.2.trans_lt hb)]

theorem size_bound {b : Int} {p : Pt} (hp : PtIn b p) (hb : b < 2 ^ 30) : 0 ≤ p.size ∧ p.size ≤ 2 ^ 31 := by
  refine ⟨size_nonneg p, ?_⟩
  have h1 := mul_self_bounds (hp.1.trans hb.le)
  have h2 := mul_self_bounds (hp.2.trans hb.le)
  have hs : p.size2 ≤ 2 ^ 61 := by unfold Pt.size2; omega
  have hr : r64 (p.size2 : ℚ) ≤ 2 ^ 62 := by
    have e := r64_rel' (x := (2 ^ 61 : ℚ)) (e := 1) (by norm_num) (by norm_num)
    rw [abs_of_pos (by norm_num : (0 : ℚ) < 2 ^ 61), abs_le] at e
    norm_num at e ⊢
    have := r64_mono (x := (p.size2 : ℚ)) (y := 2 ^ 61) (by exact_mod_cast hs)
    norm_num at this
    linarith [e.2]
  have hq : fsqrt64 (r64 (p.size2 : ℚ)) ≤ 2 ^ 31 := by
    rw [fsqrt64_eq]
    have h : Real.sqrt ((r64 (p.size2 : ℚ) : ℚ) : ℝ) ≤ ((2 ^ 31 : ℚ) : ℝ) := by
      rw [Real.sqrt_le_left (by norm_num)]
      have : ((r64 (p.size2 : ℚ) : ℚ) : ℝ) ≤ ((2 ^ 62 : ℚ) : ℝ) := Rat.cast_le.2 hr
      push_cast at this ⊢
      linarith
    have := rnd_mono 53 (by norm_num) (-1074) h
    rw [rnd_of_repr 53 (by norm_num) (-1074) (2 ^ 31 : ℚ) ⟨1, 31, by norm_num, by norm_num, by norm_num⟩] at this
    exact this
  unfold Pt.size truncZ
  split
  · have := Int.floor_le (fsqrt64 (r64 (p.size2 : ℚ)))
    have h : ((⌊fsqrt64 (r64 (p.size2 : ℚ))⌋ : Int) : ℚ) ≤ ((2 ^ 31 : Int) : ℚ) := by push_cast; linarith
    exact_mod_cast h
  · rename_i hn
    have : (0 : Int) ≤ ⌊-fsqrt64 (r64 (p.size2 : ℚ))⌋ := Int.floor_nonneg.2 (by linarith [not_le.1 hn])
    omega

/-! ## Segments -/

theorem faceZ_in {b : Int} {f : Tri Vec3} (hf : ∀ v ∈ f.corners, VecIn b v) : |faceMinZ f| ≤ b ∧ |faceMaxZ f| ≤ b := by
  have ha := (hf f.a (by simp [Tri.corners])).2.2
  have hb := (hf f.b (by simp [Tri.corners])).2.2
  have hc := (hf f.c (by simp [Tri.corners])).2.2
  unfold faceMinZ faceMaxZ
  constructor <;> simp only <;> split <;> split <;> assumption

theorem sliceCase_mem {z : Int} {f t : Tri Vec3} (h : sliceCase z f = some t) : ∀ v ∈ [t.a, t.b, t.c], v ∈ f.corners := by
  unfold sliceCase at h
  intro v hv
  repeat' split at h
  all_goals first
    | cases h
      simp [Tri.corners] at hv ⊢
      tauto
    | cases h

theorem sliceIntoM_eq {z : Int} {i : Nat} {f : Tri Vec3} {layer : SliceLayer} (hz : |z| < 2 ^ 30) (hf : ∀ v ∈ f.corners, VecIn (3 * 2 ^ 26) v) :
    sliceIntoM z i f layer = sliceInto z i f layer := by
  unfold sliceIntoM sliceInto
  cases ht : sliceCase z f with
  | none => rfl
  | some t =>
    simp only
    rw [C52_int64 z t.a t.b t.c hz]
    intro p hp
    have := hf p (sliceCase_mem ht p hp)
    exact ⟨this.1.trans_lt (by norm_num), this.2.1.trans_lt (by norm_num), this.2.2.trans_lt (by norm_num)⟩

/-- The options of the slicer are not too large. -/
structure SliceFits (o : Options) : Prop where
  thickness : 0 < o.print.layerThickness
  initial : |o.print.initialLayerThickness| ≤ 2 ^ 28
  meld : |o.slicing.meldDistance| < 2 ^ 30
  join : |o.slicing.joinPolygonSnapDistance| < 2 ^ 30
  finish : |o.slicing.finishPolygonSnapDistance| < 2 ^ 30

theorem layerNrM_eq {o : Options} (ho : SliceFits o) {z : Int} (hz : |z| ≤ 2 ^ 28) :
    layerNrM o z = .ok ((z - o.print.initialLayerThickness).tdiv o.print.layerThickness) ∧
    |(z - o.print.initialLayerThickness).tdiv o.print.layerThickness * o.print.layerThickness| ≤ 2 ^ 29 ∧
    |(z - o.print.initialLayerThickness).tdiv o.print.layerThickness| ≤ 2 ^ 29 := by
  have ht := ho.thickness
  have hd : |z - o.print.initialLayerThickness| ≤ 2 ^ 29 := (abs_sub _ _).trans (by linarith [ho.initial])
  generalize hn : z - o.print.initialLayerThickness = n at *
  have hq : |n.tdiv o.print.layerThickness| ≤ 2 ^ 29 := by
    have := Int.natAbs_tdiv_le_natAbs n o.print.layerThickness
    rw [Int.abs_eq_natAbs] at *
    omega
  have hm : |n.tdiv o.print.layerThickness * o.print.layerThickness| ≤ 2 ^ 29 := by
    have := Int.mul_tdiv_add_tmod n o.print.layerThickness
    rw [Int.mul_comm] at this
    rcases le_or_gt 0 n with h | h
    · have h0 : 0 ≤ n.tmod o.print.layerThickness := Int.tmod_nonneg _ h
      have h1 : 0 ≤ n.tdiv o.print.layerThickness := Int.tdiv_nonneg h ht.le
      have := mul_nonneg h1 ht.le
      rw [abs_le] at *
      omega
    · have h0 : n.tmod o.print.layerThickness ≤ 0 := by
        have := Int.tmod_nonneg o.print.layerThickness (a := -n) (by omega)
        rw [Int.neg_tmod] at this
        omega
      have h1 : n.tdiv o.print.layerThickness ≤ 0 := by
        have := Int.tdiv_nonneg (a := -n) (by omega) ht.le
        rw [Int.neg_tdiv] at this
        omega
      have h2 := mul_nonneg (neg_nonneg.2 h1) ht.le
      rw [neg_mul] at h2
      rw [abs_le] at *
      omega
  refine ⟨?_, hm, hq⟩
  unfold layerNrM quo
  rw [hn, wrap_of_abs hd (by norm_num), if_neg ht.ne']
  simp only [bind, Except.bind, pure, Except.pure]
  rw [wrap_of_abs hq (by norm_num)]

theorem layerZM_eq {o : Options} (ho : SliceFits o) {n : Int} (hn : |n * o.print.layerThickness| ≤ 2 ^ 29) :
    layerZM o n = layerZ o n ∧ |layerZ o n| < 2 ^ 30 := by
  unfold layerZM layerZ
  have h : |n * o.print.layerThickness + o.print.initialLayerThickness| ≤ 2 ^ 29 + 2 ^ 28 := (abs_add_le _ _).trans (add_le_add hn ho.initial)
  rw [wrap_of_abs hn (by norm_num), wrap_of_abs h (by norm_num)]
  exact ⟨rfl, h.trans_lt (by norm_num)⟩

theorem sliceAtM_eq {o : Options} (ho : SliceFits o) {i : Nat} {f : Tri Vec3} (hf : ∀ v ∈ f.corners, VecIn (3 * 2 ^ 26) v) {layers : List (Option SliceLayer)}
    {n : Int} (hn : |n * o.print.layerThickness| ≤ 2 ^ 29) : sliceAtM o i f layers n = sliceAt o i f layers n := by
  obtain ⟨e, hz⟩ := layerZM_eq ho hn
  unfold sliceAtM sliceAt
  rw [e]
  congr 1
  congr 1
  cases index layers n with
  | error e => rfl
  | ok L =>
    simp only [bind, Except.bind]
    rw [sliceIntoM_eq hz hf]

theorem sliceLayersM_eq {o : Options} (ho : SliceFits o) {i : Nat} {f : Tri Vec3} (hf : ∀ v ∈ f.corners, VecIn (3 * 2 ^ 26) v) {last : Int}
    (hl : |last * o.print.layerThickness| ≤ 2 ^ 29) (hl' : |last| ≤ 2 ^ 29) (n : Nat) {first : Int} (hf1 : |first * o.print.layerThickness| ≤ 2 ^ 29)
    (hf2 : |first| ≤ 2 ^ 29) (hle : first + n ≤ last + 1) (layers : List (Option SliceLayer)) :
    sliceLayersM o i f n first layers = sliceLayers o i f n first layers := by
  induction n generalizing first layers with
  | zero => rfl
  | succ n ih =>
    unfold sliceLayersM sliceLayers
    rw [sliceAtM_eq ho hf hf1]
    have h1 : |first + 1| ≤ 2 ^ 29 + 1 := by rw [abs_le] at *; omega
    rw [wrap_of_abs h1 (by norm_num)]
    cases sliceAt o i f layers first with
    | error e => rfl
    | ok layers' =>
      simp only [bind, Except.bind]
      cases n with
      | zero => rfl
      | succ n =>
        have ht := ho.thickness
        have a : first * o.print.layerThickness ≤ (first + 1) * o.print.layerThickness := by nlinarith
        have b : (first + 1) * o.print.layerThickness ≤ last * o.print.layerThickness := mul_le_mul_of_nonneg_right (by push_cast at hle; omega) ht.le
        refine ih (first := first + 1) ?_ ?_ (by push_cast at *; omega) layers'
        · rw [abs_le] at *; omega
        · rw [abs_le] at *; push_cast at hle; omega

theorem sliceOneFaceM_eq {o : Options} (ho : SliceFits o) {i : Nat} {f : Tri Vec3} (hf : ∀ v ∈ f.corners, VecIn (3 * 2 ^ 26) v) (layers : List (Option SliceLayer)) :
    sliceOneFaceM o i f layers = sliceOneFace o i f layers := by
  obtain ⟨hmin, hmax⟩ := faceZ_in hf
  obtain ⟨e1, a1, a2⟩ := layerNrM_eq ho (hmin.trans (by norm_num))
  obtain ⟨e2, b1, b2⟩ := layerNrM_eq ho (hmax.trans (by norm_num))
  unfold sliceOneFaceM sliceOneFace quo
  rw [e1, e2, if_neg ho.thickness.ne', if_neg ho.thickness.ne']
  simp only [bind, Except.bind]
  rcases le_or_gt 0 ((faceMaxZ f - o.print.initialLayerThickness).tdiv o.print.layerThickness -
    (faceMinZ f - o.print.initialLayerThickness).tdiv o.print.layerThickness + 1) with h | h
  · exact sliceLayersM_eq ho hf b1 b2 _ a1 a2 (by rw [Int.toNat_of_nonneg h]; omega) layers
  · rw [Int.toNat_of_nonpos h.le]
    rfl

theorem sliceFacesM_eq {o : Options} (ho : SliceFits o) (fs : List (Tri Vec3)) (hf : ∀ f ∈ fs, ∀ v ∈ f.corners, VecIn (3 * 2 ^ 26) v) (i : Nat)
    (layers : List (Option SliceLayer)) : sliceFacesM o i fs layers = sliceFaces o i fs layers := by
  induction fs generalizing i layers with
  | nil => rfl
  | cons f fs ih =>
    unfold sliceFacesM sliceFaces
    rw [sliceOneFaceM_eq ho (hf f (by simp))]
    cases sliceOneFace o i f layers with
    | error e => rfl
    | ok layers' => exact ih (fun g hg => hf g (List.mem_cons_of_mem _ hg)) _ _

/-- The model is not too large: all coordinates are at most `3 * 2^26` µm, and there are at most 2^26 faces. -/
structure ModelFits (om : OptModel) : Prop where
  points : ∀ p ∈ om.points, VecIn (3 * 2 ^ 26) p.pos
  size : VecIn (2 * 2 ^ 26) om.size
  faces : om.faces.length ≤ 2 ^ 26

theorem facePoints_in {om : OptModel} (hm : ModelFits om) {fs : List (Tri Vec3)} (h : om.faces.mapM om.facePoints = .ok fs) :
    ∀ f ∈ fs, ∀ v ∈ f.corners, VecIn (3 * 2 ^ 26) v := by
  intro f hf v hv
  obtain ⟨k, hk⟩ := List.getElem?_of_mem hf
  have h2 := mapM_ok.1 h
  obtain ⟨hkl, hkf⟩ := List.getElem?_eq_some_iff.1 hk
  have := (List.forall₂_iff_get.1 h2).2 k (by rw [h2.length_eq]; exact hkl) hkl
  unfold OptModel.facePoints at this
  obtain ⟨p0, h0, this⟩ := bind_ok.1 this
  obtain ⟨p1, h1, this⟩ := bind_ok.1 this
  obtain ⟨p2, h2, this⟩ := bind_ok.1 this
  simp only [pure, Except.pure, Except.ok.injEq, List.get_eq_getElem] at this
  rw [← hkf, ← this] at hv
  simp only [Tri.corners, List.mem_cons, List.not_mem_nil, or_false] at hv
  rcases hv with rfl | rfl | rfl
  · exact hm.points _ (index_mem h0)
  · exact hm.points _ (index_mem h1)
  · exact hm.points _ (index_mem h2)

theorem layerCountM_eq {o : Options} (ho : SliceFits o) {om : OptModel} (hm : ModelFits om) : layerCountM o om = layerCount o om := by
  obtain ⟨e, -, h⟩ := layerNrM_eq ho (hm.size.2.2.trans (by norm_num))
  unfold layerCountM layerCount quo
  rw [e, if_neg ho.thickness.ne']
  simp only [bind, Except.bind, pure, Except.pure]
  rw [wrap_of_abs (b := 2 ^ 29 + 1) ((abs_add_le _ _).trans (by rw [abs_one]; omega)) (by norm_num)]

/-- **C126** The segments of all layers are free of overflow. -/
theorem C126_segments {o : Options} (ho : SliceFits o) {om : OptModel} (hm : ModelFits om) : sliceSegmentsM o om = sliceSegments o om := by
  unfold sliceSegmentsM sliceSegments
  rw [layerCountM_eq ho hm]
  cases layerCount o om with
  | error e => rfl
  | ok cnt =>
    simp only [bind, Except.bind]
    cases makeLayers cnt with
    | error e => rfl
    | ok layers =>
      simp only
      cases hfs : om.faces.mapM om.facePoints with
      | error e => rfl
      | ok fs => exact sliceFacesM_eq ho fs (facePoints_in hm hfs) 0 layers

/-! ## Polygons -/

/-- All ends of the segments are at most `3 * 2^26`. -/
def SegmentsIn (layer : SliceLayer) : Prop := ∀ s ∈ layer.segments, PtIn (3 * 2 ^ 26) s.start ∧ PtIn (3 * 2 ^ 26) s.finish

theorem nextSegmentM_eq {meld : Int} (hmeld : |meld| < 2 ^ 30) {layer : SliceLayer} (hl : SegmentsIn layer) {added : List Nat} {start : Nat} {p0 : Pt} (hp : PtIn (3 * 2 ^ 26) p0)
    (ts : List Int) (r : Option Nat × Bool) : nextSegmentM meld layer added start p0 ts r = nextSegment meld layer added start p0 ts r := by
  induction ts generalizing r with
  | nil => rfl
  | cons t ts ih =>
    unfold nextSegmentM nextSegment
    cases (if t > -1 then layer.faceToSegmentIndex t.toNat else none) with
    | none => exact ih r
    | some ti =>
      simp only
      cases hs : index layer.segments (ti : Int) with
      | error e => rfl
      | ok seg =>
        have hseg := (hl seg (index_mem hs)).1
        simp only [bind, Except.bind]
        rw [subM_in hp hseg (by norm_num), shorterM_eq (hp.sub hseg) (by norm_num) hmeld, ih, ih]

theorem walkM_eq {meld : Int} (hmeld : |meld| < 2 ^ 30) {om : OptModel} {layer : SliceLayer} (hl : SegmentsIn layer) {start : Nat} (rounds : Nat) (added : List Nat)
    (polygon : Path) (current : Nat) : walkM meld om layer start rounds added polygon current = walk meld om layer start rounds added polygon current := by
  induction rounds generalizing added polygon current with
  | zero => rfl
  | succ n ih =>
    unfold walkM walk
    cases hs : index layer.segments (current : Int) with
    | error e => rfl
    | ok seg =>
      simp only [bind, Except.bind]
      cases index om.faces (seg.faceIndex : Int) with
      | error e => rfl
      | ok face =>
        simp only
        rw [nextSegmentM_eq hmeld hl (hl seg (index_mem hs)).2]
        cases nextSegment meld layer (added ++ [current]) start seg.finish face.touching.corners (none, false) with
        | error e => rfl
        | ok r =>
          obtain ⟨r1, r2⟩ := r
          cases r1 with
          | none => rfl
          | some next => exact ih _ _ _

theorem buildPolygonsM_eq {meld : Int} (hmeld : |meld| < 2 ^ 30) {om : OptModel} {layer : SliceLayer} (hl : SegmentsIn layer) (is : List Nat) (added : List Nat)
    (polys : List Poly) : buildPolygonsM meld om layer is added polys = buildPolygons meld om layer is added polys := by
  induction is generalizing added polys with
  | nil => rfl
  | cons i is ih =>
    unfold buildPolygonsM buildPolygons
    split
    · exact ih _ _
    · cases index layer.segments (i : Int) with
      | error e => rfl
      | ok seg =>
        simp only [bind, Except.bind]
        rw [walkM_eq hmeld hl]
        cases walk meld om layer i (layer.segments.length + 1) added [seg.start] i with
        | error e => rfl
        | ok r => exact ih _ _

/-- The points of all polygons. -/
def polyPoints (polys : List Poly) : Path := (polys.map fun p => p.path.getD []).flatten

/-- There are at most 2^27 points, all of whose coordinates are at most `3 * 2^26`. -/
def PolysIn (polys : List Poly) : Prop := (polyPoints polys).length ≤ 2 ^ 27 ∧ ∀ p ∈ polyPoints polys, PtIn (3 * 2 ^ 26) p

theorem PolysIn.path {polys : List Poly} (h : PolysIn polys) {path : Path} {cl : Bool} (hp : ⟨some path, cl⟩ ∈ polys) :
    path.length ≤ 2 ^ 27 ∧ ∀ p ∈ path, PtIn (3 * 2 ^ 26) p := by
  have hm : path ∈ polys.map fun p => p.path.getD [] := List.mem_map.2 ⟨_, hp, rfl⟩
  exact ⟨(List.Sublist.length_le (List.sublist_flatten_of_mem hm)).trans h.1, fun p hpp => h.2 p (List.mem_flatten.2 ⟨path, hm, hpp⟩)⟩

theorem bestPartnerM_eq {join : Int} (hj : |join| < 2 ^ 30) {i : Nat} {last : Pt} (hlast : PtIn (3 * 2 ^ 26) last) (ps : List Poly)
    (hps : ∀ path cl, ⟨some path, cl⟩ ∈ ps → path.length ≤ 2 ^ 27 ∧ ∀ p ∈ path, PtIn (3 * 2 ^ 26) p) (j : Nat) (best : Option Nat × Int) :
    bestPartnerM join i last ps j best = bestPartner join i last ps j best := by
  induction ps generalizing j best with
  | nil => rfl
  | cons p ps ih =>
    have ih := ih fun path cl h => hps path cl (List.mem_cons_of_mem _ h)
    obtain ⟨path, cl⟩ := p
    cases path with
    | none =>
      unfold bestPartnerM bestPartner
      exact ih _ _
    | some path =>
      obtain ⟨hlen, hin⟩ := hps path cl (by simp)
      unfold bestPartnerM bestPartner
      split
      · exact ih _ _
      · cases hf : index path 0 with
        | error e => rfl
        | ok first =>
          have hfirst := hin first (index_mem hf)
          have hd := hlast.sub hfirst
          have hb := size_bound hd (by norm_num)
          simp only [bind, Except.bind]
          rw [subM_in hlast hfirst (by norm_num), shorterM_eq hd (by norm_num) hj, sizeM_eq hd (by norm_num),
            wrap_of_lt (n := ((path.length * 10 : Nat) : Int)) (by omega) (by push_cast; omega), wrap_of_lt (by push_cast; omega) (by push_cast; omega), ih, ih]

theorem isAlmostFinishedM_eq {d : Int} (hd : |d| < 2 ^ 30) {path : Path} (hp : ∀ p ∈ path, PtIn (3 * 2 ^ 26) p) : isAlmostFinishedM path d = isAlmostFinished path d := by
  unfold isAlmostFinishedM isAlmostFinished
  cases h0 : index path 0 with
  | error e => rfl
  | ok first =>
    simp only [bind, Except.bind]
    cases h1 : index path ((path.length : Int) - 1) with
    | error e => rfl
    | ok last =>
      have a := hp first (index_mem h0)
      have b := hp last (index_mem h1)
      simp only
      rw [subM_in a b (by norm_num), shorterM_eq (a.sub b) (by norm_num) hd]

theorem joinPolygonsM_eq {join : Int} (hj : |join| < 2 ^ 30) {polys : List Poly} (hp : PolysIn polys) {i : Nat} {path : Path} (hpath : ∀ p ∈ path, PtIn (3 * 2 ^ 26) p) (best : Nat) :
    joinPolygonsM join polys i path best = joinPolygons join polys i path best := by
  unfold joinPolygonsM joinPolygons
  cases hb : index polys (best : Int) with
  | error e => rfl
  | ok other =>
    simp only [bind, Except.bind]
    rw [isAlmostFinishedM_eq hj]
    intro p hpm
    rcases List.mem_append.1 hpm with h | h
    · exact hpath p h
    · obtain ⟨path', cl⟩ := other
      cases path' with
      | none => simp at h
      | some path' => exact (hp.path (index_mem hb)).2 p h

theorem joinPassM_eq {join : Int} (hj : |join| < 2 ^ 30) {polys : List Poly} (hp : PolysIn polys) (ps : List Poly) (hps : ∀ p ∈ ps, p ∈ polys) (i : Nat) :
    joinPassM join polys ps i = joinPass join polys ps i := by
  induction ps generalizing i with
  | nil => rfl
  | cons p ps ih =>
    have ih := ih fun q hq => hps q (List.mem_cons_of_mem _ hq)
    obtain ⟨path, cl⟩ := p
    cases path with
    | none =>
      unfold joinPassM joinPass
      exact ih _
    | some path =>
      have hpath := (hp.path (hps _ (List.mem_cons_self ..))).2
      unfold joinPassM joinPass
      split
      · exact ih _
      · cases hl : index path ((path.length : Int) - 1) with
        | error e => rfl
        | ok last =>
          have h1 : |join + 1| ≤ 2 ^ 31 := by rw [abs_lt] at hj; rw [abs_le]; omega
          simp only [bind, Except.bind]
          rw [wrap_of_abs h1 (by norm_num), bestPartnerM_eq hj (hpath last (index_mem hl)) polys fun path cl h => hp.path h]
          cases bestPartner join i last polys 0 (none, join + 1) with
          | error e => rfl
          | ok r =>
            obtain ⟨r1, r2⟩ := r
            cases r1 with
            | none => exact ih _
            | some b =>
              simp only
              rw [joinPolygonsM_eq hj hp hpath]

theorem joinStep_points {join : Int} {polys polys' : List Poly} (h : JoinStep join polys polys') : (polyPoints polys').Perm (polyPoints polys) := by
  obtain ⟨i, p, b, q, last, cl, hi, -, ⟨hb, hib, -⟩, -, -, rfl⟩ := h
  unfold polyPoints
  rw [List.map_set, List.map_set]
  have h1 := flatten_set_perm (l := polys.map fun p => p.path.getD []) (i := i) (x := p) (p ++ q) (by simp [hi])
  have h2 := flatten_set_perm (l := (polys.map fun p => p.path.getD []).set i (p ++ q)) (i := b) (x := q) [] (by rw [List.getElem?_set_ne hib]; simp [hb])
  simp only [Option.getD_some, Option.getD_none]
  rw [List.append_nil] at h2
  have h3 := (h2.append_right p).trans h1
  have h4 : ((((polys.map fun p => p.path.getD []).set i (p ++ q)).set b []).flatten ++ (p ++ q)).Perm ((polys.map fun p => p.path.getD []).flatten ++ (p ++ q)) := by
    refine List.Perm.trans ?_ h3
    rw [List.append_assoc]
    exact List.perm_append_comm.append_left _
  exact (List.perm_append_right_iff _).1 h4

theorem PolysIn.perm {polys polys' : List Poly} (h : PolysIn polys) (hp : (polyPoints polys').Perm (polyPoints polys)) : PolysIn polys' :=
  ⟨hp.length_eq ▸ h.1, fun p hpp => h.2 p (hp.mem_iff.1 hpp)⟩

theorem joinStep_nonempty {join : Int} {polys polys' : List Poly} (h : JoinStep join polys polys') (hne : ∀ p ∈ polys, p.path ≠ some []) : ∀ p ∈ polys', p.path ≠ some [] := by
  obtain ⟨i, p, b, q, last, cl, hi, -, -, -, -, rfl⟩ := h
  intro r hr e
  rcases List.mem_or_eq_of_mem_set hr with hr | rfl
  · rcases List.mem_or_eq_of_mem_set hr with hr | rfl
    · exact hne r hr e
    · have := Option.some.inj e
      rw [List.append_eq_nil_iff] at this
      exact hne _ (List.mem_of_getElem? hi) (by rw [this.1])
  · cases e

theorem joinAllM_eq {join : Int} (hj : |join| < 2 ^ 30) (rounds : Nat) {polys : List Poly} (hp : PolysIn polys) (hne : ∀ p ∈ polys, p.path ≠ some []) :
    joinAllM join rounds polys = joinAll join rounds polys ∧ ∀ polys', joinAll join rounds polys = .ok polys' → PolysIn polys' := by
  induction rounds generalizing polys with
  | zero => exact ⟨rfl, fun polys' h => by cases h⟩
  | succ n ih =>
    obtain ⟨r, hr, hstep, -⟩ := joinPass_spec (join := join) hne polys 0 rfl
    unfold joinAllM joinAll
    rw [joinPassM_eq hj hp polys (fun _ h => h), hr]
    simp only [bind, Except.bind]
    cases r with
    | none => exact ⟨rfl, fun polys' h => by cases h; exact hp⟩
    | some polys1 => exact ih (hp.perm (joinStep_points (hstep _ rfl))) (joinStep_nonempty (hstep _ rfl) hne)

theorem polygonLengthM_eq {closed : Bool} {finish : Int} (prev : Pt) (hprev : PtIn (3 * 2 ^ 26) prev) (ps : Path) (hp : ∀ p ∈ ps, PtIn (3 * 2 ^ 26) p) {n : Int}
    (h0 : 0 ≤ n) (hn : n + ps.length * 2 ^ 31 ≤ 2 ^ 60) : polygonLengthM closed finish prev ps n = polygonLength closed finish prev ps n := by
  induction ps generalizing prev n with
  | nil => rfl
  | cons p ps ih =>
    have hpin := hp p (by simp)
    have hd := hpin.sub hprev
    have hb := size_bound hd (by norm_num)
    rw [List.length_cons] at hn
    push_cast at hn
    unfold polygonLengthM polygonLength
    rw [subM_in hpin hprev (by norm_num), sizeM_eq hd (by norm_num), wrap_of_lt (by omega) (by omega)]
    simp only
    rw [ih p hpin (fun q hq => hp q (List.mem_cons_of_mem _ hq)) (by omega) (by omega)]

theorem clearPolygonsM_eq {finish : Int} (hf : |finish| < 2 ^ 30) (ps : List Poly)
    (hps : ∀ path cl, ⟨some path, cl⟩ ∈ ps → path.length ≤ 2 ^ 27 ∧ ∀ p ∈ path, PtIn (3 * 2 ^ 26) p) : clearPolygonsM finish ps = clearPolygons finish ps := by
  induction ps with
  | nil => rfl
  | cons p ps ih =>
    have ih := ih fun path cl h => hps path cl (List.mem_cons_of_mem _ h)
    obtain ⟨path, cl⟩ := p
    cases path with
    | none =>
      unfold clearPolygonsM clearPolygons
      exact ih
    | some path =>
      obtain ⟨hlen, hin⟩ := hps path cl (by simp)
      unfold clearPolygonsM clearPolygons
      rw [isAlmostFinishedM_eq hf hin, ih]
      cases isAlmostFinished path finish with
      | error e => rfl
      | ok almost =>
        cases path with
        | nil => rfl
        | cons p rest =>
          simp only [bind, Except.bind]
          rw [List.length_cons] at hlen
          have e := polygonLengthM_eq (closed := cl || almost) (finish := finish) p (hin p (by simp)) rest (fun q hq => hin q (List.mem_cons_of_mem _ hq)) le_rfl (by omega)
          simp only [e]

theorem pathOf_length (ss : List SliceSegment) : (pathOf ss).length ≤ 2 * ss.length := by
  cases ss with
  | nil => simp [pathOf]
  | cons s ss => simp only [pathOf, List.length_cons, List.length_map]; omega

theorem pathOf_mem {ss : List SliceSegment} {p : Pt} (h : p ∈ pathOf ss) : ∃ s ∈ ss, p = s.start ∨ p = s.finish := by
  cases ss with
  | nil => simp [pathOf] at h
  | cons s ss =>
    rcases List.mem_cons.1 h with rfl | h
    · exact ⟨s, by simp, .inl rfl⟩
    · obtain ⟨t, ht, rfl⟩ := List.mem_map.1 h
      exact ⟨t, ht, .inr rfl⟩

theorem chains_in {meld : Int} {om : OptModel} {layer : SliceLayer} (hl : SegmentsIn layer) {chains : List (List Nat)} {polys : List Poly}
    (h : List.Forall₂ (IsChainOf meld om layer) chains polys) :
    (polyPoints polys).length ≤ 2 * chains.flatten.length ∧ ∀ p ∈ polyPoints polys, PtIn (3 * 2 ^ 26) p := by
  induction h with
  | nil => simp [polyPoints]
  | @cons c p cs ps hc _ ih =>
    obtain ⟨i1, i2⟩ := ih
    have e : polyPoints (p :: ps) = pathOf (segmentsOf layer c) ++ polyPoints ps := by
      unfold polyPoints
      rw [List.map_cons, List.flatten_cons, hc.path]
      rfl
    have hlen : (segmentsOf layer c).length ≤ c.length := List.length_filterMap_le _ _
    refine ⟨?_, ?_⟩
    · rw [e, List.length_append, List.flatten_cons, List.length_append]
      have := pathOf_length (segmentsOf layer c)
      omega
    · intro q hq
      rw [e] at hq
      rcases List.mem_append.1 hq with hq | hq
      · obtain ⟨s, hs, hq⟩ := pathOf_mem hq
        obtain ⟨k, -, hk⟩ := List.mem_filterMap.1 hs
        have := hl s (List.mem_of_getElem? hk)
        rcases hq with rfl | rfl
        · exact this.1
        · exact this.2
      · exact i2 q hq

theorem makePolygonsM_eq {o : Options} (ho : SliceFits o) {om : OptModel} {layer : SliceLayer} (hg : GoodLayer om layer) (hl : SegmentsIn layer)
    (hn : layer.segments.length ≤ 2 ^ 26) : makePolygonsM o om layer = makePolygons o om layer := by
  obtain ⟨polys, chains, e, hch, hperm, -⟩ := C57_partition (meld := o.slicing.meldDistance) hg
  obtain ⟨h1, h2⟩ := chains_in hl hch
  have hin : PolysIn polys := ⟨by rw [hperm.length_eq, List.length_range] at h1; omega, h2⟩
  have hne : ∀ p ∈ polys, p.path ≠ some [] := by
    intro p hp
    obtain ⟨k, hk⟩ := List.getElem?_of_mem hp
    obtain ⟨hk', rfl⟩ := List.getElem?_eq_some_iff.1 hk
    have hkc : k < chains.length := by have := hch.length_eq; omega
    exact (chain_path ((List.forall₂_iff_get.1 hch).2 k hkc hk') fun m hm =>
      List.mem_range.1 (hperm.mem_iff.1 (List.mem_flatten.2 ⟨_, List.getElem_mem hkc, hm⟩))).2
  obtain ⟨ej, hj⟩ := joinAllM_eq ho.join (polys.length + 1) hin hne
  unfold makePolygonsM makePolygons
  rw [buildPolygonsM_eq ho.meld hl, e]
  simp only [bind, Except.bind]
  rw [ej]
  cases h : joinAll o.slicing.joinPolygonSnapDistance (polys.length + 1) polys with
  | error e => rfl
  | ok polys' => exact clearPolygonsM_eq ho.finish polys' fun path cl hp => (hj polys' h).path hp

theorem onSide_ptIn {b z : Int} {f : Tri Vec3} (hf : ∀ v ∈ f.corners, VecIn b v) {s : Vec3 × Vec3} (hs : IsSide f s) {p : Pt} (hp : OnSide z s p) : PtIn b p := by
  have h12 : VecIn b s.1 ∧ VecIn b s.2 := by
    have ha := hf f.a (by simp [Tri.corners])
    have hb := hf f.b (by simp [Tri.corners])
    have hc := hf f.c (by simp [Tri.corners])
    rcases hs with rfl | rfl | rfl
    · exact ⟨ha, hb⟩
    · exact ⟨hb, hc⟩
    · exact ⟨hc, ha⟩
  obtain ⟨⟨-, a1, a2⟩, ⟨-, b1, b2⟩⟩ := hp
  obtain ⟨⟨x1, y1, -⟩, ⟨x2, y2, -⟩⟩ := h12
  unfold PtIn
  simp only [abs_le] at *
  omega

theorem segments_in {o : Options} (ho : SliceFits o) {om : OptModel} (hm : ModelFits om) {layers : List (Option SliceLayer)} (h : sliceSegments o om = .ok layers) {n : Nat}
    {layer : SliceLayer} (hn : layers[n]? = some (some layer)) : SegmentsIn layer ∧ layer.segments.length ≤ 2 ^ 26 := by
  obtain ⟨fs, _, hfs, -⟩ := sliceSegments_inv h
  obtain ⟨h1, h2, -⟩ := C53_segments o om layers h ho.thickness fs hfs n layer hn
  have hf := facePoints_in hm hfs
  refine ⟨fun s hs => ?_, ?_⟩
  · obtain ⟨f, d, u, hfi, hd, hu, -, -, hds, huf⟩ := h2 s hs
    have := hf f (List.mem_of_getElem? hfi)
    exact ⟨onSide_ptIn this hd hds, onSide_ptIn this hu huf⟩
  · have e := congrArg List.length h1
    rw [List.length_map] at e
    have l1 := List.length_filter_le (fun i => (fs[i]?).any fun f => decide (Crosses (heightOf o.print.initialLayerThickness o.print.layerThickness n) f)) (List.range fs.length)
    rw [List.length_range] at l1
    have := (mapM_ok.1 hfs).length_eq
    have := hm.faces
    omega

theorem mapM_congr {α β : Type} {f g : α → Res β} (l : List α) (h : ∀ a ∈ l, f a = g a) : l.mapM f = l.mapM g := by
  induction l with
  | nil => rfl
  | cons a l ih =>
    rw [List.mapM_cons, List.mapM_cons, h a (by simp), ih fun b hb => h b (List.mem_cons_of_mem _ hb)]

/-- **C126** The slicer is free of overflow. -/
theorem C126_slice {o : Options} (ho : SliceFits o) {om : OptModel} (hm : ModelFits om) (lib : ClipperLib) : sliceM lib o om = slice lib o om := by
  unfold sliceM slice
  rw [C126_segments ho hm]
  cases h : sliceSegments o om with
  | error e => rfl
  | ok layers =>
    refine mapM_congr layers fun L hL => ?_
    cases L with
    | none => rfl
    | some layer =>
      obtain ⟨n, hn⟩ := List.getElem?_of_mem hL
      obtain ⟨h1, h2⟩ := segments_in ho hm h hn
      unfold finishLayerM finishLayer
      simp only
      rw [makePolygonsM_eq ho (goodLayer_of h ho.thickness hn) h1 h2]
      rfl

theorem firstFaces_length (kept fs : List (Tri Vec3)) : (firstFaces kept fs).length ≤ kept.length + fs.length := by
  induction fs generalizing kept with
  | nil => simp [firstFaces]
  | cons f fs ih =>
    unfold firstFaces
    refine (ih _).trans ?_
    split <;> simp only [List.length_append, List.length_cons, List.length_nil] <;> omega

theorem modelFits_of {o : Options} {m : Mesh} (h : MeshFits o m) (hn : m.length ≤ 2 ^ 26) {om : OptModel} (hom : optimize o m = .ok om) : ModelFits om := by
  obtain ⟨hp, hs⟩ := (C126_optimize h).2 om hom
  refine ⟨hp, hs, ?_⟩
  obtain ⟨fs, rep, lo, hi, hfs, -, -, e⟩ := C48_faces o m om hom
  have h1 := (mapM_ok.1 hfs).length_eq
  have h2 := congrArg List.length e
  have h3 := firstFaces_length [] (m.map (Tri.map rep))
  simp only [List.length_map, List.length_nil] at h2 h3
  omega

/-- **C126** From the mesh to the layers, 64 bits are enough. -/
theorem C126_layers {o : Options} {m : Mesh} (h : MeshFits o m) (hn : m.length ≤ 2 ^ 26) (ho : SliceFits o) (lib : ClipperLib) :
    (optimizeM o m >>= sliceM lib o) = (optimize o m >>= slice lib o) := by
  rw [(C126_optimize h).1]
  cases hom : optimize o m with
  | error e => rfl
  | ok om => exact C126_slice ho (modelFits_of h hn hom) lib

/-! ## Examples -/

theorem tetra_fits : MeshFits {} tetra ∧ tetra.length ≤ 2 ^ 26 ∧ SliceFits {} := by
  refine ⟨⟨?_, ?_, by decide⟩, by decide, ⟨by decide, by decide, by decide, by decide, by decide⟩⟩
  · unfold VecIn
    decide
  · unfold VecIn
    decide

/-- The assumptions are met by the tetrahedron with the default options; it has five layers. -/
example : ∃ ls, (optimizeM {} tetra >>= sliceM trivialLib {}) = .ok ls ∧ ls.length = 5 := by
  rw [C126_layers tetra_fits.1 tetra_fits.2.1 tetra_fits.2.2, tetra_ok]
  exact tetra_five

/-- A triangle 2^63 µm wide. -/
def wideMesh : Mesh := [⟨⟨-2 ^ 62, 0, 0⟩, ⟨2 ^ 62, 0, 0⟩, ⟨0, 1000, 1000⟩⟩]

/-- **C126** The bounds are needed: a mesh can be so wide that its size becomes negative. -/
theorem C126_limit : (optimizeM {} wideMesh).map (fun om => om.size.x) = .ok (-2 ^ 63) ∧ (optimize {} wideMesh).map (fun om => om.size.x) = .ok (2 ^ 63) := by
  decide +kernel

end Verif
