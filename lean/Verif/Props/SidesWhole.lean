import Verif.Spec.Skin
import Verif.Props.SidesLayers
import Verif.Props.CoveredWhole
import Verif.Props.Solid
import Verif.Props.Optimizer

/-! # C121: everything inside of the solid is filled -/
namespace Verif
open Verif.Go Verif.Model Verif.Spec Verif.Spec.GCode

/-! ## The overlap of the infill -/

theorem r32_small {x : ℚ} (h : x = 0 ∨ (2 : ℚ) ^ (-126 : Int) ≤ |x|) : |r32 x| ≤ |x| * (1 + 1 / 2 ^ 24) := by
  rcases h with rfl | h
  · simp
  · have h1 := r32_rel x h
    have h2 := abs_sub_abs_le_abs_sub (r32 x) x
    linarith

theorem truncZ_abs (x : ℚ) : |((truncZ x : Int) : ℚ)| ≤ |x| := by
  unfold truncZ
  split
  · next h =>
    rw [abs_of_nonneg h, abs_of_nonneg (by exact_mod_cast Int.floor_nonneg.2 h)]
    exact Int.floor_le x
  · next h =>
    push_cast
    rw [abs_neg, abs_of_neg (not_le.1 h), abs_of_nonneg (by exact_mod_cast Int.floor_nonneg.2 (by linarith))]
    exact Int.floor_le (-x)

theorem perimeterOverlap_abs {pc w : Int} (hw : 0 ≤ w) (hp : |100 - pc| ≤ 2 ^ 20) : |(perimeterOverlap pc w : ℚ)| ≤ w * |100 - (pc : ℚ)| / 50 := by
  have tiny : ∀ {e : ℚ}, (1 / 1000 : ℚ) ≤ e → (2 : ℚ) ^ (-126 : Int) ≤ e := fun h => le_trans (by norm_num) h
  rw [abs_le] at hp
  unfold perimeterOverlap
  have e1 : r32 (pc : ℚ) = pc := r32_intCast (by rw [abs_le]; norm_num at hp ⊢; omega)
  have e2 : r32 (100 - (pc : ℚ)) = 100 - pc := by
    have := r32_intCast (n := 100 - pc) (by rw [abs_le]; norm_num at hp ⊢; omega)
    push_cast at this
    exact this
  rw [e1, e2]
  refine (truncZ_abs _).trans ?_
  rcases eq_or_lt_of_le hw with rfl | hw
  · simp
  by_cases hb : 100 - pc = 0
  · have : (100 : ℚ) - pc = 0 := by exact_mod_cast hb
    simp [this]
  have hw1 : (1 : ℚ) ≤ w := by exact_mod_cast hw
  have hb1 : (1 : ℚ) ≤ |100 - (pc : ℚ)| := by
    have : (1 : Int) ≤ |100 - pc| := Int.one_le_abs hb
    exact_mod_cast this
  have hwa : |(w : ℚ)| = w := abs_of_pos (by linarith)
  have a1 := r32_rel (w : ℚ) (tiny (by rw [hwa]; linarith))
  rw [hwa, abs_le] at a1
  have a2 : (w : ℚ) / 2 ≤ r32 (w : ℚ) := by linarith [a1.1]
  have a3 : r32 (w : ℚ) ≤ w * (1 + 1 / 2 ^ 24) := by linarith [a1.2]
  have a4 : |r32 (w : ℚ)| = r32 (w : ℚ) := abs_of_pos (by linarith)
  set b := |100 - (pc : ℚ)| with hbd
  have b1 : |r32 (w : ℚ) * (100 - pc)| = r32 (w : ℚ) * b := by rw [abs_mul, a4]
  have hab : (1 / 2 : ℚ) ≤ r32 (w : ℚ) * b := by nlinarith
  have b2 := r32_rel (r32 (w : ℚ) * (100 - pc)) (tiny (by rw [b1]; linarith))
  have b3 := r32_small (x := r32 (w : ℚ) * (100 - pc)) (.inr (tiny (by rw [b1]; linarith)))
  rw [b1] at b2 b3
  have b4 : (1 / 4 : ℚ) ≤ |r32 (r32 (w : ℚ) * (100 - pc))| := by
    have := abs_sub_abs_le_abs_sub (r32 (w : ℚ) * (100 - pc)) (r32 (r32 (w : ℚ) * (100 - pc)))
    rw [abs_sub_comm, b1] at this
    linarith
  set c := r32 (r32 (w : ℚ) * (100 - pc)) with hc
  have c1 : |c / 100| = |c| / 100 := by rw [abs_div]; norm_num
  have c2 := r32_small (x := c / 100) (.inr (tiny (by rw [c1]; linarith)))
  rw [c1] at c2
  have d1 : r32 (w : ℚ) * b ≤ w * (1 + 1 / 2 ^ 24) * b := mul_le_mul_of_nonneg_right a3 (by linarith)
  have hwb : 0 ≤ (w : ℚ) * b := by positivity
  have d2 : |c| ≤ w * b * (1 + 1 / 2 ^ 24) * (1 + 1 / 2 ^ 24) := by
    refine b3.trans ?_
    have := mul_le_mul_of_nonneg_right d1 (show (0 : ℚ) ≤ 1 + 1 / 2 ^ 24 by norm_num)
    linarith
  norm_num at c2 d2 ⊢
  linarith

theorem overlaps_reach {o : Options} (hw : 0 ≤ o.printer.extrusionWidth) (hw' : o.printer.extrusionWidth ≤ 2 ^ 30) {pc : Int} (hp : |100 - pc| ≤ 2 ^ 20) :
    Overlaps o pc (overlapReach o pc) := by
  have h1 := perimeterOverlap_abs hw hp
  unfold Overlaps overlapReach
  set q := perimeterOverlap pc o.printer.extrusionWidth with hq
  have hwq : (0 : ℚ) ≤ o.printer.extrusionWidth := by exact_mod_cast hw
  have hwq' : (o.printer.extrusionWidth : ℚ) ≤ 2 ^ 30 := by exact_mod_cast hw'
  have hpq : |100 - (pc : ℚ)| ≤ 2 ^ 20 := by exact_mod_cast hp
  have h2 : (|(-q).tdiv 2| : ℚ) ≤ |(q : ℚ)| / 2 := by
    have : 2 * |(-q).tdiv 2| ≤ |q| := by
      rw [Int.neg_tdiv, abs_neg]
      rcases le_total 0 q with h | h
      · rw [abs_of_nonneg h, abs_of_nonneg (Int.tdiv_nonneg h (by norm_num)), Int.tdiv_eq_ediv_of_nonneg h]; omega
      · have : q.tdiv 2 = -((-q) / 2) := by
          rw [← Int.tdiv_eq_ediv_of_nonneg (a := -q) (by omega), Int.neg_tdiv]; omega
        rw [this, abs_neg, abs_of_nonpos h, abs_of_nonneg (by omega)]
        omega
    have : 2 * (|(-q).tdiv 2| : ℚ) ≤ |(q : ℚ)| := by exact_mod_cast this
    linarith
  have h3 : (|(-q).tdiv 2| : ℚ) ≤ o.printer.extrusionWidth * |100 - (pc : ℚ)| / 100 := by
    refine h2.trans ?_
    linarith
  rw [r64_intCast]
  · have : ((|100 - pc| : Int) : ℚ) = |100 - (pc : ℚ)| := by push_cast; rfl
    rw [this]
    exact h3
  · have : (|(-q).tdiv 2| : ℚ) ≤ 2 ^ 53 := by
      refine h3.trans ?_
      have := mul_le_mul hwq' hpq (abs_nonneg _) (by norm_num)
      norm_num at this ⊢
      linarith
    exact_mod_cast this

/-! ## The limits of the model -/

theorem encloses_moved {p : Path} {q q' : ℚ × ℚ} {d : ℚ} (hn : NearPt d q q') (hf : FarFromPath d p q) : Encloses p q' ↔ Encloses p q := by
  rw [encloses_ring, encloses_ring, ringCross_moved hn (farFromPath_ring.1 hf)]

theorem encloses_half {p : Path} {x : ℚ × ℚ} (h : Encloses p x) {u v w : ℚ} (hp : ∀ q ∈ p, u * (exactPt q).1 + v * (exactPt q).2 ≤ w) : u * x.1 + v * x.2 ≤ w := by
  by_contra hc
  rw [not_le] at hc
  rw [encloses_iff, pathCross_side (u := -u) (v := -v) fun q hq => ?_] at h
  · exact absurd h (by decide)
  · have := hp q hq
    unfold Side
    linarith

theorem inLimits_of_enclosed {p : Path} {lo hi : Pt} (hbox : ∀ q ∈ p, lo.x ≤ q.x ∧ q.x ≤ hi.x ∧ lo.y ≤ q.y ∧ q.y ≤ hi.y) {D : ℚ} (hD : 0 ≤ D) {x : ℚ × ℚ} (hx : Encloses p x)
    (hf : FarFromPath D p x) : InLimits D lo hi x := by
  have key : ∀ u v w : ℚ, u ^ 2 + v ^ 2 ≤ 1 → (∀ q ∈ p, u * (exactPt q).1 + v * (exactPt q).2 ≤ w) → u * (x.1 + u * D) + v * (x.2 + v * D) ≤ w := by
    intro u v w huv hp
    have hn : NearPt D x (x.1 + u * D, x.2 + v * D) := ⟨hD, by
      have : (x.1 - (x.1 + u * D)) ^ 2 + (x.2 - (x.2 + v * D)) ^ 2 = (u ^ 2 + v ^ 2) * D ^ 2 := by ring
      simp only [this]
      nlinarith [sq_nonneg D]⟩
    exact encloses_half ((encloses_moved hn hf).2 hx) hp
  have k1 := key 1 0 hi.x (by norm_num) fun q hq => by have := (hbox q hq).2.1; simp [exactPt]; exact_mod_cast this
  have k2 := key (-1) 0 (-lo.x) (by norm_num) fun q hq => by have := (hbox q hq).1; simp [exactPt]; exact_mod_cast this
  have k3 := key 0 1 hi.y (by norm_num) fun q hq => by have := (hbox q hq).2.2.2; simp [exactPt]; exact_mod_cast this
  have k4 := key 0 (-1) (-lo.y) (by norm_num) fun q hq => by have := (hbox q hq).2.2.1; simp [exactPt]; exact_mod_cast this
  refine ⟨?_, ?_, ?_, ?_⟩ <;> linarith

theorem insidePaths_exists {ps : Paths} {q : ℚ × ℚ} (h : InsidePaths ps q) : ∃ p ∈ ps, Encloses p q := by
  unfold InsidePaths at h
  obtain ⟨p, hp, he⟩ := List.countP_pos_iff.1 h.pos
  exact ⟨p, hp, by simpa using he⟩

theorem onSide_box {fs : List (Tri Vec3)} {lo hi : Vec3} (hbox : IsBox (vertices fs) lo hi) {z : Int} {x : Pt}
    (h : ∃ f ∈ fs, ∃ s ∈ faceSides f, (Down z s ∨ Up z s) ∧ OnSide z s x) : lo.x ≤ x.x ∧ x.x ≤ hi.x ∧ lo.y ≤ x.y ∧ x.y ≤ hi.y := by
  obtain ⟨f, hf, s, hsf, -, ⟨-, hx1, hx2⟩, -, hy1, hy2⟩ := h
  have hin : ∀ v ∈ f.corners, lo.x ≤ v.x ∧ v.x ≤ hi.x ∧ lo.y ≤ v.y ∧ v.y ≤ hi.y := fun v hv => by
    have := hbox.inside v (List.mem_flatMap.2 ⟨f, hf, hv⟩)
    exact ⟨this.1, this.2.1, this.2.2.1, this.2.2.2.1⟩
  have ha := hin f.a (by simp [Tri.corners])
  have hb := hin f.b (by simp [Tri.corners])
  have hc := hin f.c (by simp [Tri.corners])
  simp only [faceSides, List.mem_cons, List.not_mem_nil, or_false] at hsf
  rcases hsf with rfl | rfl | rfl <;> simp only at hx1 hx2 hy1 hy2 <;> omega

theorem box_small {fs : List (Tri Vec3)} (hs : SmallSurface fs) {lo hi : Vec3} (hbox : IsBox (vertices fs) lo hi) :
    (|lo.x| ≤ 2 ^ 34 ∧ |lo.y| ≤ 2 ^ 34) ∧ |hi.x| ≤ 2 ^ 34 ∧ |hi.y| ≤ 2 ^ 34 := by
  have key : ∀ p ∈ vertices fs, |p.x| < 2 ^ 26 ∧ |p.y| < 2 ^ 26 := fun p hp => by
    obtain ⟨f, hf, hv⟩ := List.mem_flatMap.1 hp
    exact hs f hf p (by simpa [Tri.corners] using hv)
  obtain ⟨⟨p1, h1, e1⟩, ⟨p2, h2, e2⟩, ⟨p3, h3, e3⟩, ⟨p4, h4, e4⟩, -⟩ := hbox.reached
  have := key _ h1
  have := key _ h2
  have := key _ h3
  have := key _ h4
  rw [← e1, ← e2, ← e3, ← e4]
  refine ⟨⟨?_, ?_⟩, ?_, ?_⟩ <;> norm_num at * <;> omega

theorem solid_limits (o : Options) (m : Mesh) (om : OptModel) (hom : optimize o m = .ok om) (fs : List (Tri Vec3)) (hfs : om.faces.mapM om.facePoints = .ok fs)
    (hclosed : ClosedSurface fs) (hmeld : 2 ≤ o.slicing.meldDistance) (ht : 0 < o.print.layerThickness) (segs : List (Option SliceLayer)) (h : sliceSegments o om = .ok segs) {k n : Nat}
    (hw : WellSliced o om fs segs k n) {lo hi : Vec3} (hlo : om.min = .ok lo) (hhi : om.max = .ok hi) {D : ℚ} (hD : 0 ≤ D) {q : ℚ × ℚ}
    (hq : FarFromSurface (D + 2) fs (heightOf o.print.initialLayerThickness o.print.layerThickness n) q)
    (hin : InsideSolid fs (heightOf o.print.initialLayerThickness o.print.layerThickness n) q) : InLimits D lo.pointXY hi.pointXY q := by
  have hbox : IsBox (vertices fs) lo hi := by
    simp only [OptModel.min, OptModel.max, hfs, bind, Except.bind] at hlo hhi
    exact mesh_box hlo hhi
  obtain ⟨layer, hn, htip, hone, -⟩ := hw
  obtain ⟨paths, short, -, -, hins, hfar, hon⟩ := C103_outlines o m om hom fs hfs hclosed hmeld ht segs h n layer hn htip hone
  obtain ⟨p, hp, he⟩ := insidePaths_exists ((hins q (farFromSurface_mono hq (by norm_num) (by linarith))).2 hin)
  exact inLimits_of_enclosed (fun x hx => onSide_box hbox (hon p hp x hx)) hD he (hfar D q hD hq p hp)

/-! ## The sliced layers -/

theorem keepsSides_union {lib : ClipperLib} {tol : ℚ} (hk : KeepsSides lib tol) : UnionKeeps lib tol := by
  intro s tree htree q hq
  obtain ⟨-, h2⟩ := hk.execute _ _ _ _ htree 0 q le_rfl (by simpa using hq)
  rw [← region_polyTree, mem_region_count, partCount_polyTree, h2]
  have : q ∈ clipSets .union (evenOdd enclosedBy s) (evenOdd enclosedBy []) ↔ q ∈ evenOdd enclosedBy s := by
    simp [clipSets, evenOdd, crossings]
  split <;> simp_all

theorem layer_sides {o : Options} {m : Mesh} {om : OptModel} (hom : optimize o m = .ok om) {fs : List (Tri Vec3)} (hfs : om.faces.mapM om.facePoints = .ok fs)
    (hclosed : ClosedSurface fs) (hsmall : SmallSurface fs) (hmeld : 2 ≤ o.slicing.meldDistance) (ht : 0 < o.print.layerThickness)
    (hfin : o.slicing.finishPolygonSnapDistance < 2 ^ 26 - 1) {segs : List (Option SliceLayer)} (h : sliceSegments o om = .ok segs) {k n : Nat}
    (hw : WellSliced o om fs segs k n) {lib : ClipperLib} {tol : ℚ} (hk : KeepsSides lib tol) (h0 : 0 ≤ tol) {ls : List Layer} (hls : slice lib o om = .ok ls) {l : Layer} (hl : ls[n]? = some l)
    {D : ℚ} (hD : 0 ≤ D) {q : ℚ × ℚ} (hq : FarFromSurface (D + tol + 5 * k + 2) fs (heightOf o.print.initialLayerThickness o.print.layerThickness n) q)
    (hq2 : FarFromSurface (2 * max 0 o.slicing.finishPolygonSnapDistance + 2) fs (heightOf o.print.initialLayerThickness o.print.layerThickness n) q) :
    Clear D l.parts q ∧ AtMostOne l.parts q ∧
      (q ∈ region enclosedBy l.parts ↔ InsideSolid fs (heightOf o.print.initialLayerThickness o.print.layerThickness n) q) := by
  obtain ⟨layer, hn, htip, hone, hrem⟩ := hw
  have hk0 : (0 : ℚ) ≤ 5 * k := by positivity
  have hreg := (C119_region o m om hom fs hfs hclosed hsmall hmeld ht segs h n layer hn htip hone)
  obtain ⟨paths, simple, short, hp, hsimple, -, hreg⟩ := hreg
  obtain ⟨paths', simple', short', hp', hsimple', -, -, hin⟩ := layer_outlines o m om hom fs hfs hclosed hsmall hmeld ht segs h n layer hn htip hone
  rw [hp] at hp'; cases hp'
  rw [hsimple] at hsimple'; cases hsimple'
  obtain ⟨h1, -⟩ := hin k (hrem _ _ hp hsimple) (D + tol) q (by linarith) hq
  refine ⟨?_, ?_, (hreg k (hrem _ _ hp hsimple) lib tol h0 (keepsSides_union hk) ls hls l hl q (farFromSurface_mono hq (by linarith) (by linarith))).2 hfin hq2⟩
  all_goals
    rcases sliced_layer h hn hp hsimple hls hl with ⟨-, hparts⟩ | ⟨tree, htree, hparts⟩
    · rw [hparts]; first | exact clear_nil | exact atMostOne_nil
    · rw [hparts]
      obtain ⟨k1, k2⟩ := hk.execute _ _ _ _ htree D q hD fun c hc => by
        simp only [List.append_nil] at hc
        obtain ⟨p, hpm, rfl⟩ := List.mem_map.1 hc
        rw [asPath_clipperPath]
        exact h1 p hpm
      first
        | exact fun p hp k hkm => k1 k ((polyTree_contours tree).mem_iff.1 (List.mem_flatMap.2 ⟨p, hp, hkm⟩))
        | (unfold AtMostOne; rw [partCount_polyTree, k2]; split <;> omega)

/-- The parts of layer `n` are the cross-section of the solid with the surface `fs`. The points inside are between the corners `lo` and `hi`. -/
structure SlicedAs (o : Options) (tol : ℚ) (fs : List (Tri Vec3)) (lo hi : Vec3) (k n : Nat) (parts : List LayerPart) : Prop where
  sides : ∀ {D : ℚ} {q : ℚ × ℚ}, 0 ≤ D → FarFromSurface (D + tol + 5 * k + 2) fs (layerHeight o n) q →
    FarFromSurface (2 * max 0 o.slicing.finishPolygonSnapDistance + 2) fs (layerHeight o n) q →
    Clear D parts q ∧ AtMostOne parts q ∧ (q ∈ region enclosedBy parts ↔ InsideSolid fs (layerHeight o n) q)
  limits : ∀ {D : ℚ} {q : ℚ × ℚ}, 0 ≤ D → FarFromSurface (D + 5 * k + 2) fs (layerHeight o n) q →
    FarFromSurface (2 * max 0 o.slicing.finishPolygonSnapDistance + 2) fs (layerHeight o n) q → InsideSolid fs (layerHeight o n) q → InLimits D lo.pointXY hi.pointXY q

/-- The layers of a closed surface which are sliced well are its cross-sections. -/
theorem slicedAs_closed {o : Options} {m : Mesh} {om : OptModel} (hom : optimize o m = .ok om) {fs : List (Tri Vec3)} (hfs : om.faces.mapM om.facePoints = .ok fs)
    (hclosed : ClosedSurface fs) (hsmall : SmallSurface fs) (hmeld : 2 ≤ o.slicing.meldDistance) (ht : 0 < o.print.layerThickness)
    (hfin : o.slicing.finishPolygonSnapDistance < 2 ^ 26 - 1) {segs : List (Option SliceLayer)} (h : sliceSegments o om = .ok segs) {k n : Nat}
    (hw : WellSliced o om fs segs k n) {lib : ClipperLib} {tol : ℚ} (hk : KeepsSides lib tol) (h0 : 0 ≤ tol) {ls : List Layer} (hls : slice lib o om = .ok ls) {l : Layer} (hl : ls[n]? = some l)
    {lo hi : Vec3} (hlo : om.min = .ok lo) (hhi : om.max = .ok hi) : SlicedAs o tol fs lo hi k n l.parts :=
  ⟨fun hD hq hq2 => layer_sides hom hfs hclosed hsmall hmeld ht hfin h hw hk h0 hls hl hD hq hq2,
    fun {D} _ hD hq _ hin => solid_limits o m om hom fs hfs hclosed hmeld ht segs h hw hlo hhi hD
      (farFromSurface_mono hq (by linarith) (by have : (0 : ℚ) ≤ 5 * k := by positivity
                                                linarith)) hin⟩

/-! ## The program -/

theorem deep_of_clear {r : ℚ} {parts : List LayerPart} {x : ℚ × ℚ} (hx : x ∈ region enclosedBy parts) (hc : Clear r parts x) : ∃ p ∈ parts, Deep r (partContours p) x := by
  obtain ⟨p, hp, hin⟩ := exists_of_mem_region hx
  refine ⟨p, hp, ?_, fun c hcm y hy hnear => ?_⟩
  · unfold region at hin; rwa [List.flatMap_singleton] at hin
  · have hf := hc p hp c hcm
    obtain ⟨a, b, hab, t, t0, t1, rfl⟩ := hy
    rw [pathLines_sides] at hab
    have h1 := hf _ hab t t0 t1
    have h2 := hnear.2
    simp only [lineAt] at h2
    nlinarith

/-- The other modifiers keep the areas of the infill. -/
theorem later_modifiers {lib : ClipperLib} {tan : ℚ} {o : Options} {ls layers : List Layer} (h : (standardModifiers lib tan o).foldlM (fun ls m => m ls) ls = .ok layers) :
    ∃ ls1 ls2 ls3, perimeterModifier lib o ls = .ok ls1 ∧ infillModifier lib o ls1 = .ok ls2 ∧ internalInfillModifier lib o ls2 = .ok ls3 ∧
      ∀ (j : Nat) (l3 : Layer), ls3[j]? = some l3 → ∃ l : Layer, layers[j]? = some l ∧ ∀ name ∈ ["bottom", "top", "infill"], l.attr name = l3.attr name := by
  simp only [standardModifiers, List.foldlM_cons, List.foldlM_nil, bind_ok, pure, Except.pure, Except.ok.injEq] at h
  obtain ⟨ls1, h1, ls2, h2, ls3, h3, ls4, h4, ls5, h5, ls6, h6, rfl⟩ := h
  refine ⟨ls1, ls2, ls3, h1, h2, h3, fun j l3 hl3 => ?_⟩
  obtain ⟨l4, e4, s4⟩ := sameLayers_get (C61_brim _ _ _ _ h4) hl3
  obtain ⟨l5, e5, s5⟩ := sameLayers_get (C61_detector _ _ _ _ _ h5) e4
  obtain ⟨l6, e6, s6⟩ := sameLayers_get (C61_generator _ _ _ _ h6) e5
  refine ⟨l6, e6, fun name hname => ?_⟩
  simp only [List.mem_cons, List.not_mem_nil, or_false] at hname
  rcases hname with rfl | rfl | rfl <;> rw [s6.2 _ (by simp), s5.2 _ (by simp), s4.2 _ (by simp)]

theorem hasParts_attr {l l' : Layer} {name : String} {ps : List LayerPart} (h : HasParts l name ps) (he : l'.attr name = l.attr name) : HasParts l' name ps := by
  unfold HasParts; rw [he]; exact h

theorem skin_iff {ls : List Layer} {n b t : Nat} (hn : n < ls.length) {x : ℚ × ℚ} {inside : Nat → Prop} (hx : inside n)
    (h : ∀ i l, ls[i]? = some l → n ≤ i + b → i ≤ n + t → (x ∈ region enclosedBy l.parts ↔ inside i)) : Skin b t ls.length inside n ↔ IsBottom ls n b x ∨ IsTop ls n t x := by
  unfold Skin IsBottom IsTop
  constructor
  · rintro (h1 | h1 | ⟨i, h1, h2, h3, h4⟩)
    · exact .inl ⟨n, h1, .inl rfl⟩
    · exact .inr ⟨ls.length - n - 1, by omega, .inl (by omega)⟩
    · have hr : x ∉ region enclosedBy ls[i].parts := fun hr => h4 ((h i _ (List.getElem?_eq_getElem h3) h1 h2).1 hr)
      rcases lt_trichotomy i n with hi | rfl | hi
      · refine .inl ⟨n - 1 - i, by omega, .inr ⟨ls[i], by omega, ?_, hr⟩⟩
        rw [show n - 1 - (n - 1 - i) = i by omega]
        exact List.getElem?_eq_getElem h3
      · exact absurd hx h4
      · refine .inr ⟨i - n - 1, by omega, .inr ⟨ls[i], ?_, hr⟩⟩
        rw [show n + 1 + (i - n - 1) = i by omega]
        exact List.getElem?_eq_getElem h3
  · rintro (⟨i, hi, rfl | ⟨below, h1, h2, h3⟩⟩ | ⟨i, hi, h1 | ⟨above, h2, h3⟩⟩)
    · exact .inl hi
    · refine .inr (.inr ⟨n - 1 - i, by omega, by omega, (List.getElem?_eq_some_iff.1 h2).1, fun hc => h3 ((h _ _ h2 (by omega) (by omega)).2 hc)⟩)
    · exact .inr (.inl (by omega))
    · refine .inr (.inr ⟨n + 1 + i, by omega, by omega, (List.getElem?_eq_some_iff.1 h2).1, fun hc => h3 ((h _ _ h2 (by omega) (by omega)).2 hc)⟩)

/-- How far a point has to be away from the surface. -/
def solidDepth (lib : ClipperLib) (o : Options) (tol : ℚ) (k : Nat) (parts : List LayerPart) (D : ℚ) : ℚ :=
  sideDepth lib o tol (overlapReach o o.print.infillOverlapPercent) (overlapReach o (o.print.infillOverlapPercent + o.print.additionalInternalInfillOverlapPercent)) parts D +
    tol + 5 * k + 2

/-- **C121** for any surface of which the layers are the cross-sections. Everything inside of the solid is filled. In the plane of layer `n`, take a point inside of the solid which is not near to the surface, in this plane and in those of the layers which
matter for top and bottom. If it is near to the bottom or the top, counted in layers, then it is within half the extrusion width and 9 µm of a move which extrudes at the height of the layer.
Otherwise it is within half the distance of the internal infill and 9 µm of such a move. -/
theorem C121_sliced (ext : Externals) (o : Options) (content t : Str) (h : gcodeOf ext o content = .ok t) {tol : ℚ} (h0 : 0 ≤ tol)
    (hn : NothingOutside enclosedBy ext.lib tol) (hlib : OpenClipping ext.lib) (hk : KeepsInside enclosedBy ext.lib) (hsides : KeepsSides ext.lib tol) (htrig : TurnsBack ext.trig)
    (hm : Moderate o) (ho : Extrudes o) (hdeg : |o.print.infillRotationDegree| ≤ 2 ^ 31)
    (hi : 1 ≤ o.print.insetCount) (hs : (o.print.insetCount + 1) * o.printer.extrusionWidth ≤ 2 ^ 53)
    (hov : |100 - o.print.infillOverlapPercent| ≤ 2 ^ 20) (hov2 : |100 - (o.print.infillOverlapPercent + o.print.additionalInternalInfillOverlapPercent)| ≤ 2 ^ 20) :
    ∃ om sliced lo hi', optimize o ((ext.stl content).map stlTriangleToFace) = .ok om ∧ slice ext.lib o om = .ok sliced ∧ om.min = .ok lo ∧ om.max = .ok hi' ∧
      ∀ gs, om.faces.mapM om.facePoints = .ok gs → SmallSurface gs → sliced ≠ [] →
      ∃ body m moves, t = startText o ++ body ++ endText o ∧ run body = some (m, moves) ∧
        ∀ fs n sl k, sliced[n]? = some sl → OnBed ext.lib o tol sl → (∀ (i : Nat) (l : Layer), i ≤ n → sliced[i]? = some l → l.parts ≠ []) →
          (∀ i l, n ≤ i + o.print.numberBottomLayers.toNat → i ≤ n + o.print.numberTopLayers.toNat → sliced[i]? = some l → SlicedAs o tol fs lo hi' k i l.parts) →
          ∀ x, InsideSolid fs (layerHeight o n) x →
          (∀ i, n ≤ i + o.print.numberBottomLayers.toNat → i ≤ n + o.print.numberTopLayers.toNat → i < sliced.length →
            FarFromSurface (2 * max 0 o.slicing.finishPolygonSnapDistance + 2) fs (layerHeight o i) x) →
          (Skin o.print.numberBottomLayers.toNat o.print.numberTopLayers.toNat sliced.length (fun i => InsideSolid fs (layerHeight o i) x) n →
            (∀ i, n ≤ i + o.print.numberBottomLayers.toNat → i ≤ n + o.print.numberTopLayers.toNat → i < sliced.length →
              FarFromSurface (solidDepth ext.lib o tol k sl.parts (o.printer.extrusionWidth / 2 + 5)) fs (layerHeight o i) x) →
            PrintedNear moves (layerHeight o n) (o.printer.extrusionWidth / 2 + 9) x) ∧
          (o.print.infillPercent ≠ 0 → ∃ d, infillDistance o.printer.extrusionWidth o.print.infillPercent = .ok d ∧ (0 < d → d ≤ 2 ^ 34 →
            ¬ Skin o.print.numberBottomLayers.toNat o.print.numberTopLayers.toNat sliced.length (fun i => InsideSolid fs (layerHeight o i) x) n →
            (∀ i, n ≤ i + o.print.numberBottomLayers.toNat → i ≤ n + o.print.numberTopLayers.toNat → i < sliced.length →
              FarFromSurface (solidDepth ext.lib o tol k sl.parts (d / 2 + (if o.print.infillZigZag then (o.printer.extrusionWidth : ℚ) / 2 else 0) + 5)) fs (layerHeight o i) x) →
            PrintedNear moves (layerHeight o n) (d / 2 + 9) x)) := by
  obtain ⟨om, sliced, layers, lo, hi', e1, e2, e3, e4, e5, e6⟩ := C118_program ext o content t h h0 hn hlib hk htrig hm ho hdeg
  refine ⟨om, sliced, lo, hi', e1, e2, e4, e5, fun gs hfs hsmall hne => ?_⟩
  obtain ⟨ls1, ls2, ls3, m1, m2, m3, hlast⟩ := later_modifiers e3
  have hparts := C61_parts ext.lib ext.tan o _ (fun m hm => hm) sliced layers e3
  obtain ⟨body, m, moves, b1, b2, b3⟩ := e6 (by
    rintro rfl
    exact hne (by simpa using hparts.symm))
  refine ⟨body, m, moves, b1, b2, fun fs n sl k hsl hbed hsome hwell x hx hx2 => ?_⟩
  have hbox : IsBox (vertices gs) lo hi' := by
    simp only [OptModel.min, OptModel.max, hfs, bind, Except.bind] at e4 e5
    exact mesh_box e4 e5
  obtain ⟨hlo, hhi⟩ := box_small hsmall hbox
  have hw0 : (0 : ℚ) ≤ o.printer.extrusionWidth := by exact_mod_cast hm.width.1
  have hlen : n < sliced.length := (List.getElem?_eq_some_iff.1 hsl).1
  have g1 := overlaps_reach hm.width.1 hm.width.2 hov
  have g2 := overlaps_reach hm.width.1 hm.width.2 hov2
  have hno : ∀ l ∈ sliced, l.attr "bottom" = none ∧ l.attr "top" = none ∧ l.attr "infill" = none := fun l hl => by
    have := sliced_plain e2 l hl
    simp [Layer.attr, this]
  have hdepth : ∀ D, 0 ≤ D → D ≤ sideDepth ext.lib o tol (overlapReach o o.print.infillOverlapPercent)
      (overlapReach o (o.print.infillOverlapPercent + o.print.additionalInternalInfillOverlapPercent)) sl.parts D := by
    intro D hD
    unfold sideDepth
    have a1 : 0 ≤ overlapReach o o.print.infillOverlapPercent := (abs_nonneg _).trans g1
    have a2 := (abs_nonneg _).trans g2
    have a3 : (0 : ℚ) ≤ o.print.insetCount * o.printer.extrusionWidth := mul_nonneg (by exact_mod_cast (show (0 : Int) ≤ o.print.insetCount by omega)) hw0
    have a4 : (0 : ℚ) ≤ (max o.print.numberBottomLayers.toNat o.print.numberTopLayers.toNat + innerCount (perimetersOf ext.lib o sl.parts) + 10 : Nat) * tol := by positivity
    linarith
  -- the areas of the infill at this point
  have key : ∀ D, 0 ≤ D → (∀ i, n ≤ i + o.print.numberBottomLayers.toNat → i ≤ n + o.print.numberTopLayers.toNat → i < sliced.length →
      FarFromSurface (solidDepth ext.lib o tol k sl.parts D) fs (layerHeight o i) x) →
      InLimits D lo.pointXY hi'.pointXY x ∧ ∃ l bottom top, layers[n]? = some l ∧ HasParts l "bottom" bottom ∧ HasParts l "top" top ∧ Clear D bottom x ∧ Clear D top x ∧
        (Skin o.print.numberBottomLayers.toNat o.print.numberTopLayers.toNat sliced.length (fun i => InsideSolid fs (layerHeight o i) x) n →
          x ∈ region enclosedBy bottom ∨ x ∈ region enclosedBy top) ∧
        (o.print.infillPercent ≠ 0 → ∃ internal, HasParts l "infill" internal ∧ Clear D internal x ∧
          (¬ Skin o.print.numberBottomLayers.toNat o.print.numberTopLayers.toNat sliced.length (fun i => InsideSolid fs (layerHeight o i) x) n → x ∈ region enclosedBy internal)) := by
    intro D hD hfar
    have hle := hdepth D hD
    set S := sideDepth ext.lib o tol (overlapReach o o.print.infillOverlapPercent)
      (overlapReach o (o.print.infillOverlapPercent + o.print.additionalInternalInfillOverlapPercent)) sl.parts D with hS
    have hlayer : ∀ i l, sliced[i]? = some l → n ≤ i + o.print.numberBottomLayers.toNat → i ≤ n + o.print.numberTopLayers.toNat →
        Clear S l.parts x ∧ AtMostOne l.parts x ∧ (x ∈ region enclosedBy l.parts ↔ InsideSolid fs (layerHeight o i) x) := by
      intro i l hl h1 h2
      have hil := (List.getElem?_eq_some_iff.1 hl).1
      exact (hwell i l h1 h2 hl).sides (hD.trans hle) (hfar i h1 h2 hil) (hx2 i h1 h2 hil)
    have hk0 : (0 : ℚ) ≤ 5 * k := by positivity
    refine ⟨?_, ?_⟩
    · have hself := hfar n (by omega) (by omega) hlen
      exact (hwell n sl (by omega) (by omega) hsl).limits hD
        (farFromSurface_mono hself (by linarith) (by unfold solidDepth; rw [← hS]; linarith)) (hx2 n (by omega) (by omega) hlen) hx
    · obtain ⟨c1, c2, c3⟩ := hlayer n sl hsl (by omega) (by omega)
      obtain ⟨l3, bottom, top, a1, a2, a3, a4, a5, a6, a7, a8⟩ := C121_areas hsides h0 hi hm.width.1 hs g1 g2 m1 m2 m3 hno (sliced_areas e2) hsl hsome hD
        (fun i l hl h1 h2 => (hlayer i l hl h1 h2).1) c2
      obtain ⟨l, f1, f2⟩ := hlast n l3 a1
      have hsk := skin_iff (b := o.print.numberBottomLayers.toNat) (t := o.print.numberTopLayers.toNat) hlen (inside := fun i => InsideSolid fs (layerHeight o i) x) hx
        fun i l hl h1 h2 => (hlayer i l hl h1 h2).2.2
      refine ⟨l, bottom, top, f1, hasParts_attr a2 (f2 _ (by simp)), hasParts_attr a3 (f2 _ (by simp)), a4, a5, fun hskin => ?_, fun hp => ?_⟩
      · by_cases hb : IsBottom sliced n o.print.numberBottomLayers.toNat x
        · exact .inl (a6.2 ⟨c3.2 hx, hb⟩)
        · exact .inr (a7.2 ⟨c3.2 hx, hb, (hsk.1 hskin).resolve_left hb⟩)
      · obtain ⟨internal, i1, i2, i3⟩ := a8 hp
        refine ⟨internal, hasParts_attr i1 (f2 _ (by simp)), i2, fun hskin => i3.2 ⟨c3.2 hx, fun hb => hskin (hsk.2 (.inl hb)), fun hb => hskin (hsk.2 (.inr hb))⟩⟩
  obtain ⟨l', hl'⟩ : ∃ l', layers[n]? = some l' := by
    have hle : layers.length = sliced.length := by simpa using congrArg List.length hparts
    exact ⟨_, List.getElem?_eq_getElem (by rw [hle]; exact hlen)⟩
  obtain ⟨sl', q1, q2⟩ := b3 hlo hhi n l' hl'
  rw [hsl] at q1
  cases q1
  obtain ⟨⟨bottom, top, hbot, htop, hcov⟩, hint⟩ := q2 hbed
  refine ⟨fun hskin hfar => ?_, fun hp => ?_⟩
  · obtain ⟨hlim, l, bottom', top', r1, r2, r3, r4, r5, r6, -⟩ := key _ (by linarith) hfar
    rw [hl'] at r1
    cases r1
    rw [partsAttribute_of r2] at hbot
    rw [partsAttribute_of r3] at htop
    cases hbot
    cases htop
    obtain ⟨p, hpm, hdeep⟩ : ∃ p ∈ bottom ++ top, Deep (o.printer.extrusionWidth / 2 + 5) (partContours p) x := by
      rcases r6 hskin with hr | hr
      · obtain ⟨p, hpm, hd⟩ := deep_of_clear hr r4; exact ⟨p, List.mem_append_left _ hpm, hd⟩
      · obtain ⟨p, hpm, hd⟩ := deep_of_clear hr r5; exact ⟨p, List.mem_append_right _ hpm, hd⟩
    exact hcov p hpm x hdeep hlim
  · obtain ⟨d, internal, j1, j2, j3⟩ := hint hp
    refine ⟨d, j1, fun hd hd' hskin hfar => ?_⟩
    have hdq : (0 : ℚ) < d := by exact_mod_cast hd
    have hzz : (0 : ℚ) ≤ if o.print.infillZigZag then (o.printer.extrusionWidth : ℚ) / 2 else 0 := by
      split
      · linarith
      · exact le_rfl
    have hpos : (0 : ℚ) ≤ d / 2 + (if o.print.infillZigZag then (o.printer.extrusionWidth : ℚ) / 2 else 0) + 5 := by linarith
    obtain ⟨hlim, l, -, -, r1, -, -, -, -, -, r7⟩ := key _ hpos hfar
    rw [hl'] at r1
    cases r1
    obtain ⟨internal', s1, s2, s3⟩ := r7 hp
    rw [partsAttribute_of s1] at j2
    cases j2
    obtain ⟨p, hpm, hdeep⟩ := deep_of_clear (s3 hskin) s2
    exact j3 hd hd' p hpm x hdeep hlim

/-- **C121** Everything inside of the solid is filled. In the plane of layer `n`, take a point inside of the solid which is not near to the surface, in this plane and in those of the layers which
matter for top and bottom. If it is near to the bottom or the top, counted in layers, then it is within half the extrusion width and 9 µm of a move which extrudes at the height of the layer.
Otherwise it is within half the distance of the internal infill and 9 µm of such a move. -/
theorem C121_program (ext : Externals) (o : Options) (content t : Str) (h : gcodeOf ext o content = .ok t) {tol : ℚ} (h0 : 0 ≤ tol)
    (hn : NothingOutside enclosedBy ext.lib tol) (hlib : OpenClipping ext.lib) (hk : KeepsInside enclosedBy ext.lib) (hsides : KeepsSides ext.lib tol) (htrig : TurnsBack ext.trig)
    (hm : Moderate o) (ho : Extrudes o) (hdeg : |o.print.infillRotationDegree| ≤ 2 ^ 31) (hmeld : 2 ≤ o.slicing.meldDistance) (ht : 0 < o.print.layerThickness)
    (hfin : o.slicing.finishPolygonSnapDistance < 2 ^ 26 - 1) (hi : 1 ≤ o.print.insetCount) (hs : (o.print.insetCount + 1) * o.printer.extrusionWidth ≤ 2 ^ 53)
    (hov : |100 - o.print.infillOverlapPercent| ≤ 2 ^ 20) (hov2 : |100 - (o.print.infillOverlapPercent + o.print.additionalInternalInfillOverlapPercent)| ≤ 2 ^ 20) :
    ∃ om segs sliced, optimize o ((ext.stl content).map stlTriangleToFace) = .ok om ∧ sliceSegments o om = .ok segs ∧ slice ext.lib o om = .ok sliced ∧
      ∀ fs, om.faces.mapM om.facePoints = .ok fs → ClosedSurface fs → SmallSurface fs → sliced ≠ [] →
      ∃ body m moves, t = startText o ++ body ++ endText o ∧ run body = some (m, moves) ∧
        ∀ n sl k, sliced[n]? = some sl → OnBed ext.lib o tol sl → (∀ (i : Nat) (l : Layer), i ≤ n → sliced[i]? = some l → l.parts ≠ []) →
          (∀ i, n ≤ i + o.print.numberBottomLayers.toNat → i ≤ n + o.print.numberTopLayers.toNat → i < sliced.length → WellSliced o om fs segs k i) →
          ∀ x, InsideSolid fs (layerHeight o n) x →
          (∀ i, n ≤ i + o.print.numberBottomLayers.toNat → i ≤ n + o.print.numberTopLayers.toNat → i < sliced.length →
            FarFromSurface (2 * max 0 o.slicing.finishPolygonSnapDistance + 2) fs (layerHeight o i) x) →
          (Skin o.print.numberBottomLayers.toNat o.print.numberTopLayers.toNat sliced.length (fun i => InsideSolid fs (layerHeight o i) x) n →
            (∀ i, n ≤ i + o.print.numberBottomLayers.toNat → i ≤ n + o.print.numberTopLayers.toNat → i < sliced.length →
              FarFromSurface (solidDepth ext.lib o tol k sl.parts (o.printer.extrusionWidth / 2 + 5)) fs (layerHeight o i) x) →
            PrintedNear moves (layerHeight o n) (o.printer.extrusionWidth / 2 + 9) x) ∧
          (o.print.infillPercent ≠ 0 → ∃ d, infillDistance o.printer.extrusionWidth o.print.infillPercent = .ok d ∧ (0 < d → d ≤ 2 ^ 34 →
            ¬ Skin o.print.numberBottomLayers.toNat o.print.numberTopLayers.toNat sliced.length (fun i => InsideSolid fs (layerHeight o i) x) n →
            (∀ i, n ≤ i + o.print.numberBottomLayers.toNat → i ≤ n + o.print.numberTopLayers.toNat → i < sliced.length →
              FarFromSurface (solidDepth ext.lib o tol k sl.parts (d / 2 + (if o.print.infillZigZag then (o.printer.extrusionWidth : ℚ) / 2 else 0) + 5)) fs (layerHeight o i) x) →
            PrintedNear moves (layerHeight o n) (d / 2 + 9) x)) := by
  obtain ⟨om, sliced, lo, hi', e1, e2, e3, e4, e5⟩ := C121_sliced ext o content t h h0 hn hlib hk hsides htrig hm ho hdeg hi hs hov hov2
  obtain ⟨segs, hsegs, -⟩ := bind_ok.1 e2
  refine ⟨om, segs, sliced, e1, hsegs, e2, fun fs hfs hclosed hsmall hne => ?_⟩
  obtain ⟨body, m, moves, b1, b2, b3⟩ := e5 fs hfs hsmall hne
  exact ⟨body, m, moves, b1, b2, fun n sl k hsl hbed hsome hwell => b3 fs n sl k hsl hbed hsome fun i l h1 h2 hl =>
    slicedAs_closed e1 hfs hclosed hsmall hmeld ht hfin hsegs (hwell i h1 h2 (List.getElem?_eq_some_iff.1 hl).1) hsides h0 e2 hl e3 e4⟩

end Verif
