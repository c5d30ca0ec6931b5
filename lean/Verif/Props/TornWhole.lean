import Verif.Props.Torn
import Verif.Props.PatchesWhole

/-! # C149: the print of a file in which one of the bodies has lost walls -/
namespace Verif
open Verif.Go Verif.Model Verif.Spec Verif.Spec.GCode

theorem closed_nodup {fs : List (Tri Vec3)} (h : ClosedSurface fs) (hp : ∀ f ∈ fs, Proper f) : fs.Nodup := by
  rw [List.nodup_iff_getElem?_ne_getElem?]
  intro i j hij hj he
  obtain ⟨f, hf⟩ : ∃ f, fs[j]? = some f := ⟨_, List.getElem?_eq_getElem hj⟩
  obtain ⟨k, g, hk, hg, hgs, honly⟩ := h i f (f.a, f.b) (by rw [he, hf]) (.inl rfl)
  have hpf := hp f (List.mem_of_getElem? hf)
  have hfs : HasSide f (f.a, f.b) := isSide_hasSide (.inl rfl)
  rcases honly j f hf hfs with e | rfl
  · omega
  · rw [hf] at hg
    cases hg
    unfold IsSide at hgs
    simp only [Prod.swap, Prod.mk.injEq] at hgs
    rcases hgs with ⟨a, b⟩ | ⟨a, b⟩ | ⟨a, b⟩
    · exact hpf.1 b
    · exact hpf.2.1 b
    · exact hpf.2.2 a

/-- The faces of a closed surface are not lost if the gaps are elsewhere. -/
theorem body_whole {W : ℚ} {z : Int} {gaps : List Gap} {fs body : List (Tri Vec3)} (hopen : OpenSurface fs) (hproper : ∀ f ∈ fs, Proper f) (hclosed : ClosedSurface body)
    (hsub : ∀ f ∈ body, f ∈ fs) (hgaps : ∀ g ∈ gaps, ∀ f ∈ body, g.1 ∉ faceSides f) {f : Tri Vec3} (h : Torn W z gaps fs f) : f ∉ body := by
  induction h with
  | wide hg _ hs => exact fun hb => hgaps _ hg _ hb hs
  | @next f f' s hs _ hf' hs' _ ih =>
    intro hb
    obtain ⟨i, hi⟩ := List.getElem?_of_mem hb
    obtain ⟨j, g, -, hg, hgs, -⟩ := hclosed i f s hi (isSide_iff.1 hs)
    have hgb := List.mem_of_getElem? hg
    obtain ⟨a, ha⟩ := List.getElem?_of_mem (hsub g hgb)
    obtain ⟨b, hb'⟩ := List.getElem?_of_mem hf'
    rw [open_owner hopen hproper ha hb' hgs (isSide_iff.1 hs'), ha] at hb'
    cases hb'
    exact ih hgb
  | over hg hs _ _ _ _ => exact fun hb => hgaps _ hg _ hb hs

/-- The layers of a file in which everything but a closed surface has wide gaps are the cross-sections of the closed surface. -/
theorem slicedAs_torn {o : Options} {m : Mesh} {om : OptModel} (hom : optimize o m = .ok om) {fs body : List (Tri Vec3)} (hfs : om.faces.mapM om.facePoints = .ok fs)
    (hnd : fs.Nodup) (hclosed : ClosedSurface body) (hsub : ∀ f ∈ body, f ∈ fs)
    (hsmall : SmallSurface fs) (hmeld : 2 ≤ o.slicing.meldDistance) (hjoin : 2 ≤ o.slicing.joinPolygonSnapDistance) (hjs : o.slicing.joinPolygonSnapDistance < 2 ^ 26)
    (ht : 0 < o.print.layerThickness) (hfin : o.slicing.finishPolygonSnapDistance < 2 ^ 26 - 1) {segs : List (Option SliceLayer)} (h : sliceSegments o om = .ok segs) {k n : Nat}
    {layer : SliceLayer} (hn : segs[n]? = some (some layer)) (hg : GoodRest o body fs k n) {lib : ClipperLib} {tol : ℚ} (hk : KeepsSides lib tol) (h0 : 0 ≤ tol)
    {ls : List Layer} (hls : slice lib o om = .ok ls) {l : Layer} (hl : ls[n]? = some l)
    {lo hi : Vec3} (hlo : om.min = .ok lo) (hhi : om.max = .ok hi) : SlicedAs o tol body lo hi k n l.parts := by
  obtain ⟨gaps, hm, htorn, hgaps, hcut⟩ := hg
  obtain ⟨hproper, -⟩ := C47_faces o m om hom fs hfs
  obtain ⟨paths, short, hp, hs, hin, hfar, hon, hlen⟩ := torn_outlines o m om hom fs gaps hfs hmeld hjoin hjs ht segs h n layer hn hm
  have hbody : ∀ f ∈ body, ¬ Torn (o.slicing.joinPolygonSnapDistance + 4) (layerHeight o n) gaps fs f := fun f hf hT => body_whole hm.surface hproper hclosed hsub hgaps hT hf
  have htip := hm.tip
  have hends := hm.ends
  generalize hW : (o.slicing.joinPolygonSnapDistance : ℚ) + 4 = W at *
  generalize hz : layerHeight o n = z at *
  have hgap0 : wholeGaps W z gaps fs = [] := by
    classical
    unfold wholeGaps
    rw [List.filter_eq_nil_iff]
    intro g hg hd
    have hd := (decide_eq_true_iff (p := ∀ f ∈ fs, g.1 ∈ faceSides f → ¬ Torn W z gaps fs f)).1 hd
    obtain ⟨hu, -, -, -, ⟨f, hf, hs⟩, -⟩ := hends g hg
    exact hd f hf hs (htorn f hf (crosses_of_up (isSide_iff.1 hs) hu (htip f hf)) fun hb => hgaps g hg f hb hs)
  have hmem : ∀ f, f ∈ wholeFaces W z gaps fs ↔ f ∈ fs ∧ ¬ Torn W z gaps fs f := by
    classical
    intro f
    unfold wholeFaces
    rw [List.mem_filter, decide_eq_true_iff]
  have hwhole : ∀ f ∈ wholeFaces W z gaps fs, Crosses z f → f ∈ body := by
    intro f hf hc
    obtain ⟨h1, h2⟩ := (hmem f).1 hf
    by_contra hb
    exact h2 (htorn f h1 hc hb)
  have hcross : ∀ f ∈ fs, ∀ s ∈ faceSides f, Down z s → Crosses z f := fun f hf s hs hd => crosses_of_down (isSide_iff.1 hs) hd (htip f hf)
  have hT : ∀ D q, FarFromSurface D body z q → FarFromSurface D (wholeFaces W z gaps fs) z q := by
    intro D q hq f hf s hs s' hs' hd hu
    exact hq f (hwhole f hf (hcross f ((hmem f).1 hf).1 s hs hd)) s hs s' hs' hd hu
  have hperm : ∀ q, ((wholeFaces W z gaps fs).filter fun f => decide (RayHits z q f)).Perm (body.filter fun f => decide (RayHits z q f)) := by
    intro q
    rw [List.perm_ext_iff_of_nodup]
    · intro f
      rw [List.mem_filter, List.mem_filter, decide_eq_true_iff]
      constructor
      · rintro ⟨hf, hr⟩
        obtain ⟨d, hd, u, hu, hdd, -, -⟩ := id hr
        exact ⟨hwhole f hf (hcross f ((hmem f).1 hf).1 d hd hdd), hr⟩
      · rintro ⟨hf, hr⟩
        exact ⟨(hmem f).2 ⟨hsub f hf, hbody f hf⟩, hr⟩
    · unfold wholeFaces
      exact (hnd.filter _).filter _
    · exact (closed_nodup hclosed fun f hf => hproper f (hsub f hf)).filter _
  have hinside : ∀ q, InsideClosed (wholeGaps W z gaps fs) (wholeFaces W z gaps fs) z q ↔ InsideSolid body z q := by
    intro q
    unfold InsideClosed InsideSolid
    rw [hgap0, List.countP_nil, add_zero, List.countP_eq_length_filter, List.countP_eq_length_filter, (hperm q).length_eq]
  have hno : ∀ D q, FarFromGaps D (wholeGaps W z gaps fs) z q := by
    intro D q g hg
    rw [hgap0] at hg
    cases hg
  have hD' : (0 : ℚ) ≤ ((max 0 o.slicing.finishPolygonSnapDistance : Int) : ℚ) := by exact_mod_cast le_max_left _ _
  subst hz
  exact slicedAs_of_outlines (ks := wholeFaces W (layerHeight o n) gaps fs) (c := 0) hfs hsmall (fun f hf => ((hmem f).1 hf).1) hfin h hn hk h0 hls hl hlo hhi hp hs (N := 2 * cutFaces (layerHeight o n) fs)
    (by omega) hT
    (fun q hq => (hin q (farFromSurface_mono (hT _ q hq) (by norm_num) (by linarith)) (hno 2 q)).trans (hinside q))
    (fun D q hD hq => hfar D q hD (farFromSurface_mono (hT _ q hq) (by linarith) (by norm_num)) (hno _ q)) hon hlen

theorem sheet_nodup {d : Int} {m : Mesh} (h : IsSheet d m) (c lo hi : Vec3) : (placedBody c lo hi m).Nodup := by
  have h1 : m.Nodup := h.different.imp fun {a b} hab e => hab (by subst e; exact ⟨fun _ h => h, fun _ h => h⟩)
  refine h1.map ?_
  rintro ⟨a, b, c'⟩ ⟨a', b', c''⟩ e
  simp only [Tri.map, Tri.mk.injEq] at e
  obtain ⟨e1, e2, e3⟩ := e
  rw [placed_injective _ _ _ e1, placed_injective _ _ _ e2, placed_injective _ _ _ e3]

/-- **C149** The print of a file with a closed body (or several of them) and a rest which has large holes. In the layers in which every outline of the rest has a wide gap, the rest is lost, and the G-code prints the closed body as
if nothing else were in the file: walls around it, its solid bottom and top, its infill, and nothing far outside. -/
theorem C149_program (ext : Externals) (o : Options) (content : Str) {tol : ℚ} (h0 : 0 ≤ tol) (hlib : GoodLibrary ext.lib tol) (htrig : TurnsBack ext.trig) (ho : UsualOptions o)
    (hjoin : 2 ≤ o.slicing.joinPolygonSnapDistance) (hjs : o.slicing.joinPolygonSnapDistance < 2 ^ 26)
    (m : Mesh) (hm : m = (ext.stl content).map stlTriangleToFace) (hsheet : IsSheet o.slicing.meldDistance m) (body : Mesh) (hclosed : ClosedSurface body) (hsub : ∀ f ∈ body, f ∈ m)
    {lo hi : Vec3} (hbox : IsBox (vertices m) lo hi)
    (hsmall : SmallBody o.printer.center lo hi) (harea : ((modelArea o.printer.center lo hi).grow (supportMargin o)).Small) (hheight : o.print.initialLayerThickness ≤ hi.z - lo.z) :
    ∃ t om sliced top, gcodeOf ext o content = .ok t ∧ optimize o m = .ok om ∧ slice ext.lib o om = .ok sliced ∧ sliced.length = top + 1 ∧
      layerHeight o top ≤ hi.z - lo.z ∧ hi.z - lo.z < layerHeight o (top + 1) ∧
      ∃ text mc moves, t = startText o ++ text ++ endText o ∧ run text = some (mc, moves) ∧
        EndIn ((modelArea o.printer.center lo hi).grow (printMargin o)) moves ∧
        ∀ w, (∀ l ∈ sliced, wallCount ext.lib o l.parts ≤ w) → (5 + w) * tol ≤ 9 * 10 ^ 4 →
          PrintsWhere (GoodRest o (placedBody o.printer.center lo hi body) (placedBody o.printer.center lo hi m)) o (placedBody o.printer.center lo hi body) tol w top moves := by
  obtain ⟨t, om, sliced, top, ht, hom, hsl, hlen, ht1, ht2, text, mc, moves, hb1, hb2, hin, hprint⟩ :=
    program_prints ext o content h0 hlib htrig ho m hm hsheet hbox hsmall harea hheight
  refine ⟨t, om, sliced, top, ht, hom, hsl, hlen, ht1, ht2, text, mc, moves, hb1, hb2, hin, fun w hw htol => ?_⟩
  obtain ⟨lo', hi', hlo, hhi, hprint⟩ := hprint w hw htol
  obtain ⟨segs, hseg, -⟩ := bind_ok.1 hsl
  refine hprint _ _ fun k n l hn hg hl => ?_
  obtain ⟨layer, hlay⟩ := segments_exist hseg hsl (show n < sliced.length by omega)
  exact slicedAs_torn hom (body_faces hsheet hbox hom) (sheet_nodup hsheet _ _ _) (closedSurface_map (placed_injective o.printer.center lo hi) hclosed)
    (fun f hf => by
      obtain ⟨t, ht, rfl⟩ := List.mem_map.1 hf
      exact List.mem_map_of_mem (hsub t ht))
    (smallSurface_placed hbox hsmall) ho.meld hjoin hjs ho.sensible.thickness ho.finish hseg hlay hg hlib.sides h0 hsl hl hlo hhi

/-- **C149** The support of the closed body is printed as if the rest, which has large holes, were not in the file. -/
theorem C149_support (ext : Externals) (o : Options) (content : Str) {tol : ℚ} (h0 : 0 ≤ tol) (h1 : tol ≤ 10 ^ 4) (hlib : GoodLibrary ext.lib tol) (htrig : TurnsBack ext.trig) (ho : UsualOptions o)
    (hjoin : 2 ≤ o.slicing.joinPolygonSnapDistance) (hjs : o.slicing.joinPolygonSnapDistance < 2 ^ 26)
    (m : Mesh) (hm : m = (ext.stl content).map stlTriangleToFace) (hsheet : IsSheet o.slicing.meldDistance m) (body : Mesh) (hclosed : ClosedSurface body) (hsub : ∀ f ∈ body, f ∈ m)
    {lo hi : Vec3} (hbox : IsBox (vertices m) lo hi)
    (hsmall : SmallBody o.printer.center lo hi) (hheight : o.print.initialLayerThickness ≤ hi.z - lo.z)
    (hen : o.print.support.enabled = true) (hfit : SupportFits ext.tan o)
    (hbed : -900000 ≤ ((modelArea o.printer.center lo hi).grow (supportMargin o)).minX ∧ ((modelArea o.printer.center lo hi).grow (supportMargin o)).maxX ≤ 900000 ∧
      -900000 ≤ ((modelArea o.printer.center lo hi).grow (supportMargin o)).minY ∧ ((modelArea o.printer.center lo hi).grow (supportMargin o)).maxY ≤ 900000)
    {t : Str} (ht : gcodeOf ext o content = .ok t) {top : Nat} (ht1 : layerHeight o top ≤ hi.z - lo.z) (ht2 : hi.z - lo.z < layerHeight o (top + 1)) :
    ∃ text mc moves, t = startText o ++ text ++ endText o ∧ run text = some (mc, moves) ∧
      PrintsSupportWhere (GoodRest o (placedBody o.printer.center lo hi body) (placedBody o.printer.center lo hi m)) o (placedBody o.printer.center lo hi body) ext.tan tol top moves := by
  obtain ⟨om, sliced, lo', hi', text, mc, moves, hom, hsl, hlen, hlo, hhi, b1, b2, b3⟩ :=
    support_prints ext o content h0 h1 hlib htrig ho m hm hsheet hbox hsmall hheight hen hfit hbed ht ht1 ht2
  refine ⟨text, mc, moves, b1, b2, b3 _ _ fun k n l hn hg hl => ?_⟩
  obtain ⟨segs, hseg, -⟩ := bind_ok.1 hsl
  obtain ⟨layer, hlay⟩ := segments_exist hseg hsl (show n < sliced.length by omega)
  exact slicedAs_torn hom (body_faces hsheet hbox hom) (sheet_nodup hsheet _ _ _) (closedSurface_map (placed_injective o.printer.center lo hi) hclosed)
    (fun f hf => by
      obtain ⟨t, ht, rfl⟩ := List.mem_map.1 hf
      exact List.mem_map_of_mem (hsub t ht))
    (smallSurface_placed hbox hsmall) ho.meld hjoin hjs ho.sensible.thickness ho.finish hseg hlay hg hlib.sides h0 hsl hl hlo hhi

end Verif
