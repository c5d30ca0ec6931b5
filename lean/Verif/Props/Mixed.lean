import Verif.Props.TornWhole

/-! # C152: bodies with small holes are repaired and torn bodies vanish, both in the same file -/
namespace Verif
open Verif.Go Verif.Model Verif.Spec Verif.Spec.GCode

/-- The gaps at a part of the surface are those which the patches leave, and none of its faces is lost. -/
theorem mixed_whole {W : ℚ} {z : Int} {gaps : List Gap} {patches : List (List (Tri Vec3))} {fs part : List (Tri Vec3)} (hopen : OpenSurface fs) (hproper : ∀ f ∈ fs, Proper f)
    (hsub : ∀ f ∈ part, f ∈ fs) (hends : ∀ g ∈ gaps, Up z g.1 ∧ Down z g.2)
    (hapart : ∀ f ∈ fs, f ∉ part → ∀ s ∈ faceSides f, Down z s ∨ Up z s → ∀ g ∈ part, s.swap ∉ faceSides g) (hW : PatchesWithin W z patches)
    (hgaps : ∀ g ∈ gaps, ∀ f ∈ part, g.1 ∈ faceSides f → (∃ f' ∈ part, g.2 ∈ faceSides f') ∧ ∃ P ∈ patches, AtPatch P g.1 ∧ AtPatch P g.2)
    {f : Tri Vec3} (h : Torn W z gaps fs f) : f ∉ part := by
  induction h with
  | @wide f g hg hw hs =>
    intro hb
    obtain ⟨-, P, hP, ⟨a, ha, ha'⟩, b, hb, hb'⟩ := hgaps _ hg _ hb hs
    obtain ⟨h1, h2⟩ := hends _ hg
    have := hW P hP a ha b hb _ ha' _ hb' (.inl ⟨h1.1, h1.2⟩) (.inr ⟨h2.1, h2.2⟩)
    rw [meetPoint_swap (by unfold Up at h1; omega), meetPoint_swap (by unfold Down at h2; omega)] at this
    exact hw this
  | @next f f' s hs hu hf' hs' _ ih =>
    intro hb
    by_cases hp : f' ∈ part
    · exact ih hp
    · exact hapart f' hf' hp _ hs' (.inl ⟨hu.1, hu.2⟩) f hb (by rwa [Prod.swap_swap])
  | @over f f' g hg hs hf' hs' _ ih =>
    intro hb
    obtain ⟨⟨f'', hf'', hs''⟩, -⟩ := hgaps _ hg _ hb hs
    obtain ⟨a, ha⟩ := List.getElem?_of_mem (hsub f'' hf'')
    obtain ⟨b, hb'⟩ := List.getElem?_of_mem hf'
    rw [open_owner hopen hproper ha hb' (isSide_iff.1 hs'') (isSide_iff.1 hs'), ha] at hb'
    cases hb'
    exact ih hf''

/-- The layers of a file with small holes and torn parts are the cross-sections of the complete surface without the torn parts. -/
theorem slicedAs_mixed {o : Options} {m : Mesh} {om : OptModel} (hom : optimize o m = .ok om) {fs part : List (Tri Vec3)} {patches : List (List (Tri Vec3))} (hfs : om.faces.mapM om.facePoints = .ok fs)
    (hnd : fs.Nodup) (hsub : ∀ f ∈ part, f ∈ fs)
    (hsmall : SmallSurface fs) (hmeld : 2 ≤ o.slicing.meldDistance) (hjoin : 2 ≤ o.slicing.joinPolygonSnapDistance) (hjs : o.slicing.joinPolygonSnapDistance < 2 ^ 26)
    (ht : 0 < o.print.layerThickness) (hfin : o.slicing.finishPolygonSnapDistance < 2 ^ 26 - 1) {segs : List (Option SliceLayer)} (h : sliceSegments o om = .ok segs) {k n : Nat}
    {layer : SliceLayer} (hn : segs[n]? = some (some layer)) (hg : GoodMixed o patches part fs k n) {lib : ClipperLib} {tol : ℚ} (hk : KeepsSides lib tol) (h0 : 0 ≤ tol)
    {ls : List Layer} (hls : slice lib o om = .ok ls) {l : Layer} (hl : ls[n]? = some l)
    {lo hi : Vec3} (hlo : om.min = .ok lo) (hhi : om.max = .ok hi) : SlicedAs o tol (patches.flatten ++ part) lo hi k n l.parts := by
  obtain ⟨hpat, hapart, hW, ⟨gaps, hm, htorn, hgaps⟩, c, hc, hcut⟩ := hg
  obtain ⟨hproper, -⟩ := C47_faces o m om hom fs hfs
  have hproper' : ∀ f ∈ part, Proper f := fun f hf => hproper f (hsub f hf)
  obtain ⟨paths, short, hp, hs, hin, hfar, hon, hlen⟩ := torn_outlines o m om hom fs gaps hfs hmeld hjoin hjs ht segs h n layer hn hm
  have hj' : (0 : ℚ) ≤ o.slicing.joinPolygonSnapDistance := by exact_mod_cast (show (0 : Int) ≤ _ by omega)
  have hWW : PatchesWithin (o.slicing.joinPolygonSnapDistance + 4) (layerHeight o n) patches := patchesWithin_mono hW (by
    have : ((min o.slicing.joinPolygonSnapDistance o.slicing.finishPolygonSnapDistance : Int) : ℚ) ≤ o.slicing.joinPolygonSnapDistance := by exact_mod_cast min_le_left _ _
    linarith)
  have hWF : PatchesWithin ((max 0 o.slicing.finishPolygonSnapDistance : Int) : ℚ) (layerHeight o n) patches := patchesWithin_mono hW (by
    have h1 : ((min o.slicing.joinPolygonSnapDistance o.slicing.finishPolygonSnapDistance : Int) : ℚ) ≤ o.slicing.finishPolygonSnapDistance := by exact_mod_cast min_le_right _ _
    have h2 : (o.slicing.finishPolygonSnapDistance : ℚ) ≤ ((max 0 o.slicing.finishPolygonSnapDistance : Int) : ℚ) := by exact_mod_cast le_max_right _ _
    linarith)
  have hbody : ∀ f ∈ part, ¬ Torn (o.slicing.joinPolygonSnapDistance + 4) (layerHeight o n) gaps fs f := fun f hf hT =>
    mixed_whole hm.surface hproper hsub (fun g hg => ⟨(hm.ends g hg).1, (hm.ends g hg).2.1⟩) hapart hWW hgaps hT hf
  have hfacts := patch_facts hpat hproper'
  have honce := (patches_holes hpat hproper').once
  have htip := hm.tip
  have hends := hm.ends
  have hall := hm.all
  have honce' := hm.once
  clear hW hWW
  generalize hW : (o.slicing.joinPolygonSnapDistance : ℚ) + 4 = W at *
  generalize hz : layerHeight o n = z at *
  have hmemg : ∀ g, g ∈ wholeGaps W z gaps fs ↔ g ∈ gaps ∧ ∀ f ∈ fs, g.1 ∈ faceSides f → ¬ Torn W z gaps fs f := by
    classical
    intro g
    unfold wholeGaps
    rw [List.mem_filter, decide_eq_true_iff]
  -- the gaps at the part are those of the patches
  have hat : ∀ g ∈ gaps, ∀ f ∈ part, g.1 ∈ faceSides f → g ∈ patchGaps z patches := by
    intro g hg f hf hs
    obtain ⟨h1, P, hP, h2, h3⟩ := hgaps g hg f hf hs
    obtain ⟨hu, hd, -⟩ := hends g hg
    exact (mem_patchGaps hpat hfacts).2 ⟨P, hP, hu, h2, ⟨f, hf, hs⟩, hd, h3, h1⟩
  have hgapeq : (wholeGaps W z gaps fs).Perm (patchGaps z patches) := by
    rw [List.perm_ext_iff_of_nodup]
    · intro g
      rw [hmemg]
      constructor
      · rintro ⟨hg, hno⟩
        obtain ⟨hu, -, -, -, ⟨f, hf, hs⟩, -⟩ := hends g hg
        by_cases hb : f ∈ part
        · exact hat g hg f hb hs
        · exact absurd (htorn f hf (crosses_of_up (isSide_iff.1 hs) hu (htip f hf)) hb) (hno f hf hs)
      · intro hg
        obtain ⟨P, hP, hu, ⟨a, ha, has⟩, ⟨f, hf, hs⟩, -⟩ := (mem_patchGaps (s := g.1) (s' := g.2) hpat hfacts).1 hg
        have hloose : Loose fs g.1 := by
          intro f' hf' hs'
          by_cases hb : f' ∈ part
          · exact hfacts.other P hP a ha _ has f' hb hs'
          · exact hapart f' hf' hb _ hs' (.inl ⟨hu.1, hu.2⟩) f hf (by rwa [Prod.swap_swap])
        obtain ⟨g', hg', e⟩ := List.mem_map.1 (hall f (hsub f hf) _ hs hu hloose)
        have hg'' := hat g' hg' f hf (by rw [e]; exact hs)
        have : g' = g := List.inj_on_of_nodup_map honce.1 hg'' hg e
        subst this
        refine ⟨hg', fun f' hf' hs' => hbody f' ?_⟩
        obtain ⟨i, hi⟩ := List.getElem?_of_mem (hsub f hf)
        obtain ⟨j, hj⟩ := List.getElem?_of_mem hf'
        rw [open_owner hm.surface hproper hi hj (isSide_iff.1 hs) (isSide_iff.1 hs'), hi] at hj
        cases hj
        exact hf
    · unfold wholeGaps
      exact (honce'.1.of_map _).filter _
    · exact honce.1.of_map _
  have hmem : ∀ f, f ∈ wholeFaces W z gaps fs ↔ f ∈ fs ∧ ¬ Torn W z gaps fs f := by
    classical
    intro f
    unfold wholeFaces
    rw [List.mem_filter, decide_eq_true_iff]
  have hwhole : ∀ f ∈ wholeFaces W z gaps fs, Crosses z f → f ∈ part := by
    intro f hf hc
    obtain ⟨h1, h2⟩ := (hmem f).1 hf
    by_contra hb
    exact h2 (htorn f h1 hc hb)
  have hcross : ∀ f ∈ fs, ∀ s ∈ faceSides f, Down z s → Crosses z f := fun f hf s hs hd => crosses_of_down (isSide_iff.1 hs) hd (htip f hf)
  have hT' : ∀ D q, FarFromSurface D part z q → FarFromSurface D (wholeFaces W z gaps fs) z q := by
    intro D q hq f hf s hs s' hs' hd hu
    exact hq f (hwhole f hf (hcross f ((hmem f).1 hf).1 s hs hd)) s hs s' hs' hd hu
  have hpnd : part.Nodup := by
    have := closed_nodup hpat.closed fun f hf => (List.mem_append.1 hf).elim (hpat.proper f) (hproper' f)
    exact (List.nodup_append.1 this).2.1
  have hperm : ∀ q, ((wholeFaces W z gaps fs).filter fun f => decide (RayHits z q f)).Perm (part.filter fun f => decide (RayHits z q f)) := by
    intro q
    rw [List.perm_ext_iff_of_nodup]
    · intro f
      rw [List.mem_filter, List.mem_filter, decide_eq_true_iff]
      constructor
      · rintro ⟨hf, hr⟩
        obtain ⟨d, hd, u, hu, hdd, -, -⟩ := id hr
        exact ⟨hwhole f hf (hcross f ((hmem f).1 hf).1 d hd hdd), hr⟩
      · rintro ⟨hf, hr⟩
        exact ⟨(hmem f).2 ⟨hsub f hf, hbody f hf⟩, hr⟩
    · unfold wholeFaces
      exact (hnd.filter _).filter _
    · exact hpnd.filter _
  have hclosed : ∀ q, InsideClosed (wholeGaps W z gaps fs) (wholeFaces W z gaps fs) z q ↔ InsideClosed (patchGaps z patches) part z q := by
    intro q
    unfold InsideClosed
    rw [hgapeq.countP_eq, List.countP_eq_length_filter, List.countP_eq_length_filter (l := part), (hperm q).length_eq]
  have hgfar : ∀ D q, FarFromGaps D (patchGaps z patches) z q → FarFromGaps D (wholeGaps W z gaps fs) z q := fun D q hq g hg => hq g (hgapeq.mem_iff.1 hg)
  have hc0 : (0 : ℚ) ≤ 5 * c := by positivity
  have hD' : (0 : ℚ) ≤ ((max 0 o.slicing.finishPolygonSnapDistance : Int) : ℚ) := by exact_mod_cast le_max_left _ _
  have hinside : ∀ q, FarFromSurface (2 * max 0 o.slicing.finishPolygonSnapDistance + 2) (patches.flatten ++ part) z q →
      (InsidePaths (paths ++ short) q ↔ InsideSolid (patches.flatten ++ part) z q) := by
    intro q hq
    obtain ⟨hq1, hq2⟩ := farFromSurface_append hq
    rw [← patches_inside hpat hproper' hWF (farFromSurface_mono hq1 hD' (by linarith)), ← hclosed]
    exact hin q (hT' _ q (farFromSurface_mono hq2 (by norm_num) (by linarith))) (hgfar _ q (patches_far hpat hproper' (by norm_num) hWF (farFromSurface_mono hq2 (by linarith) (by linarith))))
  have hfars : ∀ D q, 0 ≤ D → FarFromSurface (D + 5 * c + 2) (patches.flatten ++ part) z q → ∀ p ∈ paths ++ short, FarFromPath D p q := by
    intro D q hD hq
    obtain ⟨-, hq2⟩ := farFromSurface_append hq
    exact hfar D q hD (hT' _ q (farFromSurface_mono hq2 (by linarith) (by linarith)))
      (hgfar _ q (patches_far hpat hproper' (by linarith) hc (farFromSurface_mono hq2 (by linarith) (by linarith))))
  subst hz
  exact slicedAs_of_outlines (ks := wholeFaces W (layerHeight o n) gaps fs) hfs hsmall (fun f hf => ((hmem f).1 hf).1) hfin h hn hk h0 hls hl hlo hhi hp hs hcut
    (fun D q hq => hT' D q (farFromSurface_append hq).2) hinside hfars hon hlen

/-- **C152** The print of a file with bodies which have small holes, and other parts which are torn. In the layers in which every outline of the other parts has a wide gap, they are lost, and the G-code prints the complete bodies. -/
theorem C152_program (ext : Externals) (o : Options) (content : Str) {tol : ℚ} (h0 : 0 ≤ tol) (hlib : GoodLibrary ext.lib tol) (htrig : TurnsBack ext.trig) (ho : UsualOptions o)
    (hjoin : 2 ≤ o.slicing.joinPolygonSnapDistance) (hjs : o.slicing.joinPolygonSnapDistance < 2 ^ 26)
    (m : Mesh) (hm : m = (ext.stl content).map stlTriangleToFace) (hsheet : IsSheet o.slicing.meldDistance m) (patches : List Mesh) (part : Mesh) (hsub : ∀ f ∈ part, f ∈ m)
    {lo hi : Vec3} (hbox : IsBox (vertices m) lo hi)
    (hsmall : SmallBody o.printer.center lo hi) (harea : ((modelArea o.printer.center lo hi).grow (supportMargin o)).Small) (hheight : o.print.initialLayerThickness ≤ hi.z - lo.z) :
    ∃ t om sliced top, gcodeOf ext o content = .ok t ∧ optimize o m = .ok om ∧ slice ext.lib o om = .ok sliced ∧ sliced.length = top + 1 ∧
      layerHeight o top ≤ hi.z - lo.z ∧ hi.z - lo.z < layerHeight o (top + 1) ∧
      ∃ text mc moves, t = startText o ++ text ++ endText o ∧ run text = some (mc, moves) ∧
        EndIn ((modelArea o.printer.center lo hi).grow (printMargin o)) moves ∧
        ∀ w, (∀ l ∈ sliced, wallCount ext.lib o l.parts ≤ w) → (5 + w) * tol ≤ 9 * 10 ^ 4 →
          PrintsWhere (GoodMixed o (patches.map (placedBody o.printer.center lo hi)) (placedBody o.printer.center lo hi part) (placedBody o.printer.center lo hi m)) o
            (placedBody o.printer.center lo hi (patches.flatten ++ part)) tol w top moves := by
  obtain ⟨t, om, sliced, top, ht, hom, hsl, hlen, ht1, ht2, text, mc, moves, hb1, hb2, hin, hprint⟩ :=
    program_prints ext o content h0 hlib htrig ho m hm hsheet hbox hsmall harea hheight
  refine ⟨t, om, sliced, top, ht, hom, hsl, hlen, ht1, ht2, text, mc, moves, hb1, hb2, hin, fun w hw htol => ?_⟩
  obtain ⟨lo', hi', hlo, hhi, hprint⟩ := hprint w hw htol
  obtain ⟨segs, hseg, -⟩ := bind_ok.1 hsl
  refine hprint _ _ fun k n l hn hg hl => ?_
  obtain ⟨layer, hlay⟩ := segments_exist hseg hsl (show n < sliced.length by omega)
  rw [placed_patches]
  exact slicedAs_mixed hom (body_faces hsheet hbox hom) (sheet_nodup hsheet _ _ _)
    (fun f hf => by
      obtain ⟨t, ht, rfl⟩ := List.mem_map.1 hf
      exact List.mem_map_of_mem (hsub t ht))
    (smallSurface_placed hbox hsmall) ho.meld hjoin hjs ho.sensible.thickness ho.finish hseg hlay hg hlib.sides h0 hsl hl hlo hhi

/-- **C152** Support is printed below the overhangs of the complete bodies, as if the torn parts were not there. -/
theorem C152_support (ext : Externals) (o : Options) (content : Str) {tol : ℚ} (h0 : 0 ≤ tol) (h1 : tol ≤ 10 ^ 4) (hlib : GoodLibrary ext.lib tol) (htrig : TurnsBack ext.trig) (ho : UsualOptions o)
    (hjoin : 2 ≤ o.slicing.joinPolygonSnapDistance) (hjs : o.slicing.joinPolygonSnapDistance < 2 ^ 26)
    (m : Mesh) (hm : m = (ext.stl content).map stlTriangleToFace) (hsheet : IsSheet o.slicing.meldDistance m) (patches : List Mesh) (part : Mesh) (hsub : ∀ f ∈ part, f ∈ m)
    {lo hi : Vec3} (hbox : IsBox (vertices m) lo hi)
    (hsmall : SmallBody o.printer.center lo hi) (hheight : o.print.initialLayerThickness ≤ hi.z - lo.z)
    (hen : o.print.support.enabled = true) (hfit : SupportFits ext.tan o)
    (hbed : -900000 ≤ ((modelArea o.printer.center lo hi).grow (supportMargin o)).minX ∧ ((modelArea o.printer.center lo hi).grow (supportMargin o)).maxX ≤ 900000 ∧
      -900000 ≤ ((modelArea o.printer.center lo hi).grow (supportMargin o)).minY ∧ ((modelArea o.printer.center lo hi).grow (supportMargin o)).maxY ≤ 900000)
    {t : Str} (ht : gcodeOf ext o content = .ok t) {top : Nat} (ht1 : layerHeight o top ≤ hi.z - lo.z) (ht2 : hi.z - lo.z < layerHeight o (top + 1)) :
    ∃ text mc moves, t = startText o ++ text ++ endText o ∧ run text = some (mc, moves) ∧
      PrintsSupportWhere (GoodMixed o (patches.map (placedBody o.printer.center lo hi)) (placedBody o.printer.center lo hi part) (placedBody o.printer.center lo hi m)) o
        (placedBody o.printer.center lo hi (patches.flatten ++ part)) ext.tan tol top moves := by
  obtain ⟨om, sliced, lo', hi', text, mc, moves, hom, hsl, hlen, hlo, hhi, b1, b2, b3⟩ :=
    support_prints ext o content h0 h1 hlib htrig ho m hm hsheet hbox hsmall hheight hen hfit hbed ht ht1 ht2
  refine ⟨text, mc, moves, b1, b2, b3 _ _ fun k n l hn hg hl => ?_⟩
  obtain ⟨segs, hseg, -⟩ := bind_ok.1 hsl
  obtain ⟨layer, hlay⟩ := segments_exist hseg hsl (show n < sliced.length by omega)
  rw [placed_patches]
  exact slicedAs_mixed hom (body_faces hsheet hbox hom) (sheet_nodup hsheet _ _ _)
    (fun f hf => by
      obtain ⟨t, ht, rfl⟩ := List.mem_map.1 hf
      exact List.mem_map_of_mem (hsub t ht))
    (smallSurface_placed hbox hsmall) ho.meld hjoin hjs ho.sensible.thickness ho.finish hseg hlay hg hlib.sides h0 hsl hl hlo hhi

end Verif
