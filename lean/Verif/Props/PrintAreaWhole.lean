import Verif.Props.PrintAreaMoves
import Verif.Props.PrintAreaFill
import Verif.Props.Whole

/-! # C102: the area used by a print -/
namespace Verif
open Verif.Go Verif.Model Verif.Spec Verif.Spec.GCode

/-! ## Slicing -/

/-- The corners of the face are in the rectangle. -/
def FaceIn (R : Rect) (f : Tri Vec3) : Prop := ∀ p ∈ f.corners, R.Has p.x p.y

theorem side_corners {f : Tri Vec3} {s : Vec3 × Vec3} (h : IsSide f s) : s.1 ∈ f.corners ∧ s.2 ∈ f.corners := by
  rcases h with rfl | rfl | rfl <;> simp [Tri.corners]

theorem onSide_in {R : Rect} {z : Int} {f : Tri Vec3} {s : Vec3 × Vec3} {p : Pt} (hf : FaceIn R f) (hs : IsSide f s) (h : OnSide z s p) : R.Has p.x p.y := by
  obtain ⟨c1, c2⟩ := side_corners hs
  obtain ⟨a1, a2, a3, a4⟩ := hf _ c1
  obtain ⟨b1, b2, b3, b4⟩ := hf _ c2
  obtain ⟨⟨-, x1, x2⟩, -, y1, y2⟩ := h
  refine ⟨?_, ?_, ?_, ?_⟩ <;> omega

theorem pathOf_in {R : Rect} {ss : List SliceSegment} (h : ∀ s ∈ ss, R.Has s.start.x s.start.y ∧ R.Has s.finish.x s.finish.y) : R.HasPath (pathOf ss) := by
  cases ss with
  | nil => intro p hp; cases hp
  | cons s ss =>
    intro p hp
    rcases List.mem_cons.1 hp with rfl | hp
    · exact (h s List.mem_cons_self).1
    · obtain ⟨x, hx, rfl⟩ := List.mem_map.1 hp
      exact (h x hx).2

/-- The parts of all layers are in each rectangle which contains the model. -/
theorem slice_in {lib : ClipperLib} (hl : StaysInside lib) {o : Options} (ht : 0 < o.print.layerThickness) {om : OptModel} {fs : List (Tri Vec3)}
    (hfs : om.faces.mapM om.facePoints = .ok fs) {R : Rect} (hR : ∀ f ∈ fs, FaceIn R f) :
    Yields (slice lib o om) fun ls => ∀ l ∈ ls, ∃ parts, l = { parts := parts } ∧ R.HasParts parts := by
  intro ls h
  obtain ⟨layers, hs, h⟩ := bind_ok.1 h
  have h := mapM_ok.1 h
  intro l hlm
  obtain ⟨i, hi, rfl⟩ := List.getElem_of_mem hlm
  have hlen := h.length_eq
  have hi' : i < layers.length := by omega
  have hfin := (List.forall₂_iff_get.1 h).2 i hi' hi
  simp only [List.get_eq_getElem] at hfin
  cases hx : layers[i] with
  | none => rw [hx] at hfin; cases hfin
  | some layer =>
    rw [hx] at hfin
    have hlay : layers[i]? = some (some layer) := by rw [List.getElem?_eq_getElem hi', hx]
    obtain ⟨-, hseg, -⟩ := C53_segments o om layers hs ht fs hfs i layer hlay
    obtain ⟨paths, css, hmk, hout, -, -⟩ := C58_delivered o (goodLayer_of hs ht hlay)
    have hpaths : ∀ path ∈ paths, R.HasPath path := by
      intro path hp
      obtain ⟨k, hk⟩ := List.getElem?_of_mem hp
      obtain ⟨hk2, rfl⟩ := List.getElem?_eq_some_iff.1 hk
      have := (List.forall₂_iff_get.1 hout).2 k (by rw [hout.length_eq]; exact hk2) hk2
      simp only [List.get_eq_getElem] at this
      rw [this.path]
      intro p hpm
      obtain ⟨q, hq, hpq⟩ := List.mem_flatten.1 hpm
      obtain ⟨c, -, rfl⟩ := List.mem_map.1 hq
      refine pathOf_in (fun s hsm => ?_) p hpq
      obtain ⟨n, -, hn⟩ := List.mem_filterMap.1 hsm
      obtain ⟨f, d, u, hf, hd, hu, -, -, o1, o2⟩ := hseg s (List.mem_of_getElem? hn)
      have hfi := hR f (List.mem_of_getElem? hf)
      exact ⟨onSide_in hfi hd o1, onSide_in hfi hu o2⟩
    simp only [finishLayer, hmk, bind, Except.bind] at hfin
    obtain ⟨r, hr, hfin⟩ := bind_ok.1 (show (lib.generateLayerParts paths >>= fun r => match r with
      | none => Except.error (.err "partitioning failed") | some parts => pure { parts := parts }) = .ok ls[i] from hfin)
    cases r with
    | none => cases hfin
    | some parts =>
      refine ⟨parts, (Except.ok.inj hfin).symm, ?_⟩
      obtain ⟨simple, hsi, hr⟩ := bind_ok.1 hr
      have hsimple : ∀ path ∈ simple, R.HasPath path := by
        have hsi := mapM_ok.1 hsi
        intro path hp
        obtain ⟨k, hk⟩ := List.getElem?_of_mem hp
        obtain ⟨hk2, rfl⟩ := List.getElem?_eq_some_iff.1 hk
        have hk' : k < paths.length := by rw [hsi.length_eq]; exact hk2
        have := (List.forall₂_iff_get.1 hsi).2 k hk' hk2
        simp only [List.get_eq_getElem] at this
        obtain ⟨r, hr, hsub⟩ := C08_int64 paths[k] (-1) (-1)
        rw [hr] at this
        cases this
        exact fun p hp => hpaths _ (List.getElem_mem hk') p (hsub.subset hp)
      split at hr
      · cases hr
        intro p hp; cases hp
      · cases he : lib.execute .union (clipperPaths simple) [] with
        | none => rw [he] at hr; cases hr
        | some tree =>
          rw [he] at hr
          cases hr
          refine hasParts_tree (hl.union R _ _ tree he ?_ ?_)
          · intro c hc q hq
            obtain ⟨path, hp, rfl⟩ := List.mem_map.1 hc
            obtain ⟨p, hpm, rfl⟩ := List.mem_map.1 hq
            exact hsimple path hp p hpm
          · intro c hc; cases hc

/-! ## The patterns -/

theorem small_mono {R : Rect} {n : Int} (hn : 0 ≤ n) (h : (R.grow n).Small) : R.Small := by
  obtain ⟨h1, h2, h3, h4⟩ := h
  simp only [Rect.grow] at h1 h2 h3 h4
  refine ⟨?_, ?_, ?_, ?_⟩ <;> omega

theorem patterns_in {lib : ClipperLib} {trig : ℚ → ℚ × ℚ} {o : Options} {R : Rect} (hl : StaysInside lib) (hopen : OpenClipping lib) (ht : TurnsBack trig)
    (hm : Moderate o) (hs : (R.grow (supportMargin o)).Small) (min max : Pt) : Yields (standardPatterns lib trig o min max) (PatternsIn R o) := by
  have hs0 := small_mono (supportMargin_nonneg o) hs
  have hf : ∀ (p : Linear) (R : Rect), R.Small → 0 ≤ p.lineWidth → PatternIn R (p.fill lib trig) := fun p R hR hw n part hp => fill_in hl hopen ht hR p hw n hp
  unfold standardPatterns
  refine yields_bind (P := fun p => ∀ q, p = some q → 0 ≤ q.lineWidth) ?_ fun p hp => yields_pure ⟨?_, ?_, ?_, ?_, ?_⟩
  · unfold internalPattern
    split
    · exact yields_bind (yields_any _) fun d _ => yields_pure (by rintro q ⟨⟩; exact hm.width.1)
    · exact yields_pure (by rintro q ⟨⟩)
  · rintro fill ⟨⟩; exact hf _ _ hs hm.width.1
  · rintro fill ⟨⟩; exact hf _ _ hs hm.width.1
  · rintro fill ⟨⟩; exact hf _ _ hs0 hm.width.1
  · rintro fill ⟨⟩; exact hf _ _ hs0 hm.width.1
  · intro fill hfill
    obtain ⟨q, rfl, rfl⟩ := Option.map_eq_some_iff.1 hfill
    exact hf _ _ hs0 (hp q rfl)

/-! ## The text -/

section
variable {crossing : List LayerPart → Path → Bool × Bool} {R : Rect}

theorem endsIn_request {pre : List Request} {r : Request} (h : RequestIn R r) : EndsIn R (moveFor pre r) :=
  ⟨_, _, rfl, rfl, decimals_mono 2 (toMillimeter_mono h.1), decimals_mono 2 (toMillimeter_mono h.2.1), decimals_mono 2 (toMillimeter_mono h.2.2.1),
    decimals_mono 2 (toMillimeter_mono h.2.2.2)⟩

/-- **C102** (text) If the layers are in a rectangle, then all moves of the print end in the rectangle with its margin, apart from at most two at the origin (a retraction and
a lift at the never set position, C26). -/
theorem C102_text {lib : ClipperLib} {o : Options} {pt : Patterns} {layers : List Layer} {g0 : Builder} {t : Str} (hl : StaysInside lib) (hm : Moderate o)
    (hpt : PatternsIn R o pt) (hin : LayersIn R o layers) (hne : layers ≠ [])
    (h : (generateScripts crossing o (standardRenderers lib o pt) layers g0).2 = (t, none)) :
    ∃ body m start rest, t = startText o ++ body ++ endText o ∧ run body = some (m, start ++ rest) ∧ start.length ≤ 2 ∧
      (∀ mv ∈ start, mv.after.x = some 0 ∧ mv.after.y = some 0) ∧
      (∀ mv ∈ rest, EndsIn (R.grow (printMargin o)) mv) ∧ (start ≠ [] → StartsCrossing crossing o (printCalls lib o pt layers)) := by
  obtain ⟨g, htext, hb⟩ := print_body hne h
  obtain ⟨m, moves, h1, h2, h3⟩ := C18_moves harmless_print hb
  obtain ⟨s, rs, hreq, hlen, hs, hr, hcross⟩ := requests_in (crossing := crossing)
    (flow := flowOf o.filament.filamentDiameter o.filament.extrusionMultiplier) (printCalls_in hl hm hpt hin)
  rw [hreq] at h2 h3
  obtain ⟨prev, he⟩ := emittedFrom_parts s rs none
  have hes : ∀ q ∈ emittedFrom none s, q ∈ s := fun q hq => mem_emittedFrom hq
  have her : ∀ q ∈ emittedFrom prev rs, q ∈ rs := fun q hq => mem_emittedFrom hq
  have hel := emittedFrom_length s none
  unfold emitted at h2 h3
  rw [he] at h2 h3
  generalize emittedFrom none s = es at *
  generalize emittedFrom prev rs = er at *
  refine ⟨g.buf, m, moves.take es.length, moves.drop es.length, htext, by rw [List.take_append_drop]; exact h1, ?_, ?_, ?_, ?_⟩
  · rw [List.length_take]; omega
  · intro mv hmv
    obtain ⟨k, hk, rfl⟩ := List.mem_iff_getElem.1 hmv
    rw [List.length_take] at hk
    rw [List.getElem_take, h3 k es[k] _ (by rw [List.getElem?_append_left (by omega)]; exact List.getElem?_eq_getElem (by omega)) (List.getElem?_eq_getElem (by omega))]
    obtain ⟨e1, e2⟩ := hs es[k] (hes _ (List.getElem_mem _))
    simp [moveFor, e1, e2, decimals, toMillimeter]
  · intro mv hmv
    obtain ⟨k, hk, rfl⟩ := List.mem_iff_getElem.1 hmv
    rw [List.length_drop] at hk
    rw [List.length_append] at h2
    rw [List.getElem_drop, h3 (es.length + k) er[k] _
      (by rw [List.getElem?_append_right (by omega), Nat.add_sub_cancel_left]; exact List.getElem?_eq_getElem (by omega)) (List.getElem?_eq_getElem (by omega))]
    exact endsIn_request (hr _ (her _ (List.getElem_mem _)))
  · intro hn
    refine hcross fun hc => hn ?_
    subst hc
    rw [List.length_nil] at hel
    rw [Nat.le_zero.1 hel, List.take_zero]

end

/-! ## The program -/

theorem box_unique {ps : List Vec3} {lo hi lo' hi' : Vec3} (h : IsBox ps lo hi) (h' : IsBox ps lo' hi') : lo = lo' ∧ hi = hi' := by
  obtain ⟨⟨p1, m1, e1⟩, ⟨p2, m2, e2⟩, ⟨p3, m3, e3⟩, ⟨p4, m4, e4⟩, ⟨p5, m5, e5⟩, p6, m6, e6⟩ := h.reached
  obtain ⟨⟨q1, n1, f1⟩, ⟨q2, n2, f2⟩, ⟨q3, n3, f3⟩, ⟨q4, n4, f4⟩, ⟨q5, n5, f5⟩, q6, n6, f6⟩ := h'.reached
  have a1 := h'.inside _ m1
  have a2 := h'.inside _ m2
  have a3 := h'.inside _ m3
  have a4 := h'.inside _ m4
  have a5 := h'.inside _ m5
  have a6 := h'.inside _ m6
  have b1 := h.inside _ n1
  have b2 := h.inside _ n2
  have b3 := h.inside _ n3
  have b4 := h.inside _ n4
  have b5 := h.inside _ n5
  have b6 := h.inside _ n6
  obtain ⟨x, y, z⟩ := lo
  obtain ⟨x', y', z'⟩ := lo'
  obtain ⟨u, v, w⟩ := hi
  obtain ⟨u', v', w'⟩ := hi'
  simp only [Vec3.mk.injEq] at *
  refine ⟨⟨?_, ?_, ?_⟩, ?_, ?_, ?_⟩ <;> omega

/-- **C102** The whole program: everything it prints is on the area of the model around the center of the bed, enlarged by what brim, support and skirt need. Apart from at most two
moves at the origin before the first line. -/
theorem C102_program (ext : Externals) (o : Options) (content t : Str) (hl : StaysInside ext.lib) (hopen : OpenClipping ext.lib) (htrig : TurnsBack ext.trig) (hm : Moderate o)
    (ht : 0 < o.print.layerThickness) {lo hi : Vec3} (hbox : IsBox (vertices ((ext.stl content).map stlTriangleToFace)) lo hi)
    (hsmall : ((modelArea o.printer.center lo hi).grow (supportMargin o)).Small) (h : gcodeOf ext o content = .ok t) :
    t = [] ∨ ∃ body m start rest, t = startText o ++ body ++ endText o ∧ run body = some (m, start ++ rest) ∧ start.length ≤ 2 ∧
      (∀ mv ∈ start, mv.after.x = some 0 ∧ mv.after.y = some 0) ∧
      ∀ mv ∈ rest, EndsIn ((modelArea o.printer.center lo hi).grow (printMargin o)) mv := by
  unfold gcodeOf at h
  obtain ⟨-, -, h⟩ := bind_ok.1 h
  obtain ⟨om, hom, h⟩ := bind_ok.1 h
  obtain ⟨ls, hls, h⟩ := bind_ok.1 h
  obtain ⟨ls', hls', h⟩ := bind_ok.1 h
  obtain ⟨pt, hpt, h⟩ := bind_ok.1 h
  obtain ⟨fs, _, _, _, hfs, -⟩ := C48_faces o _ om hom
  obtain ⟨⟨lo', hi', hbox', hsize⟩, hplace⟩ := C51_place o _ om hom fs hfs
  obtain ⟨rfl, rfl⟩ := box_unique hbox hbox'
  have hR : ∀ f ∈ fs, FaceIn (modelArea o.printer.center lo hi) f := by
    intro f hf p hp
    obtain ⟨-, -, hx, hy⟩ := hplace f hf p hp
    rw [hsize] at hx hy
    simp only [modelArea, Rect.Has] at *
    have hx := abs_le.1 (show |p.x - o.printer.center.x| ≤ (hi.x - lo.x + 1) / 2 by omega)
    have hy := abs_le.1 (show |p.y - o.printer.center.y| ≤ (hi.y - lo.y + 1) / 2 by omega)
    refine ⟨?_, ?_, ?_, ?_⟩ <;> omega
  have hin : LayersIn (modelArea o.printer.center lo hi) o ls := by
    intro l hlm
    obtain ⟨parts, rfl, hp⟩ := slice_in hl ht hfs hR ls hls l hlm
    exact layerIn_plain hp
  have hin' := modifiers_in hl hm ext.tan hin ls' hls'
  have hpin : PatternsIn (modelArea o.printer.center lo hi) o pt := by
    obtain ⟨a, -, hpt⟩ := bind_ok.1 hpt
    obtain ⟨b, -, hpt⟩ := bind_ok.1 hpt
    exact patterns_in hl hopen htrig hm hsmall _ _ pt hpt
  generalize hgen : (generateScripts ext.lib.isCrossingPerimeter o (standardRenderers ext.lib o pt) ls'
      (newBuilder o.filament.filamentDiameter o.filament.extrusionMultiplier)).2 = res at h
  obtain ⟨t', _ | e⟩ := res
  · cases h
    by_cases hne : ls' = []
    · left
      subst hne
      obtain ⟨-, g, hg, rfl⟩ := C30_scripts.1 hgen
      cases hg
      rfl
    · right
      obtain ⟨body, m, start, rest, h1, h2, h3, h4, h5, -⟩ := C102_text hl hm hpin hin' hne hgen
      exact ⟨body, m, start, rest, h1, h2, h3, h4, h5⟩
  · cases h

/-! ## Examples -/

/-- A library which copies contours. -/
def copyLib : ClipperLib where
  execute := fun t s c => some ((match t with | .union => s ++ c | .difference => s | .intersection => []).map fun c => .node c [])
  executeOpen := fun _ _ _ => some []
  offset := fun s _ => s.map fun c => .node c []
  hull := fun p => p

theorem treesContours_copy (cs : List (List IntPoint)) : treesContours (cs.map fun c => .node c []) = cs := by
  induction cs with
  | nil => rfl
  | cons c cs ih => rw [List.map_cons, treesContours, ih]; rfl

theorem copy_inside : StaysInside copyLib where
  union := by
    intro R s c tree h hs hc
    cases h
    rw [treesContours_copy]
    exact fun x hx => (List.mem_append.1 hx).elim (hs x) (hc x)
  difference := by
    intro R s c tree h hs
    cases h
    rwa [treesContours_copy]
  intersection := by
    intro R s c tree h hc
    cases h
    rw [treesContours_copy]
    intro x hx; cases hx
  offset := by
    intro R s d hs
    have := reach_nonneg d
    show (R.grow (reach d)).HasContours (treesContours (s.map fun c => .node c []))
    rw [treesContours_copy]
    intro c hc q hq
    obtain ⟨h1, h2, h3, h4⟩ := hs c hc q hq
    simp only [Rect.grow, Rect.Has]
    refine ⟨?_, ?_, ?_, ?_⟩ <;> omega
  hull := fun _ _ h => h
  lines := by
    intro a b c s clip tree _ h _ n hn
    cases h; cases hn
  vertical := by
    intro s clip tree h _ n hn
    cases h; cases hn

theorem copy_open : OpenClipping copyLib where
  ok := fun t s c => ⟨[], rfl⟩
  lines := by
    intro s c tree h _ n hn
    cases h; cases hn

theorem turns_never : TurnsBack fun _ => (0, 1) := fun d => ⟨0, by norm_num⟩

theorem moderate_default : Moderate {} where
  width := by decide
  overlap := by decide
  brim := by decide
  skirt := by decide
  distance := by decide +kernel
  spacing := by decide +kernel

/-- The tetrahedron of C90 with the copying library. -/
def copyExt : Externals := { cornerExt with lib := copyLib }

/-- Non-vacuity of `C102_program`: the tetrahedron of 1 mm, placed at 100 mm, is printed between 90.79 mm and 109.21 mm. -/
example : ∃ t body m start rest, gcodeOf copyExt {} [] = .ok t ∧ t = startText {} ++ body ++ endText {} ∧ run body = some (m, start ++ rest) ∧ start.length ≤ 2 ∧
    ∀ mv ∈ rest, EndsIn ⟨90799, 109201, 90799, 109201⟩ mv := by
  have hm : cornerMesh = (copyExt.stl []).map stlTriangleToFace := by decide +kernel
  obtain ⟨t, ht⟩ := C90_gcode copyExt {} [] sensible_default (fun _ _ _ => rfl) copy_open cornerMesh hm (by decide) (by decide) (by unfold Separated; decide +kernel)
    corner_noGap (.inr rfl)
  have hbox : IsBox (vertices ((copyExt.stl []).map stlTriangleToFace)) ⟨0, 0, 0⟩ ⟨1000, 1000, 1000⟩ := by
    rw [← hm]
    exact ⟨by decide, by decide⟩
  have hp : printMargin {} = 8701 := by decide +kernel
  have := C102_program copyExt {} [] t copy_inside copy_open turns_never moderate_default (by decide) hbox (by unfold Rect.Small; decide +kernel) ht
  rw [hp] at this
  have hne : gcodeOf copyExt {} [] ≠ .ok [] := by decide +kernel
  rcases this with rfl | ⟨body, m, start, rest, h1, h2, h3, -, h5⟩
  · exact absurd ht hne
  · exact ⟨t, body, m, start, rest, ht, h1, h2, h3, h5⟩

end Verif
