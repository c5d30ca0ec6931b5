import Verif.Spec.Holes
import Verif.Props.Missing

/-! # Models with holes (C146) -/
namespace Verif
open Verif.Go Verif.Model Verif.Spec

/-- A directed side belongs to only one face of a surface with holes. -/
theorem open_owner {F : List (Tri Vec3)} (hopen : OpenSurface F) (hproper : ∀ f ∈ F, Proper f) {k k' : Nat} {f f' : Tri Vec3} {s : Vec3 × Vec3} (hk : F[k]? = some f)
    (hk' : F[k']? = some f') (hs : IsSide f s) (hs' : IsSide f' s) : k' = k := by
  rcases hopen k f s hk hs with hone | ⟨j, g, hjk, hgj, hgs, honly⟩
  · exact hone k' f' hk' (isSide_hasSide hs')
  rcases honly k' f' hk' (isSide_hasSide hs') with e | e
  · exact e
  · exfalso
    rw [e, hgj] at hk'
    cases hk'
    exact isSide_not_both (hproper _ (List.mem_of_getElem? hgj)) hs' hgs

/-- The links between the segments of a layer of a surface with holes. -/
structure HoleLinks (z : Int) (gaps : List Gap) (fs : List (Tri Vec3)) (om : OptModel) (meld : Int) (layer : SliceLayer) (d u : Nat → Vec3 × Vec3) (next : Nat → Nat) : Prop where
  seg : ∀ i < layer.segments.length, ∃ f, fs[(segAt layer i).faceIndex]? = some f ∧ IsSide f (d i) ∧ IsSide f (u i) ∧ Down z (d i) ∧ Up z (u i) ∧
    OnSide z (d i) (segAt layer i).start ∧ OnSide z (u i) (segAt layer i).finish
  lt : ∀ i < layer.segments.length, next i < layer.segments.length
  inj : ∀ i < layer.segments.length, ∀ j < layer.segments.length, next i = next j → i = j
  step : ∀ i < layer.segments.length, d (next i) = (u i).swap ∧ ¬ Loose fs (u i) ∨ (u i, d (next i)) ∈ gaps ∧ Loose fs (u i)
  uinj : ∀ i < layer.segments.length, ∀ j < layer.segments.length, u i = u j → i = j
  back : ∀ g ∈ gaps, ∃ i < layer.segments.length, u i = g.1
  same : ∀ i < layer.segments.length, ∀ j < layer.segments.length, d j = (u i).swap → j = next i ∧ ¬ Loose fs (u i)
  across : ∀ i < layer.segments.length, ∀ j < layer.segments.length, (u i, d j) ∈ gaps → j = next i
  follows : ∀ i < layer.segments.length, ¬ Loose fs (u i) → Spec.Follows meld om layer i (next i)

theorem gap_same {gaps : List Gap} (h : (gaps.map Prod.fst).Nodup) {s a b : Vec3 × Vec3} (ha : (s, a) ∈ gaps) (hb : (s, b) ∈ gaps) : a = b := by
  have := List.inj_on_of_nodup_map h ha hb rfl
  simpa using this

theorem gap_same' {gaps : List Gap} (h : (gaps.map Prod.snd).Nodup) {s a b : Vec3 × Vec3} (ha : (a, s) ∈ gaps) (hb : (b, s) ∈ gaps) : a = b := by
  have := List.inj_on_of_nodup_map h ha hb rfl
  simpa using this

theorem hole_links (o : Options) (m : Mesh) (om : OptModel) (hom : optimize o m = .ok om) (fs : List (Tri Vec3)) (gaps : List Gap) (hfs : om.faces.mapM om.facePoints = .ok fs)
    (hmeld : 2 ≤ o.slicing.meldDistance) (ht : 0 < o.print.layerThickness) (layers : List (Option SliceLayer)) (h : sliceSegments o om = .ok layers) (n : Nat) (layer : SliceLayer)
    (hn : layers[n]? = some (some layer)) (hm : OpenAt o (layerHeight o n) gaps fs) :
    ∃ d u next, HoleLinks (layerHeight o n) gaps fs om o.slicing.meldDistance layer d u next := by
  obtain ⟨h1, h2, h3⟩ := C53_segments o om layers h ht fs hfs n layer hn
  obtain ⟨hproper, -⟩ := C47_faces o m om hom fs hfs
  change layer.segments.map SliceSegment.faceIndex = (List.range fs.length).filter (fun i => (fs[i]?).any fun f => decide (Crosses (layerHeight o n) f)) at h1
  change ∀ seg ∈ layer.segments, ∃ f d u, fs[seg.faceIndex]? = some f ∧ IsSide f d ∧ IsSide f u ∧ Down (layerHeight o n) d ∧ Up (layerHeight o n) u ∧
    OnSide (layerHeight o n) d seg.start ∧ OnSide (layerHeight o n) u seg.finish at h2
  obtain ⟨hopen, htip, hends, hall, ⟨honce1, honce2⟩, -, -⟩ := hm
  generalize layerHeight o n = z at *
  have hlenf := (mapM_ok.1 hfs).length_eq
  have hseg : ∀ i (hi : i < layer.segments.length), segAt layer i = layer.segments[i] := by
    intro i hi
    unfold segAt
    rw [List.getD_eq_getElem?_getD, List.getElem?_eq_getElem hi]; rfl
  have hsegs : ∀ a : Nat, ∃ d u : Vec3 × Vec3, a < layer.segments.length → ∃ f, fs[(segAt layer a).faceIndex]? = some f ∧ IsSide f d ∧ IsSide f u ∧ Down z d ∧ Up z u ∧
      OnSide z d (segAt layer a).start ∧ OnSide z u (segAt layer a).finish := by
    intro a
    by_cases ha : a < layer.segments.length
    · obtain ⟨f, d, u, hh⟩ := h2 _ (List.getElem_mem ha)
      exact ⟨d, u, fun _ => ⟨f, by rw [hseg a ha]; exact hh⟩⟩
    · exact ⟨(⟨0, 0, 0⟩, ⟨0, 0, 0⟩), (⟨0, 0, 0⟩, ⟨0, 0, 0⟩), fun h => absurd h ha⟩
  choose d u hdu using hsegs
  -- the segment of a face
  have hface : ∀ (j : Nat) g, fs[j]? = some g → Crosses z g → ∃ b < layer.segments.length, (segAt layer b).faceIndex = j := by
    intro j g hg hcross
    have hmem : j ∈ layer.segments.map SliceSegment.faceIndex := by
      rw [h1, List.mem_filter, List.mem_range]
      refine ⟨(List.getElem?_eq_some_iff.1 hg).1, ?_⟩
      rw [hg]
      simpa using hcross
    obtain ⟨sb, hsb, hsbj⟩ := List.mem_map.1 hmem
    obtain ⟨b, hb⟩ := List.getElem?_of_mem hsb
    obtain ⟨hbl, hbe⟩ := List.getElem?_eq_some_iff.1 hb
    exact ⟨b, hbl, by rw [hseg b hbl, hbe, hsbj]⟩
  have hfind : ∀ (j : Nat) g s, fs[j]? = some g → IsSide g s → Down z s → ∃ b < layer.segments.length, d b = s ∧ (segAt layer b).faceIndex = j := by
    intro j g s hg hs hds
    obtain ⟨b, hbl, he⟩ := hface j g hg (crosses_of_down hs hds (htip g (List.mem_of_getElem? hg)))
    refine ⟨b, hbl, ?_, he⟩
    obtain ⟨f, hf, hd, -, hdd, -⟩ := hdu b hbl
    rw [he, hg] at hf
    cases hf
    exact down_unique hd hs hdd hds
  have hidx : ∀ a < layer.segments.length, ∀ b < layer.segments.length, (segAt layer a).faceIndex = (segAt layer b).faceIndex → a = b := by
    intro a ha b hb e
    have m1 := (h3 (segAt layer a).faceIndex a).2 (by rw [List.getElem?_eq_getElem ha, hseg a ha]; rfl)
    have m2 := (h3 (segAt layer a).faceIndex b).2 (by rw [List.getElem?_eq_getElem hb, e, hseg b hb]; rfl)
    rw [m1, Option.some.injEq] at m2
    exact m2
  have hud : ∀ s : Vec3 × Vec3, Up z s → Down z s.swap := fun s h => ⟨h.1, h.2⟩
  have hdud : ∀ s : Vec3 × Vec3, Down z s → Up z s.swap := fun s h => ⟨h.1, h.2⟩
  -- two segments with the same side are the same
  have hdd_eq : ∀ a < layer.segments.length, ∀ b < layer.segments.length, d a = d b → a = b := by
    intro a ha b hb e
    obtain ⟨f, hf, hfd, -⟩ := hdu a ha
    obtain ⟨f', hf', hfd', -⟩ := hdu b hb
    rw [← e] at hfd'
    exact hidx a ha b hb (open_owner hopen hproper hf hf' hfd hfd').symm
  have huu_eq : ∀ a < layer.segments.length, ∀ b < layer.segments.length, u a = u b → a = b := by
    intro a ha b hb e
    obtain ⟨f, hf, -, hfd, -⟩ := hdu a ha
    obtain ⟨f', hf', -, hfd', -⟩ := hdu b hb
    rw [← e] at hfd'
    exact hidx a ha b hb (open_owner hopen hproper hf hf' hfd hfd').symm
  have hstep : ∀ a, ∃ b, a < layer.segments.length → b < layer.segments.length ∧
      ((d b = (u a).swap ∧ ¬ Loose fs (u a) ∧ Spec.Follows o.slicing.meldDistance om layer a b) ∨ (u a, d b) ∈ gaps ∧ Loose fs (u a)) := by
    intro a
    by_cases ha : a < layer.segments.length
    swap
    · exact ⟨0, fun h => absurd h ha⟩
    obtain ⟨f, hf, hfd, hfu, hdd, huu, hos, hoe⟩ := hdu a ha
    by_cases hloose : Loose fs (u a)
    · obtain ⟨g, hg, hgu⟩ := List.mem_map.1 (hall f (List.mem_of_getElem? hf) _ (isSide_iff.2 hfu) huu hloose)
      obtain ⟨-, hg2, -, -, -, f', hf', hgs⟩ := hends g hg
      obtain ⟨j, hj⟩ := List.getElem?_of_mem hf'
      obtain ⟨b, hb, hdb, -⟩ := hfind j f' _ hj (isSide_iff.1 hgs) hg2
      exact ⟨b, fun _ => ⟨hb, .inr ⟨by rw [hdb, ← hgu]; exact hg, hloose⟩⟩⟩
    · rcases hopen _ f (u a) hf hfu with hone | ⟨i, g, hji, hgj, hgs, honly⟩
      · exfalso
        unfold Loose at hloose
        push Not at hloose
        obtain ⟨f', hf', hs'⟩ := hloose
        obtain ⟨j, hj⟩ := List.getElem?_of_mem hf'
        have := hone j f' hj (by have := isSide_hasSide (isSide_iff.1 hs'); exact ⟨this.2, this.1⟩)
        rw [this, hf] at hj
        cases hj
        exact isSide_not_both (hproper _ hf') hfu (isSide_iff.1 hs')
      obtain ⟨b, hb, hdb, hbi⟩ := hfind i g _ hgj hgs (hud _ huu)
      refine ⟨b, fun _ => ⟨hb, .inl ⟨hdb, hloose, ?_⟩⟩⟩
      obtain ⟨g', hg', -, -, -, -, hos', -⟩ := hdu b hb
      rw [hdb] at hos'
      have hzne : (u a).1.z ≠ (u a).2.z := by unfold Up at huu; omega
      rw [onSide_swap (by simpa using Ne.symm hzne)] at hos'
      have hfl : (segAt layer a).faceIndex < om.faces.length := by rw [hlenf]; exact (List.getElem?_eq_some_iff.1 hf).1
      have hjl : i < om.faces.length := by rw [hlenf]; exact (List.getElem?_eq_some_iff.1 hgj).1
      obtain ⟨nn, hnn, hside⟩ := isSide_faceSide hfu
      obtain ⟨nn', hnn', hside'⟩ := isSide_faceSide hgs
      have htouch := (C50_mutual o m om hom fs hfs _ i _ _ f g (List.getElem?_eq_getElem hfl) hf (List.getElem?_eq_getElem hjl) hgj
        (fun e => hji e.symm) nn nn' hnn hnn' (.inr (by rw [hside, hside'])) (by
          rw [hside]
          intro k v hk hv
          exact honly _ v hk hv)).1
      refine ⟨segAt layer a, segAt layer b, om.faces[(segAt layer a).faceIndex], by rw [hseg a ha]; exact List.getElem?_eq_getElem ha,
        by rw [hseg b hb]; exact List.getElem?_eq_getElem hb, List.getElem?_eq_getElem hfl, ?_, ?_⟩
      · rw [hbi, ← htouch]
        exact ofSide_mem _ _
      · exact within_of_near hmeld (near_near hoe.1 hos'.1) (near_near hoe.2 hos'.2)
  choose next hnext using hstep
  have hsame : ∀ i < layer.segments.length, ∀ j < layer.segments.length, d j = (u i).swap → j = next i ∧ ¬ Loose fs (u i) := by
    intro i hi j hj e
    obtain ⟨fj, hfj, hfd, -⟩ := hdu j hj
    rw [e] at hfd
    have hng : ¬ Loose fs (u i) := fun hl => hl fj (List.mem_of_getElem? hfj) (isSide_iff.2 hfd)
    refine ⟨?_, hng⟩
    obtain ⟨hlt, ⟨e', -⟩ | ⟨-, hl⟩⟩ := hnext i hi
    · exact hdd_eq j hj _ hlt (by rw [e, e'])
    · exact absurd hl hng
  refine ⟨d, u, next, hdu, fun i hi => (hnext i hi).1, ?_, ?_, huu_eq, ?_, hsame, ?_, ?_⟩
  · intro i hi j hj e
    obtain ⟨hlt, ⟨e1, hng1, -⟩ | ⟨hg1, hl1⟩⟩ := hnext i hi <;> obtain ⟨-, ⟨e2, hng2, -⟩ | ⟨hg2, hl2⟩⟩ := hnext j hj
    · rw [e, e2] at e1
      exact (huu_eq j hj i hi (Prod.swap_injective e1)).symm
    · exfalso
      obtain ⟨f, hf, -, hfu, -⟩ := hdu i hi
      refine (hends _ hg2).2.2.2.1 f (List.mem_of_getElem? hf) ?_
      rw [← e, e1, Prod.swap_swap]
      exact isSide_iff.2 hfu
    · exfalso
      obtain ⟨f, hf, -, hfu, -⟩ := hdu j hj
      refine (hends _ hg1).2.2.2.1 f (List.mem_of_getElem? hf) ?_
      rw [e, e2, Prod.swap_swap]
      exact isSide_iff.2 hfu
    · rw [← e] at hg2
      exact huu_eq i hi j hj (gap_same' honce2 hg1 hg2)
  · intro i hi
    obtain ⟨hlt, ⟨e1, hng1, -⟩ | hh⟩ := hnext i hi
    · exact .inl ⟨e1, hng1⟩
    · exact .inr hh
  · intro g hg
    obtain ⟨hgu, -, -, -, ⟨f, hf, hfs'⟩, -⟩ := hends g hg
    obtain ⟨j, hj⟩ := List.getElem?_of_mem hf
    obtain ⟨b, hb, hbj⟩ := hface j f hj (crosses_of_up (isSide_iff.1 hfs') hgu (htip f hf))
    refine ⟨b, hb, ?_⟩
    obtain ⟨fb, hfb, -, hub, -, huub, -⟩ := hdu b hb
    rw [hbj, hj] at hfb
    cases hfb
    exact up_unique hub (isSide_iff.1 hfs') huub hgu
  · intro i hi j hj hg
    obtain ⟨hlt, ⟨-, hng, -⟩ | ⟨hg', -⟩⟩ := hnext i hi
    · exact absurd (hends _ hg).2.2.1 hng
    · exact hdd_eq j hj _ hlt (gap_same honce1 hg hg')
  · intro i hi hng
    obtain ⟨hlt, ⟨e1, -, hfo⟩ | ⟨-, hl⟩⟩ := hnext i hi
    · exact hfo
    · exact absurd hl hng


/-- At most one of the gaps is wide. -/
theorem pairwise_one {α : Type} {P : α → Prop} {l : List α} (h : l.Pairwise fun g g' => ¬ (P g ∧ P g')) {g g' : α} (hg : g ∈ l) (hg' : g' ∈ l) (hp : P g) (hp' : P g') : g = g' := by
  obtain ⟨k, h1, rfl⟩ := List.mem_iff_getElem.1 hg
  obtain ⟨k', h2, rfl⟩ := List.mem_iff_getElem.1 hg'
  rw [List.pairwise_iff_getElem] at h
  rcases lt_trichotomy k k' with hlt | e | hlt
  · exact absurd ⟨hp, hp'⟩ (h k k' h1 h2 hlt)
  · simp only [e]
  · exact absurd ⟨hp', hp⟩ (h k' k h2 h1 hlt)

theorem zmod2_eq {x y : ZMod 2} (h : x = 1 ↔ y = 1) : x = y := by
  revert x y
  decide

theorem countP_cross {z : Int} {q : ℚ × ℚ} (gaps : List Gap) : ((gaps.countP fun g => decide (RayCrosses q (meetPoint z g.1) (meetPoint z g.2)) : Nat) : ZMod 2) =
    (gaps.map fun g => cross2 q (meetPoint z g.1) (meetPoint z g.2)).sum := by
  induction gaps with
  | nil => rfl
  | cons g gaps ih =>
    rw [List.countP_cons, Nat.cast_add, ih, List.map_cons, List.sum_cons, add_comm]
    congr 1
    unfold cross2
    by_cases hr : RayCrosses q (meetPoint z g.1) (meetPoint z g.2) <;> simp [hr]

/-- **C146** A model with holes. The outlines of a layer are the cuts of the faces, closed by straight lines over the gaps which are not wider than the finish snap distance.
If a gap is wider than that and the join distance, the whole outline is lost. With the lost outline and those which are too short, the outlines enclose the points inside of the cuts which are closed in this way. -/
theorem C146_outlines (o : Options) (m : Mesh) (om : OptModel) (hom : optimize o m = .ok om) (fs : List (Tri Vec3)) (gaps : List Gap) (hfs : om.faces.mapM om.facePoints = .ok fs)
    (hmeld : 2 ≤ o.slicing.meldDistance) (hjoin : 2 ≤ o.slicing.joinPolygonSnapDistance) (hsmall : o.slicing.joinPolygonSnapDistance < 2 ^ 26) (ht : 0 < o.print.layerThickness)
    (layers : List (Option SliceLayer)) (h : sliceSegments o om = .ok layers) (n : Nat) (layer : SliceLayer) (hn : layers[n]? = some (some layer))
    (hm : HolesAt o (layerHeight o n) gaps fs) :
    ∃ paths short lost, makePolygons o om layer = .ok paths ∧ (∀ p ∈ short, pathLength p ≤ o.slicing.finishPolygonSnapDistance) ∧ lost.length ≤ 1 ∧
      (∀ d : ℚ, Narrow d (layerHeight o n) gaps → d + 4 ≤ o.slicing.finishPolygonSnapDistance → lost = []) ∧
      (∀ d : ℚ, o.slicing.joinPolygonSnapDistance + 4 ≤ d → o.slicing.finishPolygonSnapDistance + 4 ≤ d → (∃ g ∈ gaps, g.Wider d (layerHeight o n)) → lost.length = 1) ∧
      (∀ p ∈ lost, ∃ g ∈ gaps, ∃ x ∈ p, OnSide (layerHeight o n) g.1 x) ∧
      (∀ q, FarFromSurface 2 fs (layerHeight o n) q → FarFromGaps 2 gaps (layerHeight o n) q → (InsidePaths (paths ++ short ++ lost) q ↔ InsideClosed gaps fs (layerHeight o n) q)) ∧
      (∀ D q, 0 ≤ D → FarFromSurface (D + 2) fs (layerHeight o n) q → FarFromGaps (D + 2) gaps (layerHeight o n) q → ∀ p ∈ paths ++ short ++ lost, FarFromPath D p q) ∧
      (∀ p ∈ paths ++ short ++ lost, ∀ x ∈ p, ∃ f ∈ fs, ∃ s ∈ faceSides f, (Down (layerHeight o n) s ∨ Up (layerHeight o n) s) ∧ OnSide (layerHeight o n) s x) ∧
      ∀ p ∈ paths ++ short ++ lost, p.length ≤ 2 * cutFaces (layerHeight o n) fs := by
  have hcount : layer.segments.length = cutFaces (layerHeight o n) fs := segments_cut hfs ht h hn
  obtain ⟨d, u, next, hl⟩ := hole_links o m om hom fs gaps hfs hmeld ht layers h n layer hn hm.toOpenAt
  have hgood := goodLayer_of h ht hn
  obtain ⟨h1, -, -⟩ := C53_segments o om layers h ht fs hfs n layer hn
  change layer.segments.map SliceSegment.faceIndex = (List.range fs.length).filter (fun i => (fs[i]?).any fun f => decide (Crosses (layerHeight o n) f)) at h1
  obtain ⟨⟨-, htip, hends, -, ⟨honce1, -⟩, hspread, hbut⟩, hwide⟩ := hm
  have hloose : ∀ g ∈ gaps, Loose fs g.1 := fun g hg => (hends g hg).2.2.1
  generalize layerHeight o n = z at *
  have hseg : ∀ i (hi : i < layer.segments.length), segAt layer i = layer.segments[i] := by
    intro i hi
    unfold segAt
    rw [List.getD_eq_getElem?_getD, List.getElem?_eq_getElem hi]; rfl
  have hS : ∀ i < layer.segments.length, NearPt 2 (exactPt (segAt layer i).start) (meetPoint z (d i)) := fun i hi => by
    obtain ⟨-, -, -, -, -, -, ho, -⟩ := hl.seg i hi; exact near_of_onSide ho
  have hF : ∀ i < layer.segments.length, NearPt 2 (exactPt (segAt layer i).finish) (meetPoint z (u i)) := fun i hi => by
    obtain ⟨-, -, -, -, -, -, -, ho⟩ := hl.seg i hi; exact near_of_onSide ho
  have hmu : ∀ i < layer.segments.length, meetPoint z (u i).swap = meetPoint z (u i) := fun i hi => by
    obtain ⟨-, -, -, -, -, huu, -⟩ := hl.seg i hi
    exact meetPoint_swap (by unfold Up at huu; omega)
  have hmd : ∀ i < layer.segments.length, meetPoint z (d i).swap = meetPoint z (d i) := fun i hi => by
    obtain ⟨-, -, -, -, hdd, -⟩ := hl.seg i hi
    exact meetPoint_swap (by unfold Down at hdd; omega)
  have hapart : ∀ {c : Int} {i j : Nat}, i < layer.segments.length → j < layer.segments.length → Within (segAt layer i).finish (segAt layer j).start c →
      NearPt (c + 4) (meetPoint z (u i)) (meetPoint z (d j)) := fun hi hj hw =>
    (((hF _ hi).symm.trans (near_of_within hw)).trans (hS _ hj)).mono (by linarith)
  have hfl : ∀ {i j : Nat}, Spec.Follows o.slicing.meldDistance om layer i j → i < layer.segments.length ∧ j < layer.segments.length ∧
      Within (segAt layer i).finish (segAt layer j).start o.slicing.meldDistance := by
    rintro i j ⟨s, s', -, hs, hs', -, -, hw⟩
    obtain ⟨hi, rfl⟩ := List.getElem?_eq_some_iff.1 hs
    obtain ⟨hj, rfl⟩ := List.getElem?_eq_some_iff.1 hs'
    exact ⟨hi, hj, by rw [hseg i hi, hseg j hj]; exact hw⟩
  have hfol : ∀ i j, Spec.Follows o.slicing.meldDistance om layer i j → j = next i ∧ ¬ Loose fs (u i) := by
    intro i j hf
    obtain ⟨hi, hj, hw⟩ := hfl hf
    obtain ⟨f, hfi, -, hfu, -, huu, -⟩ := hl.seg i hi
    obtain ⟨g, hgj, hgd, -, hdd, -⟩ := hl.seg j hj
    refine hl.same i hi j hj ?_
    by_contra hne
    exact hspread f (List.mem_of_getElem? hfi) g (List.mem_of_getElem? hgj) _ (isSide_iff.2 hfu) _ (isSide_iff.2 hgd) huu hdd hne (hapart hi hj hw)
  have hnogap : ∀ i < layer.segments.length, ¬ Loose fs (u i) → d (next i) = (u i).swap := by
    intro i hi hng
    rcases hl.step i hi with ⟨e, -⟩ | ⟨-, hgu⟩
    · exact e
    · exact absurd hgu hng
  have hgapof : ∀ i < layer.segments.length, Loose fs (u i) → (u i, d (next i)) ∈ gaps := by
    intro i hi hg
    rcases hl.step i hi with ⟨-, e⟩ | ⟨hg, -⟩
    · contradiction
    · exact hg
  -- at most one gap is wide
  have hwideof : ∀ (c : Int) i, min o.slicing.joinPolygonSnapDistance o.slicing.finishPolygonSnapDistance ≤ c → i < layer.segments.length → Loose fs (u i) →
      ¬ Within (segAt layer i).finish (segAt layer (next i)).start c →
      Gap.Wider ((min o.slicing.joinPolygonSnapDistance o.slicing.finishPolygonSnapDistance : Int) - 4) z (u i, d (next i)) := by
    intro c i hc hi hg hnw hn
    have hcq : ((min o.slicing.joinPolygonSnapDistance o.slicing.finishPolygonSnapDistance : Int) : ℚ) ≤ c := by exact_mod_cast hc
    exact hnw (within_of_nearPt (((hF i hi).trans hn).trans (hS _ (hl.lt i hi)).symm) (by linarith))
  have hone : ∀ (c c' : Int) i j, min o.slicing.joinPolygonSnapDistance o.slicing.finishPolygonSnapDistance ≤ c → min o.slicing.joinPolygonSnapDistance o.slicing.finishPolygonSnapDistance ≤ c' →
      i < layer.segments.length → j < layer.segments.length → Loose fs (u i) → Loose fs (u j) → ¬ Within (segAt layer i).finish (segAt layer (next i)).start c →
      ¬ Within (segAt layer j).finish (segAt layer (next j)).start c' → i = j := by
    intro c c' i j hc hc' hi hj hgi hgj hwi hwj
    have hw := hwideof c i hc hi hgi hwi
    have hw' := hwideof c' j hc' hj hgj hwj
    by_contra hne
    exact hne (hl.uinj i hi j hj (Prod.mk.inj (pairwise_one hwide (hgapof i hi hgi) (hgapof j hj hgj) hw hw')).1)
  have hnear' : ∀ i < layer.segments.length, ¬ Loose fs (u i) → Within (segAt layer i).finish (segAt layer (next i)).start o.slicing.joinPolygonSnapDistance := by
    intro i hi hng
    obtain ⟨f, hfi, -, hfu, -, huu, -, hoe⟩ := hl.seg i hi
    obtain ⟨g, hgj, hgd, -, hdd, -, hos, -⟩ := hl.seg _ (hl.lt i hi)
    rw [hnogap i hi hng, onSide_swap (by unfold Up at huu; simp only [Prod.fst_swap, Prod.snd_swap]; omega)] at hos
    exact within_of_near hjoin (near_near hoe.1 hos.1) (near_near hoe.2 hos.2)
  obtain ⟨kept, lost, hperm, hcyc, hpoly, hkept, hlost⟩ := gap_polygons o hgood (next := next) (E := fun i => Loose fs (u i)) hl.lt hl.inj
    (fun i hi j hj hwi hwj => hone _ _ i j (min_le_left _ _) (min_le_left _ _) hi hj (by by_contra hg; exact hwi (hnear' i hi hg)) (by by_contra hg; exact hwj (hnear' j hj hg)) hwi hwj)
    hfol hl.follows
    (by
      intro i hi j hj hw
      obtain ⟨f, hfi, -, hfu, -, huu, -⟩ := hl.seg i hi
      obtain ⟨g, hgj, hgd, -, hdd, -⟩ := hl.seg j hj
      by_cases e : d j = (u i).swap
      · exact (hl.same i hi j hj e).1
      by_cases e' : (u i, d j) ∈ gaps
      · exact hl.across i hi j hj e'
      · exact absurd (hapart hi hj hw)
          (hbut f (List.mem_of_getElem? hfi) g (List.mem_of_getElem? hgj) _ (isSide_iff.2 hfu) _ (isSide_iff.2 hgd) huu hdd e e'))
    hnear' hsmall
  have hlt : ∀ K ∈ kept ++ lost, ∀ i ∈ K.flatten, i < layer.segments.length := by
    intro K hK i hi
    apply List.mem_range.1 (hperm.mem_iff.1 _)
    rw [List.flatten_flatten]
    exact List.mem_flatten.2 ⟨_, List.mem_map.2 ⟨K, hK, rfl⟩, hi⟩
  have hnd : ((kept ++ lost).map List.flatten).flatten.Nodup := by
    have := hperm.symm.nodup List.nodup_range
    rwa [List.flatten_flatten] at this
  have hall : ∀ p, p ∈ ((kept.map (joinedPath layer)).filter fun p => decide (o.slicing.finishPolygonSnapDistance < pathLength p)) ++
      ((kept.map (joinedPath layer)).filter fun p => !decide (o.slicing.finishPolygonSnapDistance < pathLength p)) ++ lost.map (joinedPath layer) →
      ∃ K ∈ kept ++ lost, p = joinedPath layer K := by
    intro p hp
    rw [List.mem_append, List.mem_append, List.mem_filter, List.mem_filter] at hp
    rcases hp with (⟨hp, -⟩ | ⟨hp, -⟩) | hp
    · obtain ⟨K, hK, rfl⟩ := List.mem_map.1 hp
      exact ⟨K, List.mem_append_left _ hK, rfl⟩
    · obtain ⟨K, hK, rfl⟩ := List.mem_map.1 hp
      exact ⟨K, List.mem_append_left _ hK, rfl⟩
    · obtain ⟨K, hK, rfl⟩ := List.mem_map.1 hp
      exact ⟨K, List.mem_append_right _ hK, rfl⟩
  have hlone : lost.length ≤ 1 := by
    match hlo : lost with
    | [] => simp
    | [_] => simp
    | K :: K' :: rest =>
      exfalso
      subst hlo
      obtain ⟨b, hb, hEb, hwb⟩ := hlost K (by simp)
      obtain ⟨b', hb', hEb', hwb'⟩ := hlost K' (by simp)
      have hbm := List.mem_of_getLast? hb
      have hbm' := List.mem_of_getLast? hb'
      obtain rfl := hone _ _ b b' (min_le_right _ _) (min_le_right _ _) (hlt K (by simp) b hbm) (hlt K' (by simp) b' hbm') hEb hEb' hwb hwb'
      have := chains_disjoint hnd (i := kept.length) (k := kept.length + 1) (c := K.flatten) (d := K'.flatten) (by simp) (by simp) hbm hbm'
      omega
  -- the lines of the cross-section
  have hfarSeg : ∀ D q, FarFromSurface D fs z q → ∀ i < layer.segments.length, FarFrom D (meetPoint z (d i)) (meetPoint z (u i)) q := by
    intro D q hq i hi
    obtain ⟨f, hf, hd, hu, hdd, huu, -⟩ := hl.seg i hi
    exact hq f (List.mem_of_getElem? hf) _ (isSide_iff.2 hd) _ (isSide_iff.2 hu) hdd huu
  have hfarGap : ∀ D q, FarFromSurface D fs z q → FarFromGaps D gaps z q → ∀ i < layer.segments.length, FarFrom D (meetPoint z (u i)) (meetPoint z (d (next i))) q := by
    intro D q hq hqg i hi
    by_cases hg : Loose fs (u i)
    · exact hqg (u i, d (next i)) (hgapof i hi hg)
    · have := farFrom_left (hfarSeg D q hq _ (hl.lt i hi))
      rwa [hnogap i hi hg, hmu i hi] at this ⊢
  refine ⟨_, (kept.map (joinedPath layer)).filter fun p => !decide (o.slicing.finishPolygonSnapDistance < pathLength p), lost.map (joinedPath layer), hpoly, ?_, ?_, ?_, ?_, ?_, ?_, ?_, ?_, ?_⟩
  · intro p hp
    have := (List.mem_filter.1 hp).2
    simpa using this
  · simpa using hlone
  · intro D hD hfin
    rw [List.map_eq_nil_iff, List.eq_nil_iff_forall_not_mem]
    intro K hK
    obtain ⟨b, hb, hEb, hnw⟩ := hlost K hK
    have hbl := hlt K (List.mem_append_right _ hK) b (List.mem_of_getLast? hb)
    have := hD (u b, d (next b)) (hgapof b hbl hEb)
    exact hnw (within_of_nearPt (((hF b hbl).trans this).trans (hS _ (hl.lt b hbl)).symm) (by linarith))
  · rintro D hDj hDf ⟨g, hg, hD⟩
    rw [List.length_map]
    obtain ⟨i, hi, hgi⟩ := hl.back g hg
    have him : i ∈ ((kept ++ lost).map List.flatten).flatten := by
      rw [← List.flatten_flatten]
      exact hperm.mem_iff.2 (List.mem_range.2 hi)
    obtain ⟨c, hcm, hic⟩ := List.mem_flatten.1 him
    obtain ⟨K, hK, rfl⟩ := List.mem_map.1 hcm
    rcases List.mem_append.1 hK with hK | hK
    · exfalso
      have hli : Loose fs (u i) := by rw [hgi]; exact hloose g hg
      have e : g = (u i, d (next i)) := List.inj_on_of_nodup_map honce1 hg (hgapof i hi hli) hgi.symm
      rw [e] at hD
      rcases hkept K hK i hic hli with hw | hw
      · exact hD ((hapart hi (hl.lt i hi) hw).mono hDj)
      · exact hD ((hapart hi (hl.lt i hi) hw).mono hDf)
    · have := List.length_pos_of_mem hK
      omega
  · intro p hp
    obtain ⟨K, hK, rfl⟩ := List.mem_map.1 hp
    obtain ⟨b, hb, hEb, -⟩ := hlost K hK
    have hbl := hlt K (List.mem_append_right _ hK) b (List.mem_of_getLast? hb)
    obtain ⟨-, -, -, -, -, huu, -, hoe⟩ := hl.seg b hbl
    refine ⟨_, hgapof b hbl hEb, (segAt layer b).finish, ?_, hoe⟩
    have := (joined_ends (hlt K (List.mem_append_right _ hK)) fun c hc => ((hcyc K (List.mem_append_right _ hK)).chains c hc).1).2
    rw [hb, Option.map_some] at this
    exact List.mem_of_getLast? this
  · intro q hq hqg
    have hfar2 := hfarSeg 2 q hq
    have hpath : ∀ K ∈ kept ++ lost, pathCross q (joinedPath layer K) = (K.flatten.map fun i => cross2 q (exactPt (segAt layer i).start) (exactPt (segAt layer i).finish) +
        cross2 q (exactPt (segAt layer i).finish) (exactPt (segAt layer (next i)).start)).sum := by
      intro K hK
      refine cycle_cross (hcyc K hK) (hlt K hK) fun i j hf => ?_
      obtain ⟨hi, hj, -⟩ := hfl hf
      obtain ⟨rfl, hng⟩ := hfol i j hf
      obtain ⟨u', v', hside⟩ := separated (hfar2 _ hj)
      have s1 : Side u' v' q (exactPt (segAt layer i).finish) := hside _ 0 le_rfl zero_le_one (by rw [lineAt_zero, hnogap i hi hng, hmu i hi]; exact hF i hi)
      have s2 : Side u' v' q (exactPt (segAt layer (next i)).start) := hside _ 0 le_rfl zero_le_one (by rw [lineAt_zero]; exact hS _ hj)
      have s3 : Side u' v' q (exactPt (segAt layer (next i)).finish) := hside _ 1 zero_le_one le_rfl (by rw [lineAt_one]; exact hF _ hj)
      exact (cross2_tri s1 s2 s3).symm
    have hsum := gap_crossings (q := q) hl.lt hl.inj hS hF hfar2 (hfarGap 2 q hq hqg)
    rw [insidePaths_iff, List.map_append, List.sum_append, sum_parts, ← List.sum_append, ← List.map_append, ← List.map_append, List.map_map]
    have e1 : (kept ++ lost).map (pathCross q ∘ joinedPath layer) = (kept ++ lost).map fun K =>
        (K.flatten.map fun i => cross2 q (exactPt (segAt layer i).start) (exactPt (segAt layer i).finish) +
          cross2 q (exactPt (segAt layer i).finish) (exactPt (segAt layer (next i)).start)).sum := List.map_congr_left fun K hK => hpath K hK
    have e2 : ((kept ++ lost).map fun K => (K.flatten.map fun i => cross2 q (exactPt (segAt layer i).start) (exactPt (segAt layer i).finish) +
          cross2 q (exactPt (segAt layer i).finish) (exactPt (segAt layer (next i)).start)).sum).sum =
        ((List.range layer.segments.length).map fun i => cross2 q (exactPt (segAt layer i).start) (exactPt (segAt layer i).finish) +
          cross2 q (exactPt (segAt layer i).finish) (exactPt (segAt layer (next i)).start)).sum := by
      rw [← (hperm.map _).sum_eq, List.flatten_flatten, List.map_flatten, List.sum_flatten, List.map_map, List.map_map]
      rfl
    have i1 : ((fs.countP fun f => decide (RayHits z q f) : Nat) : ZMod 2) = ((List.range layer.segments.length).map fun i => cross2 q (meetPoint z (d i)) (meetPoint z (u i))).sum := by
      have : InsideSolid fs z q ↔ ((List.range layer.segments.length).map fun i => cross2 q (meetPoint z (d i)) (meetPoint z (u i))).sum = 1 := by
        rw [insideSolid_iff htip (idx := fun i : Fin layer.segments.length => (segAt layer i).faceIndex) (d := fun i => d i) (u := fun i => u i)]
        · rw [Fin.sum_univ_def, ← List.map_coe_finRange_eq_range, List.map_map]
          rfl
        · rw [← h1]
          refine List.ext_getElem (by simp) fun k hk hk' => ?_
          rw [List.getElem_ofFn, List.getElem_map]
          rw [hseg k (by simpa using hk')]
        · intro i
          obtain ⟨f, hf, hd, hu, hdd, huu, -⟩ := hl.seg i i.2
          exact ⟨f, hf, hd, hu, hdd, huu⟩
      unfold InsideSolid at this
      rw [← ZMod.natCast_eq_one_iff_odd] at this
      exact zmod2_eq this
    have i2 : ((gaps.countP fun g => decide (RayCrosses q (meetPoint z g.1) (meetPoint z g.2)) : Nat) : ZMod 2) =
        ((List.range layer.segments.length).map fun i => cross2 q (meetPoint z (u i)) (meetPoint z (d (next i)))).sum := by
      rw [countP_cross]
      change _ = (Finset.range layer.segments.length).sum (fun i => cross2 q (meetPoint z (u i)) (meetPoint z (d (next i))))
      classical
      rw [← List.sum_toFinset _ (List.Nodup.of_map _ honce1), ← Finset.sum_filter_add_sum_filter_not (Finset.range layer.segments.length) (fun i => Loose fs (u i)),
        Finset.sum_eq_zero (s := (Finset.range layer.segments.length).filter fun i => ¬ Loose fs (u i)) (fun i hi => by
          rw [Finset.mem_filter, Finset.mem_range] at hi
          rw [hnogap i hi.1 hi.2, hmu i hi.1]
          exact cross2_self _ _), add_zero]
      symm
      refine Finset.sum_nbij (fun i => (u i, d (next i))) ?_ ?_ ?_ ?_
      · intro i hi
        rw [Finset.mem_filter, Finset.mem_range] at hi
        exact List.mem_toFinset.2 (hgapof i hi.1 hi.2)
      · intro i hi j hj e
        rw [Finset.mem_coe, Finset.mem_filter, Finset.mem_range] at hi hj
        exact hl.uinj i hi.1 j hj.1 (Prod.mk.inj e).1
      · intro g hg
        rw [Finset.mem_coe, List.mem_toFinset] at hg
        obtain ⟨i, hi, hgi⟩ := hl.back g hg
        have hli : Loose fs (u i) := by rw [hgi]; exact hloose g hg
        refine ⟨i, ?_, (List.inj_on_of_nodup_map honce1 hg (hgapof i hi hli) hgi.symm).symm⟩
        rw [Finset.mem_coe, Finset.mem_filter, Finset.mem_range]
        exact ⟨hi, hli⟩
      · exact fun i _ => rfl
    rw [e1, e2, hsum, InsideClosed, ← ZMod.natCast_eq_one_iff_odd, Nat.cast_add, i1, i2]
  · intro D q hD hq hqg p hp
    obtain ⟨K, hK, rfl⟩ := hall p hp
    have := cycle_sides (hcyc K hK) (hlt K hK) (Q := fun x y => FarFrom D (exactPt x) (exactPt y) q)
      (fun i hi => farFrom_near hD (hS i hi) (hF i hi) (hfarSeg _ q hq i hi))
      (fun i j hf => by
        obtain ⟨hi, hj, -⟩ := hfl hf
        obtain ⟨rfl, hng⟩ := hfol i j hf
        refine farFrom_near hD ?_ (hF _ hj) (hfarSeg _ q hq _ hj)
        rw [hnogap i hi hng, hmu i hi]
        exact hF i hi)
      (fun i hi => farFrom_near hD (hF i hi) (hS _ (hl.lt i hi)) (hfarGap _ q hq hqg i hi))
    exact this
  · intro p hp x hx
    obtain ⟨K, hK, rfl⟩ := hall p hp
    obtain ⟨i, hi, hx⟩ := joined_points (hlt K hK) hx
    obtain ⟨f, hf, hd, hu, hdd, huu, ho, ho'⟩ := hl.seg i hi
    rcases hx with rfl | rfl
    · exact ⟨f, List.mem_of_getElem? hf, _, isSide_iff.2 hd, .inl hdd, ho⟩
    · exact ⟨f, List.mem_of_getElem? hf, _, isSide_iff.2 hu, .inr huu, ho'⟩
  · intro p hp
    obtain ⟨K, hK, rfl⟩ := hall p hp
    have e1 := joined_length (layer := layer) K fun c hc => ((hcyc K hK).chains c hc).1
    have e2 : K.flatten.length ≤ ((kept ++ lost).map List.flatten).flatten.length := (List.sublist_flatten_of_mem (List.mem_map.2 ⟨K, hK, rfl⟩)).length_le
    have e3 := hperm.length_eq
    rw [List.flatten_flatten, List.length_range] at e3
    omega


/-- A short outline does not enclose a point which is far from its corners. -/
theorem short_corners {d : Int} (hd : d < 2 ^ 26 - 1) {p : Path} (hp : pathLength p ≤ d) {q : ℚ × ℚ} (hq : ∀ x ∈ p, FarFrom (2 * max 0 d) (exactPt x) (exactPt x) q) : pathCross q p = 0 := by
  cases p with
  | nil => rfl
  | cons a l =>
    obtain ⟨u, v, hside⟩ := separated (hq a List.mem_cons_self)
    apply pathCross_side (u := u) (v := v)
    intro x hx
    apply hside _ 0 le_rfl zero_le_one
    rw [lineAt_zero]
    refine (pathLength_near hd _ _ hp x hx).mono ?_
    have : (d : ℚ) ≤ ((max 0 d : Int) : ℚ) := by exact_mod_cast le_max_right _ _
    linarith

theorem farFrom_right {d : ℚ} {a b q : ℚ × ℚ} (h : FarFrom d a b q) : FarFrom d b b q := by
  intro t _ _
  have := h 1 zero_le_one le_rfl
  simpa using this

/-- A face which goes through the plane has one side going down and one going up. -/
theorem face_cuts (z : Int) (f : Tri Vec3) : ((faceSides f).filter (fun s => decide (Down z s)) = [] ∧ (faceSides f).filter (fun s => decide (Up z s)) = []) ∨
    ∃ d u, (faceSides f).filter (fun s => decide (Down z s)) = [d] ∧ (faceSides f).filter (fun s => decide (Up z s)) = [u] := by
  unfold faceSides Down Up
  by_cases ha : z ≤ f.a.z <;> by_cases hb : z ≤ f.b.z <;> by_cases hc : z ≤ f.c.z <;>
    simp [ha, hb, hc, not_lt.2, lt_of_not_ge]

theorem down_of_up {z : Int} {f : Tri Vec3} {s : Vec3 × Vec3} (hs : s ∈ faceSides f) (hu : Up z s) : ∃ d ∈ faceSides f, Down z d := by
  rcases face_cuts z f with ⟨-, h1⟩ | ⟨d, u, h1, -⟩
  · have : s ∈ (faceSides f).filter (fun s => decide (Up z s)) := List.mem_filter.2 ⟨hs, by simpa using hu⟩
    rw [h1] at this
    cases this
  · have : d ∈ (faceSides f).filter (fun s => decide (Down z s)) := by rw [h1]; simp
    obtain ⟨a, b⟩ := List.mem_filter.1 this
    exact ⟨d, a, by simpa using b⟩

theorem up_of_down {z : Int} {f : Tri Vec3} {s : Vec3 × Vec3} (hs : s ∈ faceSides f) (hd : Down z s) : ∃ u ∈ faceSides f, Up z u := by
  rcases face_cuts z f with ⟨h1, -⟩ | ⟨d, u, -, h2⟩
  · have : s ∈ (faceSides f).filter (fun s => decide (Down z s)) := List.mem_filter.2 ⟨hs, by simpa using hd⟩
    rw [h1] at this
    cases this
  · have : u ∈ (faceSides f).filter (fun s => decide (Up z s)) := by rw [h2]; simp
    obtain ⟨a, b⟩ := List.mem_filter.1 this
    exact ⟨u, a, by simpa using b⟩

/-- A point which is far from the surface is far from the corners of the outlines. -/
theorem far_corner {D : ℚ} (hD : 0 ≤ D) {fs : List (Tri Vec3)} {z : Int} {q : ℚ × ℚ} (hq : FarFromSurface (D + 2) fs z q) {x : Pt}
    (hx : ∃ f ∈ fs, ∃ s ∈ faceSides f, (Down z s ∨ Up z s) ∧ OnSide z s x) : FarFrom D (exactPt x) (exactPt x) q := by
  obtain ⟨f, hf, s, hs, hz, hon⟩ := hx
  have hn := near_of_onSide hon
  refine farFrom_near hD hn hn ?_
  rcases hz with hz | hz
  · obtain ⟨u, hu, huu⟩ := up_of_down hs hz
    exact farFrom_left (hq f hf s hs u hu hz huu)
  · obtain ⟨d, hd, hdd⟩ := down_of_up hs hz
    exact farFrom_right (hq f hf d hd s hs hdd hz)

theorem short_zero {d : Int} (hd : d < 2 ^ 26 - 1) {short : Paths} (hs : ∀ p ∈ short, pathLength p ≤ d) {q : ℚ × ℚ}
    (hq : ∀ p ∈ short, ∀ x ∈ p, FarFrom (2 * max 0 d) (exactPt x) (exactPt x) q) : (short.map (pathCross q)).sum = 0 := by
  apply List.sum_eq_zero
  intro x hx
  obtain ⟨p, hp, rfl⟩ := List.mem_map.1 hx
  exact short_corners hd (hs p hp) (hq p hp)

/-- **C146** If the gaps are at most as wide as the finish snap distance (less 4 µm), the outlines of the layer enclose the points inside of the cuts of the faces which are closed by lines over the gaps. -/
theorem C146_repaired (o : Options) (m : Mesh) (om : OptModel) (hom : optimize o m = .ok om) (fs : List (Tri Vec3)) (gaps : List Gap) (hfs : om.faces.mapM om.facePoints = .ok fs)
    (hmeld : 2 ≤ o.slicing.meldDistance) (hjoin : 2 ≤ o.slicing.joinPolygonSnapDistance) (hsmall : o.slicing.joinPolygonSnapDistance < 2 ^ 26) (ht : 0 < o.print.layerThickness)
    (hfin : o.slicing.finishPolygonSnapDistance < 2 ^ 26 - 1)
    (layers : List (Option SliceLayer)) (h : sliceSegments o om = .ok layers) (n : Nat) (layer : SliceLayer) (hn : layers[n]? = some (some layer))
    (hm : HolesAt o (layerHeight o n) gaps fs) (hgap : Narrow (o.slicing.finishPolygonSnapDistance - 4) (layerHeight o n) gaps) :
    ∃ paths, makePolygons o om layer = .ok paths ∧ ∀ q, FarEnough o fs n q → FarFromGaps 2 gaps (layerHeight o n) q → (InsidePaths paths q ↔ InsideClosed gaps fs (layerHeight o n) q) := by
  obtain ⟨paths, short, lost, hp, hs, -, hw, -, -, hin, -, hon, -⟩ := C146_outlines o m om hom fs gaps hfs hmeld hjoin hsmall ht layers h n layer hn hm
  obtain rfl := hw _ hgap (by linarith)
  simp only [List.append_nil] at hin hon
  refine ⟨paths, hp, fun q hq hqg => ?_⟩
  have hD : (0 : ℚ) ≤ ((max 0 o.slicing.finishPolygonSnapDistance : Int) : ℚ) := by exact_mod_cast le_max_left _ _
  rw [← hin q (farFromSurface_mono hq (by norm_num) (by linarith)) hqg, insidePaths_iff, insidePaths_iff, List.map_append, List.sum_append,
    short_zero hfin hs fun p hp x hx => far_corner (by linarith) hq (hon p (List.mem_append_right _ hp) x hx), add_zero]

/-- **C146** If a gap is wider than the join and the finish snap distance (and 4 µm), one outline is missing: the one which ends at the hole. The other outlines
enclose the points which are inside of the closed cuts, but not of this outline, or the other way around. -/
theorem C146_lost (o : Options) (m : Mesh) (om : OptModel) (hom : optimize o m = .ok om) (fs : List (Tri Vec3)) (gaps : List Gap) (hfs : om.faces.mapM om.facePoints = .ok fs)
    (hmeld : 2 ≤ o.slicing.meldDistance) (hjoin : 2 ≤ o.slicing.joinPolygonSnapDistance) (hsmall : o.slicing.joinPolygonSnapDistance < 2 ^ 26) (ht : 0 < o.print.layerThickness)
    (hfin : o.slicing.finishPolygonSnapDistance < 2 ^ 26 - 1)
    (layers : List (Option SliceLayer)) (h : sliceSegments o om = .ok layers) (n : Nat) (layer : SliceLayer) (hn : layers[n]? = some (some layer))
    (hm : HolesAt o (layerHeight o n) gaps fs) (hgap : ∃ g ∈ gaps, g.Wider (max o.slicing.joinPolygonSnapDistance o.slicing.finishPolygonSnapDistance + 4) (layerHeight o n)) :
    ∃ paths p, makePolygons o om layer = .ok paths ∧ (∃ g ∈ gaps, ∃ x ∈ p, OnSide (layerHeight o n) g.1 x) ∧
      ∀ q, FarEnough o fs n q → FarFromGaps 2 gaps (layerHeight o n) q → (InsidePaths paths q ↔ ¬ (Encloses p q ↔ InsideClosed gaps fs (layerHeight o n) q)) := by
  obtain ⟨paths, short, lost, hp, hs, -, -, hw, hend, hin, -, hon, -⟩ := C146_outlines o m om hom fs gaps hfs hmeld hjoin hsmall ht layers h n layer hn hm
  obtain ⟨p, rfl⟩ := List.length_eq_one_iff.1 (hw _ (add_le_add_left (by exact_mod_cast le_max_left _ _) 4) (add_le_add_left (by exact_mod_cast le_max_right _ _) 4) hgap)
  refine ⟨paths, p, hp, hend p (by simp), fun q hq hqg => ?_⟩
  have hD : (0 : ℚ) ≤ ((max 0 o.slicing.finishPolygonSnapDistance : Int) : ℚ) := by exact_mod_cast le_max_left _ _
  have hpq : Encloses p q ↔ pathCross q p = 1 := by
    have := insidePaths_iff [p] q
    unfold InsidePaths at this
    by_cases he : Encloses p q <;> simp [he] at this ⊢ <;> exact this
  rw [← hin q (farFromSurface_mono hq (by norm_num) (by linarith)) hqg, insidePaths_iff, insidePaths_iff, hpq, List.map_append, List.sum_append, List.map_append, List.sum_append,
    short_zero hfin hs fun p hp x hx => far_corner (by linarith) hq (hon p (List.mem_append_left _ (List.mem_append_right _ hp)) x hx), add_zero, List.map_singleton, List.sum_singleton]
  generalize (paths.map (pathCross q)).sum = a
  generalize pathCross q p = b
  revert a b
  decide

end Verif
