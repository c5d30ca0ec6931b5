import Verif.Spec.Missing
import Verif.Props.Gaps
import Verif.Props.Bodies
import Verif.Props.CutsWell

/-! # Models with missing triangles (C139) -/
namespace Verif
open Verif.Go Verif.Model Verif.Spec

theorem crosses_sides {z : Int} {f : Tri Vec3} (h : Crosses z f) : ∃ d u, IsSide f d ∧ Down z d ∧ IsSide f u ∧ Up z u := by
  obtain ⟨t, p, q, ht, -⟩ := C52_segment z f h
  obtain ⟨-, d, u, h1, h2, h3, h4, -⟩ := sliceCase_some ht
  exact ⟨d, u, h1, h2, h3, h4⟩

theorem crosses_of_up {z : Int} {f : Tri Vec3} {s : Vec3 × Vec3} (h : IsSide f s) (hd : Up z s)
    (ht : ¬ (belowCount z f = 2 ∧ ∃ p ∈ f.corners, p.z = z)) : Crosses z f := by
  have hc : belowCount z f = 1 ∨ belowCount z f = 2 := by
    unfold belowCount Up at *
    simp only [Tri.corners, List.countP_cons, List.countP_nil, decide_eq_true_eq]
    rcases h with rfl | rfl | rfl <;> simp only at hd <;> (split <;> split <;> split) <;> omega
  rcases hc with hc | hc
  · exact .inl hc
  · refine .inr ⟨hc, fun p hp e => ht ⟨hc, p, hp, e⟩⟩

/-- A directed side belongs to only one face of a closed surface. -/
theorem side_owner {F : List (Tri Vec3)} (hclosed : ClosedSurface F) (hproper : ∀ f ∈ F, Proper f) {k k' : Nat} {f f' : Tri Vec3} {s : Vec3 × Vec3} (hk : F[k]? = some f)
    (hk' : F[k']? = some f') (hs : IsSide f s) (hs' : IsSide f' s) : k' = k := by
  obtain ⟨j, g, hjk, hgj, hgs, honly⟩ := hclosed k f s hk hs
  rcases honly k' f' hk' (isSide_hasSide hs') with e | e
  · exact e
  · exfalso
    rw [e, hgj] at hk'
    cases hk'
    exact isSide_not_both (hproper _ (List.mem_of_getElem? hgj)) hs' hgs

/-- At most one of the missing faces leaves a wide gap. -/
theorem wide_one {P : Tri Vec3 → Prop} {gs : List (Tri Vec3)} (h : gs.Pairwise fun g g' => ¬ (P g ∧ P g')) {k k' : Nat} {g g' : Tri Vec3} (hk : gs[k]? = some g) (hk' : gs[k']? = some g')
    (hg : P g) (hg' : P g') : k = k' := by
  obtain ⟨h1, rfl⟩ := List.getElem?_eq_some_iff.1 hk
  obtain ⟨h2, rfl⟩ := List.getElem?_eq_some_iff.1 hk'
  rw [List.pairwise_iff_getElem] at h
  rcases lt_trichotomy k k' with hlt | e | hlt
  · exact absurd ⟨hg, hg'⟩ (h k k' h1 h2 hlt)
  · exact e
  · exact absurd ⟨hg', hg⟩ (h k' k h2 h1 hlt)

/-- The other side of the missing face which the segment ends at. -/
def AtGap (gs : List (Tri Vec3)) (s : Vec3 × Vec3) : Prop := ∃ g ∈ gs, IsSide g s.swap

/-- The links between the segments of a layer. -/
structure Links (z : Int) (gs fs : List (Tri Vec3)) (om : OptModel) (meld : Int) (layer : SliceLayer) (d u : Nat → Vec3 × Vec3) (next : Nat → Nat) : Prop where
  seg : ∀ i < layer.segments.length, ∃ f, fs[(segAt layer i).faceIndex]? = some f ∧ IsSide f (d i) ∧ IsSide f (u i) ∧ Down z (d i) ∧ Up z (u i) ∧
    OnSide z (d i) (segAt layer i).start ∧ OnSide z (u i) (segAt layer i).finish
  lt : ∀ i < layer.segments.length, next i < layer.segments.length
  inj : ∀ i < layer.segments.length, ∀ j < layer.segments.length, next i = next j → i = j
  step : ∀ i < layer.segments.length, d (next i) = (u i).swap ∧ ¬ AtGap gs (u i) ∨ ∃ g ∈ gs, Crosses z g ∧ IsSide g (u i).swap ∧ IsSide g (d (next i)).swap
  gap : ∀ i < layer.segments.length, ∀ j < layer.segments.length, ∀ g ∈ gs, IsSide g (u i).swap → IsSide g (u j).swap → i = j
  owner : ∀ (k k' : Nat) g g' s, gs[k]? = some g → gs[k']? = some g' → IsSide g s → IsSide g' s → k = k'
  back : ∀ g ∈ gs, Crosses z g → ∃ i < layer.segments.length, IsSide g (u i).swap
  same : ∀ i < layer.segments.length, ∀ j < layer.segments.length, d j = (u i).swap → j = next i ∧ ¬ AtGap gs (u i)
  across : ∀ i < layer.segments.length, ∀ j < layer.segments.length, (∃ g ∈ gs, IsSide g (u i).swap ∧ IsSide g (d j).swap) → j = next i
  follows : ∀ i < layer.segments.length, ¬ AtGap gs (u i) → Spec.Follows meld om layer i (next i)

theorem missing_links (o : Options) (m : Mesh) (om : OptModel) (hom : optimize o m = .ok om) (fs gs : List (Tri Vec3)) (hfs : om.faces.mapM om.facePoints = .ok fs)
    (hmeld : 2 ≤ o.slicing.meldDistance) (ht : 0 < o.print.layerThickness) (layers : List (Option SliceLayer)) (h : sliceSegments o om = .ok layers) (n : Nat) (layer : SliceLayer)
    (hn : layers[n]? = some (some layer)) (hm : MissingAt o (layerHeight o n) gs fs) :
    ∃ d u next, Links (layerHeight o n) gs fs om o.slicing.meldDistance layer d u next := by
  obtain ⟨h1, h2, h3⟩ := C53_segments o om layers h ht fs hfs n layer hn
  obtain ⟨hproper, -⟩ := C47_faces o m om hom fs hfs
  change layer.segments.map SliceSegment.faceIndex = (List.range fs.length).filter (fun i => (fs[i]?).any fun f => decide (Crosses (layerHeight o n) f)) at h1
  change ∀ seg ∈ layer.segments, ∃ f d u, fs[seg.faceIndex]? = some f ∧ IsSide f d ∧ IsSide f u ∧ Down (layerHeight o n) d ∧ Up (layerHeight o n) u ∧
    OnSide (layerHeight o n) d seg.start ∧ OnSide (layerHeight o n) u seg.finish at h2
  obtain ⟨hclosed, hgp, htip, hapart, -, -, -⟩ := hm
  generalize layerHeight o n = z at *
  have hlenf := (mapM_ok.1 hfs).length_eq
  have hprop : ∀ f ∈ gs ++ fs, Proper f := fun f hf => (List.mem_append.1 hf).elim (hgp f) (hproper f)
  have hseg : ∀ i (hi : i < layer.segments.length), segAt layer i = layer.segments[i] := by
    intro i hi
    unfold segAt
    rw [List.getD_eq_getElem?_getD, List.getElem?_eq_getElem hi]; rfl
  have hR : ∀ (i : Nat), (gs ++ fs)[gs.length + i]? = fs[i]? := fun i => by rw [List.getElem?_append_right (by omega)]; congr 1; omega
  have hL : ∀ (i : Nat) g, gs[i]? = some g → (gs ++ fs)[i]? = some g := fun i g hi => by
    rw [List.getElem?_append_left (List.getElem?_eq_some_iff.1 hi).1]; exact hi
  have hsegs : ∀ a : Nat, ∃ d u : Vec3 × Vec3, a < layer.segments.length → ∃ f, fs[(segAt layer a).faceIndex]? = some f ∧ IsSide f d ∧ IsSide f u ∧ Down z d ∧ Up z u ∧
      OnSide z d (segAt layer a).start ∧ OnSide z u (segAt layer a).finish := by
    intro a
    by_cases ha : a < layer.segments.length
    · obtain ⟨f, d, u, hh⟩ := h2 _ (List.getElem_mem ha)
      exact ⟨d, u, fun _ => ⟨f, by rw [hseg a ha]; exact hh⟩⟩
    · exact ⟨(⟨0, 0, 0⟩, ⟨0, 0, 0⟩), (⟨0, 0, 0⟩, ⟨0, 0, 0⟩), fun h => absurd h ha⟩
  choose d u hdu using hsegs
  -- the segment of a face
  have hfind : ∀ (j : Nat) g s, fs[j]? = some g → IsSide g s → Down z s → ∃ b < layer.segments.length, d b = s ∧ (segAt layer b).faceIndex = j := by
    intro j g s hg hs hds
    have hcross : Crosses z g := crosses_of_down hs hds (htip g (List.mem_append_right _ (List.mem_of_getElem? hg)))
    have hmem : j ∈ layer.segments.map SliceSegment.faceIndex := by
      rw [h1, List.mem_filter, List.mem_range]
      refine ⟨(List.getElem?_eq_some_iff.1 hg).1, ?_⟩
      rw [hg]
      simpa using hcross
    obtain ⟨sb, hsb, hsbj⟩ := List.mem_map.1 hmem
    obtain ⟨b, hb⟩ := List.getElem?_of_mem hsb
    obtain ⟨hbl, hbe⟩ := List.getElem?_eq_some_iff.1 hb
    have he : (segAt layer b).faceIndex = j := by rw [hseg b hbl, hbe, hsbj]
    refine ⟨b, hbl, ?_, he⟩
    obtain ⟨f, hf, hd, -, hdd, -⟩ := hdu b hbl
    rw [he, hg] at hf
    cases hf
    exact down_unique hd hs hdd hds
  have hidx : ∀ a < layer.segments.length, ∀ b < layer.segments.length, (segAt layer a).faceIndex = (segAt layer b).faceIndex → a = b := by
    intro a ha b hb e
    have m1 := (h3 (segAt layer a).faceIndex a).2 (by rw [List.getElem?_eq_getElem ha, hseg a ha]; rfl)
    have m2 := (h3 (segAt layer a).faceIndex b).2 (by rw [List.getElem?_eq_getElem hb, e, hseg b hb]; rfl)
    rw [m1, Option.some.injEq] at m2
    exact m2
  have hud : ∀ s : Vec3 × Vec3, Up z s → Down z s.swap := fun s h => ⟨h.1, h.2⟩
  have hdud : ∀ s : Vec3 × Vec3, Down z s → Up z s.swap := fun s h => ⟨h.1, h.2⟩
  -- two segments with the same side are the same
  have hdd_eq : ∀ a < layer.segments.length, ∀ b < layer.segments.length, d a = d b → a = b := by
    intro a ha b hb e
    obtain ⟨f, hf, hfd, -⟩ := hdu a ha
    obtain ⟨f', hf', hfd', -⟩ := hdu b hb
    rw [← hR] at hf hf'
    rw [← e] at hfd'
    have := side_owner hclosed hprop hf hf' hfd hfd'
    exact hidx a ha b hb (by omega)
  have huu_eq : ∀ a < layer.segments.length, ∀ b < layer.segments.length, u a = u b → a = b := by
    intro a ha b hb e
    obtain ⟨f, hf, -, hfd, -⟩ := hdu a ha
    obtain ⟨f', hf', -, hfd', -⟩ := hdu b hb
    rw [← hR] at hf hf'
    rw [← e] at hfd'
    have := side_owner hclosed hprop hf hf' hfd hfd'
    exact hidx a ha b hb (by omega)
  -- a side of a segment is not a side of a missing face in the same direction
  have hnot : ∀ (j : Nat) f g s, fs[j]? = some f → g ∈ gs → IsSide f s → IsSide g s → False := by
    intro j f g s hf hg hfs' hgs'
    obtain ⟨k, hk⟩ := List.getElem?_of_mem hg
    rw [← hR] at hf
    have := side_owner hclosed hprop hf (hL k g hk) hfs' hgs'
    have := (List.getElem?_eq_some_iff.1 hk).1
    omega
  have hgcross : ∀ g ∈ gs, ∀ s, IsSide g s → Down z s → Crosses z g := fun g hg s hs hds => crosses_of_down hs hds (htip g (List.mem_append_left _ hg))
  have howner : ∀ (k k' : Nat) g g' s, gs[k]? = some g → gs[k']? = some g' → IsSide g s → IsSide g' s → k = k' :=
    fun k k' g g' s hk hk' hs hs' => (side_owner hclosed hprop (hL k g hk) (hL k' g' hk') hs hs').symm
  have hgone : ∀ g ∈ gs, ∀ g' ∈ gs, ∀ s, IsSide g s → IsSide g' s → g = g' := by
    intro g hg g' hg' s hs hs'
    obtain ⟨k, hk⟩ := List.getElem?_of_mem hg
    obtain ⟨k', hk'⟩ := List.getElem?_of_mem hg'
    have := howner k k' g g' s hk hk' hs hs'
    rw [this, hk'] at hk
    cases hk
    rfl
  -- the partner of a side of the missing face is a face which is there
  have hpartner : ∀ g ∈ gs, Crosses z g → ∀ s, IsSide g s → (Down z s ∨ Up z s) → ∃ (j : Nat) (f : Tri Vec3), fs[j]? = some f ∧ IsSide f s.swap := by
    intro g hg hc s hs hz
    obtain ⟨k, hk⟩ := List.getElem?_of_mem hg
    obtain ⟨j, f, hjk, hfj, hfs', -⟩ := hclosed k g s (hL k g hk) hs
    by_cases hj : j < gs.length
    · exfalso
      rw [List.getElem?_append_left hj] at hfj
      exact hapart g hg f (List.mem_of_getElem? hfj) s (isSide_iff.2 hs) hz (isSide_iff.2 hfs')
    · refine ⟨j - gs.length, f, ?_, hfs'⟩
      rw [← hR, ← hfj]
      congr 1
      omega
  have hstep : ∀ a, ∃ b, a < layer.segments.length → b < layer.segments.length ∧
      ((d b = (u a).swap ∧ ¬ AtGap gs (u a) ∧ Spec.Follows o.slicing.meldDistance om layer a b) ∨ ∃ g ∈ gs, Crosses z g ∧ IsSide g (u a).swap ∧ IsSide g (d b).swap) := by
    intro a
    by_cases ha : a < layer.segments.length
    swap
    · exact ⟨0, fun h => absurd h ha⟩
    obtain ⟨f, hf, hfd, hfu, hdd, huu, hos, hoe⟩ := hdu a ha
    have hf' := hf
    rw [← hR] at hf'
    obtain ⟨j, g, hji, hgj, hgs, honly⟩ := hclosed _ f (u a) hf' hfu
    by_cases hj : j < gs.length
    · rw [List.getElem?_append_left hj] at hgj
      have hgm := List.mem_of_getElem? hgj
      have hc := hgcross g hgm _ hgs (hud _ huu)
      obtain ⟨-, w, -, -, hw, hww⟩ := crosses_sides hc
      obtain ⟨j', f', hf', hfw⟩ := hpartner g hgm hc w hw (.inr hww)
      obtain ⟨b, hb, hdb, -⟩ := hfind j' f' _ hf' hfw (hud _ hww)
      exact ⟨b, fun _ => ⟨hb, .inr ⟨g, hgm, hc, hgs, by rw [hdb, Prod.swap_swap]; exact hw⟩⟩⟩
    · obtain ⟨i, rfl⟩ : ∃ i, j = gs.length + i := ⟨j - gs.length, by omega⟩
      rw [hR] at hgj
      obtain ⟨b, hb, hdb, hbi⟩ := hfind i g _ hgj hgs (hud _ huu)
      refine ⟨b, fun _ => ⟨hb, .inl ⟨hdb, ?_, ?_⟩⟩⟩
      · rintro ⟨g', hg', hgs'⟩
        exact hnot _ _ _ _ hgj hg' hgs hgs'
      obtain ⟨g', hg', -, -, -, -, hos', -⟩ := hdu b hb
      rw [hdb] at hos'
      have hzne : (u a).1.z ≠ (u a).2.z := by unfold Up at huu; omega
      rw [onSide_swap (by simpa using Ne.symm hzne)] at hos'
      have hfl : (segAt layer a).faceIndex < om.faces.length := by rw [hlenf]; exact (List.getElem?_eq_some_iff.1 hf).1
      have hjl : i < om.faces.length := by rw [hlenf]; exact (List.getElem?_eq_some_iff.1 hgj).1
      obtain ⟨nn, hnn, hside⟩ := isSide_faceSide hfu
      obtain ⟨nn', hnn', hside'⟩ := isSide_faceSide hgs
      have htouch := (C50_mutual o m om hom fs hfs _ i _ _ f g (List.getElem?_eq_getElem hfl) hf (List.getElem?_eq_getElem hjl) hgj
        (fun e => hji (by omega)) nn nn' hnn hnn' (.inr (by rw [hside, hside'])) (by
          rw [hside]
          intro k v hk hv
          rw [← hR] at hk
          rcases honly _ v hk hv with e | e
          · left; omega
          · right; omega)).1
      refine ⟨segAt layer a, segAt layer b, om.faces[(segAt layer a).faceIndex], by rw [hseg a ha]; exact List.getElem?_eq_getElem ha,
        by rw [hseg b hb]; exact List.getElem?_eq_getElem hb, List.getElem?_eq_getElem hfl, ?_, ?_⟩
      · rw [hbi, ← htouch]
        exact ofSide_mem _ _
      · exact within_of_near hmeld (near_near hoe.1 hos'.1) (near_near hoe.2 hos'.2)
  choose next hnext using hstep
  have hacross : ∀ i < layer.segments.length, ∀ j < layer.segments.length, (∃ g ∈ gs, IsSide g (u i).swap ∧ IsSide g (d j).swap) → j = next i := by
    rintro i hi j hj ⟨g, hg, hg1, hg2⟩
    obtain ⟨fi, hfi, -, hfu, -, huu, -⟩ := hdu i hi
    obtain ⟨fj, hfj, hfd, -, hdd, -⟩ := hdu j hj
    obtain ⟨hlt, ⟨-, hgap, -⟩ | ⟨g', hg', hc', h1', h2'⟩⟩ := hnext i hi
    · exact absurd ⟨g, hg, hg1⟩ hgap
    · obtain ⟨fn, hfn, hfdn, -, hddn, -⟩ := hdu _ hlt
      have := hgone g hg g' hg' _ hg1 h1'
      subst this
      have := up_unique hg2 h2' (hdud _ hdd) (hdud _ hddn)
      exact hdd_eq j hj _ hlt (Prod.swap_injective this)
  have hsame : ∀ i < layer.segments.length, ∀ j < layer.segments.length, d j = (u i).swap → j = next i ∧ ¬ AtGap gs (u i) := by
    intro i hi j hj e
    obtain ⟨fj, hfj, hfd, -⟩ := hdu j hj
    rw [e] at hfd
    have hng : ¬ AtGap gs (u i) := by
      rintro ⟨g, hg, hgs'⟩
      exact hnot _ _ _ _ hfj hg hfd hgs'
    refine ⟨?_, hng⟩
    obtain ⟨hlt, ⟨e', -⟩ | ⟨g', hg', hc', h1', h2'⟩⟩ := hnext i hi
    · exact hdd_eq j hj _ hlt (by rw [e, e'])
    · exact absurd ⟨g', hg', h1'⟩ hng
  have hgapeq : ∀ i < layer.segments.length, ∀ j < layer.segments.length, ∀ g ∈ gs, IsSide g (u i).swap → IsSide g (u j).swap → i = j := by
    intro i hi j hj g hg hgi hgj
    obtain ⟨fi, -, -, -, -, huu, -⟩ := hdu i hi
    obtain ⟨fj, -, -, -, -, huu', -⟩ := hdu j hj
    exact huu_eq i hi j hj (Prod.swap_injective (down_unique hgi hgj (hud _ huu) (hud _ huu')))
  refine ⟨d, u, next, hdu, fun i hi => (hnext i hi).1, ?_, ?_, hgapeq, howner, ?_, hsame, hacross, ?_⟩
  · intro i hi j hj e
    obtain ⟨hlt, ⟨e1, hng1, -⟩ | ⟨g, hg, hc, h1', h2'⟩⟩ := hnext i hi <;> obtain ⟨-, ⟨e2, hng2, -⟩ | ⟨g', hg', hc', h1'', h2''⟩⟩ := hnext j hj
    · rw [e, e2] at e1
      exact (huu_eq j hj i hi (Prod.swap_injective e1)).symm
    · exfalso
      obtain ⟨f, hf, -, hfu, -⟩ := hdu i hi
      rw [← e, e1, Prod.swap_swap] at h2''
      exact hnot _ _ _ _ hf hg' hfu h2''
    · exfalso
      obtain ⟨f, hf, -, hfu, -⟩ := hdu j hj
      rw [e, e2, Prod.swap_swap] at h2'
      exact hnot _ _ _ _ hf hg hfu h2'
    · rw [← e] at h2''
      have := hgone g hg g' hg' _ h2' h2''
      subst this
      exact hgapeq i hi j hj g hg h1' h1''
  · intro i hi
    obtain ⟨hlt, ⟨e1, hng1, -⟩ | hh⟩ := hnext i hi
    · exact .inl ⟨e1, hng1⟩
    · exact .inr hh
  · intro g hg hc
    obtain ⟨s, -, hs, hds, -⟩ := crosses_sides hc
    obtain ⟨j, f, hf, hfs'⟩ := hpartner g hg hc s hs (.inl hds)
    have hcf : Crosses z f := crosses_of_up hfs' (hdud s hds) (htip f (List.mem_append_right _ (List.mem_of_getElem? hf)))
    obtain ⟨d', -, hd', hdd', -⟩ := crosses_sides hcf
    obtain ⟨b, hb, hdb, hbj⟩ := hfind j f d' hf hd' hdd'
    refine ⟨b, hb, ?_⟩
    obtain ⟨fb, hfb, -, hub, -, huub, -⟩ := hdu b hb
    rw [hbj, hf] at hfb
    cases hfb
    rw [up_unique hub hfs' huub (hdud s hds), Prod.swap_swap]
    exact hs
  · intro i hi hng
    obtain ⟨hlt, ⟨e1, -, hfo⟩ | ⟨g, hg, hc, h1', h2'⟩⟩ := hnext i hi
    · exact hfo
    · exact absurd ⟨g, hg, h1'⟩ hng

theorem near_of_within {p q : Pt} {d : Int} (h : Within p q d) : NearPt d (exactPt p) (exactPt q) := by
  refine ⟨by exact_mod_cast h.1, ?_⟩
  simp only [exactPt]
  exact_mod_cast h.2

theorem within_of_nearPt {p q : Pt} {d : Int} {D : ℚ} (h : NearPt D (exactPt p) (exactPt q)) (hD : D ≤ d) : Within p q d := by
  have h' := h.mono hD
  refine ⟨by exact_mod_cast h'.1, ?_⟩
  have := h'.2
  simp only [exactPt] at this
  exact_mod_cast this

theorem joined_points {layer : SliceLayer} {K : List (List Nat)} (hlt : ∀ i ∈ K.flatten, i < layer.segments.length) {x : Pt} (hx : x ∈ joinedPath layer K) :
    ∃ i < layer.segments.length, x = (segAt layer i).start ∨ x = (segAt layer i).finish := by
  unfold joinedPath at hx
  obtain ⟨p, hp, hx⟩ := List.mem_flatten.1 hx
  obtain ⟨c, hc, rfl⟩ := List.mem_map.1 hp
  have hl : ∀ i ∈ c, i < layer.segments.length := fun i hi => hlt i (List.mem_flatten.2 ⟨c, hc, hi⟩)
  rw [segmentsOf_map hl] at hx
  cases c with
  | nil => cases hx
  | cons i c =>
    rw [List.map_cons, pathOf, List.mem_cons] at hx
    rcases hx with rfl | hx
    · exact ⟨i, hl i (by simp), .inl rfl⟩
    · rw [← List.map_cons, List.map_map] at hx
      obtain ⟨k, hk, rfl⟩ := List.mem_map.1 hx
      exact ⟨k, hl k hk, .inr rfl⟩

/-- The crossings of the missing faces, one after the other. -/
theorem inside_sum {z : Int} {q : ℚ × ℚ} (gs : List (Tri Vec3)) :
    InsideSolid gs z q ↔ (Finset.range gs.length).sum (fun k => if (gs[k]?).any (fun g => decide (RayHits z q g)) then (1 : ZMod 2) else 0) = 1 := by
  have : ((gs.countP fun g => decide (RayHits z q g) : Nat) : ZMod 2) = (Finset.range gs.length).sum (fun k => if (gs[k]?).any (fun g => decide (RayHits z q g)) then (1 : ZMod 2) else 0) := by
    induction gs using List.reverseRecOn with
    | nil => rfl
    | append_singleton gs g ih =>
      rw [List.length_append, List.length_singleton, Finset.sum_range_succ, List.countP_append, Nat.cast_add, ih]
      congr 1
      · refine Finset.sum_congr rfl fun k hk => ?_
        rw [List.getElem?_append_left (Finset.mem_range.1 hk)]
      · by_cases h : RayHits z q g <;> simp [h]
  unfold InsideSolid
  rw [← this, ← ZMod.natCast_eq_one_iff_odd]

theorem joined_length {layer : SliceLayer} : ∀ (K : List (List Nat)) (_ : ∀ c ∈ K, c ≠ []), (joinedPath layer K).length ≤ 2 * K.flatten.length
  | [], _ => by simp [joinedPath]
  | c :: K, h => by
    have ih := joined_length (layer := layer) K fun c hc => h c (List.mem_cons_of_mem _ hc)
    have e1 : (pathOf (segmentsOf layer c)).length ≤ (segmentsOf layer c).length + 1 := by
      cases segmentsOf layer c with
      | nil => simp [pathOf]
      | cons x xs => simp [pathOf]
    have e2 : (segmentsOf layer c).length ≤ c.length := List.length_filterMap_le _ _
    have e3 := List.length_pos_iff.2 (h c List.mem_cons_self)
    unfold joinedPath at ih ⊢
    rw [List.map_cons, List.flatten_cons, List.flatten_cons, List.length_append, List.length_append]
    omega

theorem zmod2_add (x y : ZMod 2) : x + y = 1 ↔ ¬ (x = 1 ↔ y = 1) := by
  revert x y
  decide

theorem sum_parts (f : Path → Bool) (g : Path → ZMod 2) (l : Paths) : ((l.filter f ++ l.filter fun p => !f p).map g).sum = (l.map g).sum := by
  induction l with
  | nil => rfl
  | cons a l ih =>
    simp only [List.map_append, List.sum_append, List.map_cons, List.sum_cons] at ih ⊢
    by_cases ha : f a = true
    · rw [List.filter_cons_of_pos ha, List.filter_cons_of_neg (by simp [ha]), List.map_cons, List.sum_cons, ← ih]
      ring
    · rw [List.filter_cons_of_neg ha, List.filter_cons_of_pos (by simp [ha]), List.map_cons, List.sum_cons, ← ih]
      ring

/-- **C139** A model with missing triangles. Where the plane of a layer cuts them, the outlines of the layer are closed over the gaps which are not wider than the finish snap distance.
If a gap is wider than that and the join distance, the whole outline is lost. With the lost outline and those which are too short, the outlines enclose the cross-section of the solid whose surface has all triangles. -/
theorem C139_outlines (o : Options) (m : Mesh) (om : OptModel) (hom : optimize o m = .ok om) (fs gs : List (Tri Vec3)) (hfs : om.faces.mapM om.facePoints = .ok fs)
    (hmeld : 2 ≤ o.slicing.meldDistance) (hjoin : 2 ≤ o.slicing.joinPolygonSnapDistance) (hsmall : o.slicing.joinPolygonSnapDistance < 2 ^ 26) (ht : 0 < o.print.layerThickness)
    (layers : List (Option SliceLayer)) (h : sliceSegments o om = .ok layers) (n : Nat) (layer : SliceLayer) (hn : layers[n]? = some (some layer))
    (hm : MissingAt o (layerHeight o n) gs fs) :
    ∃ paths short lost, makePolygons o om layer = .ok paths ∧ (∀ p ∈ short, pathLength p ≤ o.slicing.finishPolygonSnapDistance) ∧ lost.length ≤ 1 ∧
      (∀ d : ℚ, GapsWithin d (layerHeight o n) gs → d + 4 ≤ o.slicing.finishPolygonSnapDistance → lost = []) ∧
      (∀ d : ℚ, o.slicing.joinPolygonSnapDistance + 4 ≤ d → o.slicing.finishPolygonSnapDistance + 4 ≤ d → (∃ g ∈ gs, WideGap d (layerHeight o n) g) → lost.length = 1) ∧
      (∀ p ∈ lost, ∃ g ∈ gs, ∃ s ∈ faceSides g, Down (layerHeight o n) s ∧ ∃ x ∈ p, OnSide (layerHeight o n) s x) ∧
      (∀ q, FarFromSurface 2 (gs ++ fs) (layerHeight o n) q → (InsidePaths (paths ++ short ++ lost) q ↔ InsideSolid (gs ++ fs) (layerHeight o n) q)) ∧
      (∀ D q, 0 ≤ D → FarFromSurface (D + 2) (gs ++ fs) (layerHeight o n) q → ∀ p ∈ paths ++ short ++ lost, FarFromPath D p q) ∧
      (∀ p ∈ paths ++ short ++ lost, ∀ x ∈ p, ∃ f ∈ fs, ∃ s ∈ faceSides f, (Down (layerHeight o n) s ∨ Up (layerHeight o n) s) ∧ OnSide (layerHeight o n) s x) ∧
      ∀ p ∈ paths ++ short ++ lost, p.length ≤ 2 * cutFaces (layerHeight o n) fs := by
  have hcount : layer.segments.length = cutFaces (layerHeight o n) fs := segments_cut hfs ht h hn
  obtain ⟨d, u, next, hl⟩ := missing_links o m om hom fs gs hfs hmeld ht layers h n layer hn hm
  have hgood := goodLayer_of h ht hn
  obtain ⟨h1, -, -⟩ := C53_segments o om layers h ht fs hfs n layer hn
  change layer.segments.map SliceSegment.faceIndex = (List.range fs.length).filter (fun i => (fs[i]?).any fun f => decide (Crosses (layerHeight o n) f)) at h1
  obtain ⟨-, -, htip, -, hwide, hspread, hbut⟩ := hm
  generalize layerHeight o n = z at *
  have hseg : ∀ i (hi : i < layer.segments.length), segAt layer i = layer.segments[i] := by
    intro i hi
    unfold segAt
    rw [List.getD_eq_getElem?_getD, List.getElem?_eq_getElem hi]; rfl
  have hS : ∀ i < layer.segments.length, NearPt 2 (exactPt (segAt layer i).start) (meetPoint z (d i)) := fun i hi => by
    obtain ⟨-, -, -, -, -, -, ho, -⟩ := hl.seg i hi; exact near_of_onSide ho
  have hF : ∀ i < layer.segments.length, NearPt 2 (exactPt (segAt layer i).finish) (meetPoint z (u i)) := fun i hi => by
    obtain ⟨-, -, -, -, -, -, -, ho⟩ := hl.seg i hi; exact near_of_onSide ho
  have hmu : ∀ i < layer.segments.length, meetPoint z (u i).swap = meetPoint z (u i) := fun i hi => by
    obtain ⟨-, -, -, -, -, huu, -⟩ := hl.seg i hi
    exact meetPoint_swap (by unfold Up at huu; omega)
  have hmd : ∀ i < layer.segments.length, meetPoint z (d i).swap = meetPoint z (d i) := fun i hi => by
    obtain ⟨-, -, -, -, hdd, -⟩ := hl.seg i hi
    exact meetPoint_swap (by unfold Down at hdd; omega)
  have hapart : ∀ {c : Int} {i j : Nat}, i < layer.segments.length → j < layer.segments.length → Within (segAt layer i).finish (segAt layer j).start c →
      NearPt (c + 4) (meetPoint z (u i)) (meetPoint z (d j)) := fun hi hj hw =>
    (((hF _ hi).symm.trans (near_of_within hw)).trans (hS _ hj)).mono (by linarith)
  have hfl : ∀ {i j : Nat}, Spec.Follows o.slicing.meldDistance om layer i j → i < layer.segments.length ∧ j < layer.segments.length ∧
      Within (segAt layer i).finish (segAt layer j).start o.slicing.meldDistance := by
    rintro i j ⟨s, s', -, hs, hs', -, -, hw⟩
    obtain ⟨hi, rfl⟩ := List.getElem?_eq_some_iff.1 hs
    obtain ⟨hj, rfl⟩ := List.getElem?_eq_some_iff.1 hs'
    exact ⟨hi, hj, by rw [hseg i hi, hseg j hj]; exact hw⟩
  have hfol : ∀ i j, Spec.Follows o.slicing.meldDistance om layer i j → j = next i ∧ ¬ AtGap gs (u i) := by
    intro i j hf
    obtain ⟨hi, hj, hw⟩ := hfl hf
    obtain ⟨f, hfi, -, hfu, -, huu, -⟩ := hl.seg i hi
    obtain ⟨g, hgj, hgd, -, hdd, -⟩ := hl.seg j hj
    refine hl.same i hi j hj ?_
    by_contra hne
    exact hspread f (List.mem_of_getElem? hfi) g (List.mem_of_getElem? hgj) _ (isSide_iff.2 hfu) _ (isSide_iff.2 hgd) huu hdd hne (hapart hi hj hw)
  have hnogap : ∀ i < layer.segments.length, ¬ AtGap gs (u i) → d (next i) = (u i).swap := by
    intro i hi hng
    rcases hl.step i hi with ⟨e, -⟩ | ⟨g, hg, -, hgu, -⟩
    · exact e
    · exact absurd ⟨g, hg, hgu⟩ hng
  have hgapof : ∀ i < layer.segments.length, AtGap gs (u i) → ∃ g ∈ gs, Crosses z g ∧ IsSide g (u i).swap ∧ IsSide g (d (next i)).swap := by
    intro i hi hg
    rcases hl.step i hi with ⟨-, e⟩ | hg
    · contradiction
    · exact hg
  -- at most one gap is wide
  have hwideof : ∀ (c : Int) i, min o.slicing.joinPolygonSnapDistance o.slicing.finishPolygonSnapDistance ≤ c → i < layer.segments.length → AtGap gs (u i) →
      ¬ Within (segAt layer i).finish (segAt layer (next i)).start c →
      ∃ g ∈ gs, IsSide g (u i).swap ∧ WideGap ((min o.slicing.joinPolygonSnapDistance o.slicing.finishPolygonSnapDistance : Int) - 4) z g := by
    intro c i hc hi hg hnw
    obtain ⟨g, hgm, -, hg1, hg2⟩ := hgapof i hi hg
    obtain ⟨-, -, -, -, -, huu, -⟩ := hl.seg i hi
    obtain ⟨-, -, -, -, hdd', -⟩ := hl.seg _ (hl.lt i hi)
    refine ⟨g, hgm, hg1, _, isSide_iff.2 hg1, _, isSide_iff.2 hg2, ⟨huu.1, huu.2⟩, ⟨hdd'.1, hdd'.2⟩, fun hn => hnw ?_⟩
    rw [hmu i hi, hmd _ (hl.lt i hi)] at hn
    have hcq : ((min o.slicing.joinPolygonSnapDistance o.slicing.finishPolygonSnapDistance : Int) : ℚ) ≤ c := by exact_mod_cast hc
    exact within_of_nearPt (((hF i hi).trans hn).trans (hS _ (hl.lt i hi)).symm) (by linarith)
  have hone : ∀ (c c' : Int) i j, min o.slicing.joinPolygonSnapDistance o.slicing.finishPolygonSnapDistance ≤ c → min o.slicing.joinPolygonSnapDistance o.slicing.finishPolygonSnapDistance ≤ c' →
      i < layer.segments.length → j < layer.segments.length → AtGap gs (u i) → AtGap gs (u j) → ¬ Within (segAt layer i).finish (segAt layer (next i)).start c →
      ¬ Within (segAt layer j).finish (segAt layer (next j)).start c' → i = j := by
    intro c c' i j hc hc' hi hj hgi hgj hwi hwj
    obtain ⟨g, hg, hs, hw⟩ := hwideof c i hc hi hgi hwi
    obtain ⟨g', hg', hs', hw'⟩ := hwideof c' j hc' hj hgj hwj
    obtain ⟨k, hk⟩ := List.getElem?_of_mem hg
    obtain ⟨k', hk'⟩ := List.getElem?_of_mem hg'
    have := wide_one hwide hk hk' hw hw'
    rw [this, hk'] at hk
    cases hk
    exact hl.gap i hi j hj g hg hs hs'
  have hnear' : ∀ i < layer.segments.length, ¬ AtGap gs (u i) → Within (segAt layer i).finish (segAt layer (next i)).start o.slicing.joinPolygonSnapDistance := by
    intro i hi hng
    obtain ⟨f, hfi, -, hfu, -, huu, -, hoe⟩ := hl.seg i hi
    obtain ⟨g, hgj, hgd, -, hdd, -, hos, -⟩ := hl.seg _ (hl.lt i hi)
    rw [hnogap i hi hng, onSide_swap (by unfold Up at huu; simp only [Prod.fst_swap, Prod.snd_swap]; omega)] at hos
    exact within_of_near hjoin (near_near hoe.1 hos.1) (near_near hoe.2 hos.2)
  obtain ⟨kept, lost, hperm, hcyc, hpoly, hkept, hlost⟩ := gap_polygons o hgood (next := next) (E := fun i => AtGap gs (u i)) hl.lt hl.inj
    (fun i hi j hj hwi hwj => hone _ _ i j (min_le_left _ _) (min_le_left _ _) hi hj (by by_contra hg; exact hwi (hnear' i hi hg)) (by by_contra hg; exact hwj (hnear' j hj hg)) hwi hwj)
    hfol hl.follows
    (by
      intro i hi j hj hw
      obtain ⟨f, hfi, -, hfu, -, huu, -⟩ := hl.seg i hi
      obtain ⟨g, hgj, hgd, -, hdd, -⟩ := hl.seg j hj
      by_cases e : d j = (u i).swap
      · exact (hl.same i hi j hj e).1
      by_cases e' : AtMissing gs (u i) (d j)
      · obtain ⟨g', hg', h1', h2'⟩ := e'
        exact hl.across i hi j hj ⟨g', hg', isSide_iff.1 h1', isSide_iff.1 h2'⟩
      · exact absurd (hapart hi hj hw)
          (hbut f (List.mem_of_getElem? hfi) g (List.mem_of_getElem? hgj) _ (isSide_iff.2 hfu) _ (isSide_iff.2 hgd) huu hdd e e'))
    hnear' hsmall
  have hlt : ∀ K ∈ kept ++ lost, ∀ i ∈ K.flatten, i < layer.segments.length := by
    intro K hK i hi
    apply List.mem_range.1 (hperm.mem_iff.1 _)
    rw [List.flatten_flatten]
    exact List.mem_flatten.2 ⟨_, List.mem_map.2 ⟨K, hK, rfl⟩, hi⟩
  have hnd : ((kept ++ lost).map List.flatten).flatten.Nodup := by
    have := hperm.symm.nodup List.nodup_range
    rwa [List.flatten_flatten] at this
  have hall : ∀ p, p ∈ ((kept.map (joinedPath layer)).filter fun p => decide (o.slicing.finishPolygonSnapDistance < pathLength p)) ++
      ((kept.map (joinedPath layer)).filter fun p => !decide (o.slicing.finishPolygonSnapDistance < pathLength p)) ++ lost.map (joinedPath layer) →
      ∃ K ∈ kept ++ lost, p = joinedPath layer K := by
    intro p hp
    rw [List.mem_append, List.mem_append, List.mem_filter, List.mem_filter] at hp
    rcases hp with (⟨hp, -⟩ | ⟨hp, -⟩) | hp
    · obtain ⟨K, hK, rfl⟩ := List.mem_map.1 hp
      exact ⟨K, List.mem_append_left _ hK, rfl⟩
    · obtain ⟨K, hK, rfl⟩ := List.mem_map.1 hp
      exact ⟨K, List.mem_append_left _ hK, rfl⟩
    · obtain ⟨K, hK, rfl⟩ := List.mem_map.1 hp
      exact ⟨K, List.mem_append_right _ hK, rfl⟩
  have hlone : lost.length ≤ 1 := by
    match hlo : lost with
    | [] => simp
    | [_] => simp
    | K :: K' :: rest =>
      exfalso
      subst hlo
      obtain ⟨b, hb, hEb, hwb⟩ := hlost K (by simp)
      obtain ⟨b', hb', hEb', hwb'⟩ := hlost K' (by simp)
      have hbm := List.mem_of_getLast? hb
      have hbm' := List.mem_of_getLast? hb'
      obtain rfl := hone _ _ b b' (min_le_right _ _) (min_le_right _ _) (hlt K (by simp) b hbm) (hlt K' (by simp) b' hbm') hEb hEb' hwb hwb'
      have := chains_disjoint hnd (i := kept.length) (k := kept.length + 1) (c := K.flatten) (d := K'.flatten) (by simp) (by simp) hbm hbm'
      omega
  -- the lines of the cross-section
  have hfarSeg : ∀ D q, FarFromSurface D (gs ++ fs) z q → ∀ i < layer.segments.length, FarFrom D (meetPoint z (d i)) (meetPoint z (u i)) q := by
    intro D q hq i hi
    obtain ⟨f, hf, hd, hu, hdd, huu, -⟩ := hl.seg i hi
    exact hq f (List.mem_append_right _ (List.mem_of_getElem? hf)) _ (isSide_iff.2 hd) _ (isSide_iff.2 hu) hdd huu
  have hfarGap : ∀ D q, FarFromSurface D (gs ++ fs) z q → ∀ i < layer.segments.length, FarFrom D (meetPoint z (u i)) (meetPoint z (d (next i))) q := by
    intro D q hq i hi
    obtain ⟨f, hf, hd, hu, hdd, huu, -⟩ := hl.seg i hi
    obtain ⟨f', hf', hd', hu', hdd', huu', -⟩ := hl.seg _ (hl.lt i hi)
    by_cases hg : AtGap gs (u i)
    · obtain ⟨g, hgm, -, hg1, hg2⟩ := hgapof i hi hg
      have := hq g (List.mem_append_left _ hgm) _ (isSide_iff.2 hg1) _ (isSide_iff.2 hg2) ⟨huu.1, huu.2⟩ ⟨hdd'.1, hdd'.2⟩
      rwa [hmu i hi, hmd _ (hl.lt i hi)] at this
    · have := farFrom_left (hfarSeg D q hq _ (hl.lt i hi))
      rwa [hnogap i hi hg, hmu i hi] at this ⊢
  refine ⟨_, (kept.map (joinedPath layer)).filter fun p => !decide (o.slicing.finishPolygonSnapDistance < pathLength p), lost.map (joinedPath layer), hpoly, ?_, ?_, ?_, ?_, ?_, ?_, ?_, ?_, ?_⟩
  · intro p hp
    have := (List.mem_filter.1 hp).2
    simpa using this
  · simpa using hlone
  · intro D hD hfin
    rw [List.map_eq_nil_iff, List.eq_nil_iff_forall_not_mem]
    intro K hK
    obtain ⟨b, hb, hEb, hnw⟩ := hlost K hK
    have hbl := hlt K (List.mem_append_right _ hK) b (List.mem_of_getLast? hb)
    obtain ⟨g, hgm, -, hg1, hg2⟩ := hgapof b hbl hEb
    obtain ⟨-, -, -, -, -, huu, -⟩ := hl.seg b hbl
    obtain ⟨-, -, -, -, hdd', -⟩ := hl.seg _ (hl.lt b hbl)
    have := hD g hgm _ (isSide_iff.2 hg1) _ (isSide_iff.2 hg2) ⟨huu.1, huu.2⟩ ⟨hdd'.1, hdd'.2⟩
    rw [hmu b hbl, hmd _ (hl.lt b hbl)] at this
    exact hnw (within_of_nearPt (((hF b hbl).trans this).trans (hS _ (hl.lt b hbl)).symm) (by linarith))
  · rintro D hDj hDf ⟨g, hg, s, hs, s', hs', hds, hus', hD⟩
    rw [List.length_map]
    rw [isSide_iff] at hs hs'
    have hc : Crosses z g := crosses_of_down hs hds (htip g (List.mem_append_left _ hg))
    obtain ⟨i, hi, hgi⟩ := hl.back g hg hc
    have him : i ∈ ((kept ++ lost).map List.flatten).flatten := by
      rw [← List.flatten_flatten]
      exact hperm.mem_iff.2 (List.mem_range.2 hi)
    obtain ⟨c, hcm, hic⟩ := List.mem_flatten.1 him
    obtain ⟨K, hK, rfl⟩ := List.mem_map.1 hcm
    rcases List.mem_append.1 hK with hK | hK
    · exfalso
      obtain ⟨g', hgm, -, hg1, hg2⟩ := hgapof i hi ⟨g, hg, hgi⟩
      obtain ⟨k, hk⟩ := List.getElem?_of_mem hg
      obtain ⟨k', hk'⟩ := List.getElem?_of_mem hgm
      have hkk := hl.owner k k' g g' _ hk hk' hgi hg1
      rw [hkk, hk'] at hk
      cases hk
      obtain ⟨-, -, -, -, -, huu, -⟩ := hl.seg i hi
      obtain ⟨-, -, -, -, hdd', -⟩ := hl.seg _ (hl.lt i hi)
      rw [down_unique hs hg1 hds ⟨huu.1, huu.2⟩, up_unique hs' hg2 hus' ⟨hdd'.1, hdd'.2⟩, hmu i hi, hmd _ (hl.lt i hi)] at hD
      rcases hkept K hK i hic ⟨g, hg, hgi⟩ with hw | hw
      · exact hD ((hapart hi (hl.lt i hi) hw).mono hDj)
      · exact hD ((hapart hi (hl.lt i hi) hw).mono hDf)
    · have := List.length_pos_of_mem hK
      omega
  · intro p hp
    obtain ⟨K, hK, rfl⟩ := List.mem_map.1 hp
    obtain ⟨b, hb, hEb, -⟩ := hlost K hK
    have hbl := hlt K (List.mem_append_right _ hK) b (List.mem_of_getLast? hb)
    obtain ⟨g, hgm, -, hg1, -⟩ := hgapof b hbl hEb
    obtain ⟨-, -, -, -, -, huu, -, hoe⟩ := hl.seg b hbl
    refine ⟨g, hgm, _, isSide_iff.2 hg1, ⟨huu.1, huu.2⟩, (segAt layer b).finish, ?_, ?_⟩
    · have := (joined_ends (hlt K (List.mem_append_right _ hK)) fun c hc => ((hcyc K (List.mem_append_right _ hK)).chains c hc).1).2
      rw [hb, Option.map_some] at this
      exact List.mem_of_getLast? this
    · rw [onSide_swap (by unfold Up at huu; simp only [Prod.fst_swap, Prod.snd_swap]; omega)]
      exact hoe
  · intro q hq
    have hfar2 := hfarSeg 2 q hq
    have hpath : ∀ K ∈ kept ++ lost, pathCross q (joinedPath layer K) = (K.flatten.map fun i => cross2 q (exactPt (segAt layer i).start) (exactPt (segAt layer i).finish) +
        cross2 q (exactPt (segAt layer i).finish) (exactPt (segAt layer (next i)).start)).sum := by
      intro K hK
      refine cycle_cross (hcyc K hK) (hlt K hK) fun i j hf => ?_
      obtain ⟨hi, hj, -⟩ := hfl hf
      obtain ⟨rfl, hng⟩ := hfol i j hf
      obtain ⟨u', v', hside⟩ := separated (hfar2 _ hj)
      have s1 : Side u' v' q (exactPt (segAt layer i).finish) := hside _ 0 le_rfl zero_le_one (by rw [lineAt_zero, hnogap i hi hng, hmu i hi]; exact hF i hi)
      have s2 : Side u' v' q (exactPt (segAt layer (next i)).start) := hside _ 0 le_rfl zero_le_one (by rw [lineAt_zero]; exact hS _ hj)
      have s3 : Side u' v' q (exactPt (segAt layer (next i)).finish) := hside _ 1 zero_le_one le_rfl (by rw [lineAt_one]; exact hF _ hj)
      exact (cross2_tri s1 s2 s3).symm
    have hsum := gap_crossings (q := q) hl.lt hl.inj hS hF hfar2 (hfarGap 2 q hq)
    rw [insidePaths_iff, List.map_append, List.sum_append, sum_parts, ← List.sum_append, ← List.map_append, ← List.map_append, List.map_map]
    have e1 : (kept ++ lost).map (pathCross q ∘ joinedPath layer) = (kept ++ lost).map fun K =>
        (K.flatten.map fun i => cross2 q (exactPt (segAt layer i).start) (exactPt (segAt layer i).finish) +
          cross2 q (exactPt (segAt layer i).finish) (exactPt (segAt layer (next i)).start)).sum := List.map_congr_left fun K hK => hpath K hK
    have e2 : ((kept ++ lost).map fun K => (K.flatten.map fun i => cross2 q (exactPt (segAt layer i).start) (exactPt (segAt layer i).finish) +
          cross2 q (exactPt (segAt layer i).finish) (exactPt (segAt layer (next i)).start)).sum).sum =
        ((List.range layer.segments.length).map fun i => cross2 q (exactPt (segAt layer i).start) (exactPt (segAt layer i).finish) +
          cross2 q (exactPt (segAt layer i).finish) (exactPt (segAt layer (next i)).start)).sum := by
      rw [← (hperm.map _).sum_eq, List.flatten_flatten, List.map_flatten, List.sum_flatten, List.map_map, List.map_map]
      rfl
    rw [e1, e2, hsum, insideSolid_append, add_comm, zmod2_add]
    have i1 : InsideSolid fs z q ↔ ((List.range layer.segments.length).map fun i => cross2 q (meetPoint z (d i)) (meetPoint z (u i))).sum = 1 := by
      rw [insideSolid_iff (fun f hf => htip f (List.mem_append_right _ hf)) (idx := fun i : Fin layer.segments.length => (segAt layer i).faceIndex) (d := fun i => d i) (u := fun i => u i)]
      · rw [Fin.sum_univ_def, ← List.map_coe_finRange_eq_range, List.map_map]
        rfl
      · rw [← h1]
        refine List.ext_getElem (by simp) fun k hk hk' => ?_
        rw [List.getElem_ofFn, List.getElem_map]
        rw [hseg k (by simpa using hk')]
      · intro i
        obtain ⟨f, hf, hd, hu, hdd, huu, -⟩ := hl.seg i i.2
        exact ⟨f, hf, hd, hu, hdd, huu⟩
    have i2 : InsideSolid gs z q ↔ ((List.range layer.segments.length).map fun i => cross2 q (meetPoint z (u i)) (meetPoint z (d (next i)))).sum = 1 := by
      have hzero : ∀ i < layer.segments.length, ¬ AtGap gs (u i) → cross2 q (meetPoint z (u i)) (meetPoint z (d (next i))) = 0 := by
        intro i hi hng
        rw [hnogap i hi hng, hmu i hi]
        exact cross2_self _ _
      change _ ↔ (Finset.range layer.segments.length).sum (fun i => cross2 q (meetPoint z (u i)) (meetPoint z (d (next i)))) = 1
      -- each gap belongs to one missing face
      have hidx : ∀ i, ∃ k : Nat, i < layer.segments.length → AtGap gs (u i) → ∃ g, gs[k]? = some g ∧ Crosses z g ∧ IsSide g (u i).swap ∧ IsSide g (d (next i)).swap := by
        intro i
        by_cases hi : i < layer.segments.length ∧ AtGap gs (u i)
        · obtain ⟨g, hg, hc, h1', h2'⟩ := hgapof i hi.1 hi.2
          obtain ⟨k, hk⟩ := List.getElem?_of_mem hg
          exact ⟨k, fun _ _ => ⟨g, hk, hc, h1', h2'⟩⟩
        · exact ⟨0, fun h1 h2 => absurd ⟨h1, h2⟩ hi⟩
      choose κ hκ using hidx
      classical
      rw [inside_sum, ← Finset.sum_filter_add_sum_filter_not (Finset.range layer.segments.length) (fun i => AtGap gs (u i)),
        Finset.sum_eq_zero (s := (Finset.range layer.segments.length).filter fun i => ¬ AtGap gs (u i)) (fun i hi => by
          rw [Finset.mem_filter, Finset.mem_range] at hi
          exact hzero i hi.1 hi.2), add_zero,
        ← Finset.sum_filter_add_sum_filter_not (Finset.range gs.length) (fun k => (gs[k]?).any fun g => decide (Crosses z g)),
        Finset.sum_eq_zero (s := (Finset.range gs.length).filter fun k => ¬ ((gs[k]?).any fun g => decide (Crosses z g)) = true) (fun k hk => by
          rw [Finset.mem_filter, Finset.mem_range] at hk
          rw [if_neg]
          intro hh
          rw [List.getElem?_eq_getElem hk.1, Option.any_some, decide_eq_true_eq] at hh
          obtain ⟨d', hd', u', hu', k1, k2, k3⟩ := hh
          refine hk.2 ?_
          rw [List.getElem?_eq_getElem hk.1, Option.any_some, decide_eq_true_eq]
          exact crosses_of_down (isSide_iff.1 hd') k1 (htip _ (List.mem_append_left _ (List.getElem_mem hk.1)))), add_zero]
      have hsum : ((Finset.range layer.segments.length).filter fun i => AtGap gs (u i)).sum (fun i => cross2 q (meetPoint z (u i)) (meetPoint z (d (next i)))) =
          ((Finset.range gs.length).filter fun k => ((gs[k]?).any fun g => decide (Crosses z g)) = true).sum
            fun k => if (gs[k]?).any (fun g => decide (RayHits z q g)) then (1 : ZMod 2) else 0 := by
        refine Finset.sum_nbij κ ?_ ?_ ?_ ?_
        · intro i hi
          rw [Finset.mem_filter, Finset.mem_range] at hi ⊢
          obtain ⟨g, hk, hc, -⟩ := hκ i hi.1 hi.2
          exact ⟨(List.getElem?_eq_some_iff.1 hk).1, by rw [hk]; simpa using hc⟩
        · intro i hi j hj e
          rw [Finset.mem_coe, Finset.mem_filter, Finset.mem_range] at hi hj
          obtain ⟨g, hk, -, h1', -⟩ := hκ i hi.1 hi.2
          obtain ⟨g', hk', -, h1'', -⟩ := hκ j hj.1 hj.2
          rw [← e, hk] at hk'
          cases hk'
          exact hl.gap i hi.1 j hj.1 g (List.mem_of_getElem? hk) h1' h1''
        · intro k hk
          rw [Finset.mem_coe, Finset.mem_filter, Finset.mem_range] at hk
          obtain ⟨hkl, hc⟩ := hk
          rw [List.getElem?_eq_getElem hkl, Option.any_some, decide_eq_true_eq] at hc
          obtain ⟨i, hi, hgi⟩ := hl.back _ (List.getElem_mem hkl) hc
          have hat : AtGap gs (u i) := ⟨_, List.getElem_mem hkl, hgi⟩
          refine ⟨i, ?_, ?_⟩
          · rw [Finset.mem_coe, Finset.mem_filter, Finset.mem_range]
            exact ⟨hi, hat⟩
          · obtain ⟨g', hk', -, h1', -⟩ := hκ i hi hat
            exact hl.owner _ _ _ _ _ hk' (List.getElem?_eq_getElem hkl) h1' hgi
        · intro i hi
          rw [Finset.mem_filter, Finset.mem_range] at hi
          obtain ⟨g, hk, -, hg1, hg2⟩ := hκ i hi.1 hi.2
          obtain ⟨-, -, -, -, -, huu, -⟩ := hl.seg i hi.1
          obtain ⟨-, -, -, -, hdd', -⟩ := hl.seg _ (hl.lt i hi.1)
          have : RayHits z q g ↔ RayCrosses q (meetPoint z (u i)) (meetPoint z (d (next i))) := by
            rw [← hmu i hi.1, ← hmd _ (hl.lt i hi.1)]
            constructor
            · rintro ⟨d', hd', u', hu', k1, k2, k3⟩
              rw [isSide_iff] at hd' hu'
              rwa [down_unique hd' hg1 k1 ⟨huu.1, huu.2⟩, up_unique hu' hg2 k2 ⟨hdd'.1, hdd'.2⟩] at k3
            · exact fun hr => ⟨_, isSide_iff.2 hg1, _, isSide_iff.2 hg2, ⟨huu.1, huu.2⟩, ⟨hdd'.1, hdd'.2⟩, hr⟩
          rw [hk, Option.any_some]
          simp only [this, decide_eq_true_eq]
          unfold cross2
          by_cases hr : RayCrosses q (meetPoint z (u i)) (meetPoint z (d (next i))) <;> simp [hr]
      rw [hsum]
    rw [i1, i2]
  · intro D q hD hq p hp
    obtain ⟨K, hK, rfl⟩ := hall p hp
    have := cycle_sides (hcyc K hK) (hlt K hK) (Q := fun x y => FarFrom D (exactPt x) (exactPt y) q)
      (fun i hi => farFrom_near hD (hS i hi) (hF i hi) (hfarSeg _ q hq i hi))
      (fun i j hf => by
        obtain ⟨hi, hj, -⟩ := hfl hf
        obtain ⟨rfl, hng⟩ := hfol i j hf
        refine farFrom_near hD ?_ (hF _ hj) (hfarSeg _ q hq _ hj)
        rw [hnogap i hi hng, hmu i hi]
        exact hF i hi)
      (fun i hi => farFrom_near hD (hF i hi) (hS _ (hl.lt i hi)) (hfarGap _ q hq i hi))
    exact this
  · intro p hp x hx
    obtain ⟨K, hK, rfl⟩ := hall p hp
    obtain ⟨i, hi, hx⟩ := joined_points (hlt K hK) hx
    obtain ⟨f, hf, hd, hu, hdd, huu, ho, ho'⟩ := hl.seg i hi
    rcases hx with rfl | rfl
    · exact ⟨f, List.mem_of_getElem? hf, _, isSide_iff.2 hd, .inl hdd, ho⟩
    · exact ⟨f, List.mem_of_getElem? hf, _, isSide_iff.2 hu, .inr huu, ho'⟩
  · intro p hp
    obtain ⟨K, hK, rfl⟩ := hall p hp
    have e1 := joined_length (layer := layer) K fun c hc => ((hcyc K hK).chains c hc).1
    have e2 : K.flatten.length ≤ ((kept ++ lost).map List.flatten).flatten.length := (List.sublist_flatten_of_mem (List.mem_map.2 ⟨K, hK, rfl⟩)).length_le
    have e3 := hperm.length_eq
    rw [List.flatten_flatten, List.length_range] at e3
    omega

theorem short_none {d : Int} (hd : d < 2 ^ 26 - 1) {short : Paths} (hs : ∀ p ∈ short, pathLength p ≤ d) {q : ℚ × ℚ} (hq : ∀ p ∈ short, FarFromPath (2 * max 0 d) p q) :
    (short.map (pathCross q)).sum = 0 := by
  apply List.sum_eq_zero
  intro x hx
  obtain ⟨p, hp, rfl⟩ := List.mem_map.1 hx
  exact short_outline hd (hs p hp) (hq p hp)

/-- **C139** If the gaps are at most as wide as the finish snap distance (less 4 µm), the outlines of the layer enclose the cross-section of the solid, as if no triangle were missing. -/
theorem C139_repaired (o : Options) (m : Mesh) (om : OptModel) (hom : optimize o m = .ok om) (fs gs : List (Tri Vec3)) (hfs : om.faces.mapM om.facePoints = .ok fs)
    (hmeld : 2 ≤ o.slicing.meldDistance) (hjoin : 2 ≤ o.slicing.joinPolygonSnapDistance) (hsmall : o.slicing.joinPolygonSnapDistance < 2 ^ 26) (ht : 0 < o.print.layerThickness)
    (hfin : o.slicing.finishPolygonSnapDistance < 2 ^ 26 - 1)
    (layers : List (Option SliceLayer)) (h : sliceSegments o om = .ok layers) (n : Nat) (layer : SliceLayer) (hn : layers[n]? = some (some layer))
    (hm : MissingAt o (layerHeight o n) gs fs) (hgap : GapsWithin (o.slicing.finishPolygonSnapDistance - 4) (layerHeight o n) gs) :
    ∃ paths, makePolygons o om layer = .ok paths ∧ ∀ q, FarEnough o (gs ++ fs) n q → (InsidePaths paths q ↔ InsideSolid (gs ++ fs) (layerHeight o n) q) := by
  obtain ⟨paths, short, lost, hp, hs, -, hw, -, -, hin, hfar, -⟩ := C139_outlines o m om hom fs gs hfs hmeld hjoin hsmall ht layers h n layer hn hm
  obtain rfl := hw _ hgap (by linarith)
  simp only [List.append_nil] at hin hfar
  refine ⟨paths, hp, fun q hq => ?_⟩
  have hD : (0 : ℚ) ≤ ((max 0 o.slicing.finishPolygonSnapDistance : Int) : ℚ) := by exact_mod_cast le_max_left _ _
  rw [← hin q (farFromSurface_mono hq (by norm_num) (by linarith)), insidePaths_iff, insidePaths_iff, List.map_append, List.sum_append,
    short_none hfin hs fun p hp => hfar _ q (by linarith) hq p (List.mem_append_right _ hp), add_zero]

/-- **C139** If the gap which one of the missing triangles leaves in the plane is wider than the join and the finish snap distance (and 4 µm), one outline is missing: the one which goes through the missing triangle. The other outlines
enclose the points which are inside of the solid, but not of this outline, or the other way around. -/
theorem C139_lost (o : Options) (m : Mesh) (om : OptModel) (hom : optimize o m = .ok om) (fs gs : List (Tri Vec3)) (hfs : om.faces.mapM om.facePoints = .ok fs)
    (hmeld : 2 ≤ o.slicing.meldDistance) (hjoin : 2 ≤ o.slicing.joinPolygonSnapDistance) (hsmall : o.slicing.joinPolygonSnapDistance < 2 ^ 26) (ht : 0 < o.print.layerThickness)
    (hfin : o.slicing.finishPolygonSnapDistance < 2 ^ 26 - 1)
    (layers : List (Option SliceLayer)) (h : sliceSegments o om = .ok layers) (n : Nat) (layer : SliceLayer) (hn : layers[n]? = some (some layer))
    (hm : MissingAt o (layerHeight o n) gs fs) (hgap : ∃ g ∈ gs, WideGap (max o.slicing.joinPolygonSnapDistance o.slicing.finishPolygonSnapDistance + 4) (layerHeight o n) g) :
    ∃ paths p, makePolygons o om layer = .ok paths ∧ (∃ g ∈ gs, ∃ s ∈ faceSides g, Down (layerHeight o n) s ∧ ∃ x ∈ p, OnSide (layerHeight o n) s x) ∧
      ∀ q, FarEnough o (gs ++ fs) n q → (InsidePaths paths q ↔ ¬ (Encloses p q ↔ InsideSolid (gs ++ fs) (layerHeight o n) q)) := by
  obtain ⟨paths, short, lost, hp, hs, -, -, hw, hon, hin, hfar, -⟩ := C139_outlines o m om hom fs gs hfs hmeld hjoin hsmall ht layers h n layer hn hm
  obtain ⟨p, rfl⟩ := List.length_eq_one_iff.1 (hw _ (add_le_add_left (by exact_mod_cast le_max_left _ _) 4) (add_le_add_left (by exact_mod_cast le_max_right _ _) 4) hgap)
  refine ⟨paths, p, hp, hon p (by simp), fun q hq => ?_⟩
  have hD : (0 : ℚ) ≤ ((max 0 o.slicing.finishPolygonSnapDistance : Int) : ℚ) := by exact_mod_cast le_max_left _ _
  have hpq : Encloses p q ↔ pathCross q p = 1 := by
    have := insidePaths_iff [p] q
    unfold InsidePaths at this
    by_cases he : Encloses p q <;> simp [he] at this ⊢ <;> exact this
  rw [← hin q (farFromSurface_mono hq (by norm_num) (by linarith)), insidePaths_iff, insidePaths_iff, hpq, List.map_append, List.sum_append, List.map_append, List.sum_append,
    short_none hfin hs fun p hp => hfar _ q (by linarith) hq p (List.mem_append_left _ (List.mem_append_right _ hp)), add_zero, List.map_singleton, List.sum_singleton]
  generalize (paths.map (pathCross q)).sum = a
  generalize pathCross q p = b
  revert a b
  decide

/-! ## Examples

A flat pyramid with a right angle. One side of it is divided into three triangles, of which the two outer ones are missing. -/

/-- The file without the missing triangles, which have the widths `e` and 0.2 mm at the bottom. -/
def roof (e : Int) : Mesh :=
  [⟨⟨0, 0, 0⟩, ⟨20000, 0, 0⟩, ⟨0, 0, 1000⟩⟩, ⟨⟨20000, 0, 0⟩, ⟨0, 20000, 0⟩, ⟨0, 0, 1000⟩⟩, ⟨⟨0, 19800, 0⟩, ⟨0, e, 0⟩, ⟨0, 0, 1000⟩⟩,
   ⟨⟨20000, 0, 0⟩, ⟨0, 0, 0⟩, ⟨0, e, 0⟩⟩, ⟨⟨0, 19800, 0⟩, ⟨20000, 0, 0⟩, ⟨0, e, 0⟩⟩, ⟨⟨0, 20000, 0⟩, ⟨20000, 0, 0⟩, ⟨0, 19800, 0⟩⟩]

/-- The faces on the bed. -/
def roofFaces (e : Int) : List (Tri Vec3) :=
  [⟨⟨90000, 90000, 0⟩, ⟨110000, 90000, 0⟩, ⟨90000, 90000, 1000⟩⟩, ⟨⟨110000, 90000, 0⟩, ⟨90000, 110000, 0⟩, ⟨90000, 90000, 1000⟩⟩,
   ⟨⟨90000, 109800, 0⟩, ⟨90000, 90000 + e, 0⟩, ⟨90000, 90000, 1000⟩⟩,
   ⟨⟨110000, 90000, 0⟩, ⟨90000, 90000, 0⟩, ⟨90000, 90000 + e, 0⟩⟩, ⟨⟨90000, 109800, 0⟩, ⟨110000, 90000, 0⟩, ⟨90000, 90000 + e, 0⟩⟩,
   ⟨⟨90000, 110000, 0⟩, ⟨110000, 90000, 0⟩, ⟨90000, 109800, 0⟩⟩]

/-- The missing faces. -/
def roofGap (e : Int) : List (Tri Vec3) := [⟨⟨90000, 90000 + e, 0⟩, ⟨90000, 90000, 0⟩, ⟨90000, 90000, 1000⟩⟩, ⟨⟨90000, 110000, 0⟩, ⟨90000, 109800, 0⟩, ⟨90000, 90000, 1000⟩⟩]

def roofOpt (e : Int) : OptModel := ((optimize {} (roof e)).toOption).getD { points := [], faces := [], size := ⟨0, 0, 0⟩ }

theorem roof_ok : optimize {} (roof 500) = .ok (roofOpt 500) ∧ optimize {} (roof 5000) = .ok (roofOpt 5000) := by constructor <;> decide +kernel

theorem roofFaces_ok : (roofOpt 500).faces.mapM (roofOpt 500).facePoints = .ok (roofFaces 500) ∧ (roofOpt 5000).faces.mapM (roofOpt 5000).facePoints = .ok (roofFaces 5000) := by
  constructor <;> decide +kernel

theorem roof_height : layerHeight {} 1 = 400 := by decide

theorem roof_missing : MissingAt {} 400 (roofGap 500) (roofFaces 500) ∧ MissingAt {} 400 (roofGap 5000) (roofFaces 5000) := by
  constructor <;>
  · refine ⟨by decide +kernel, by decide +kernel, by decide +kernel, ?_, ?_, ?_, ?_⟩
    · unfold Up Down
      decide +kernel
    · unfold WideGap Up Down NearPt
      decide +kernel
    · unfold SpreadOut Up Down NearPt
      decide +kernel
    · unfold SpreadOutBut AtMissing Up Down NearPt
      decide +kernel

theorem roof_segments : ((sliceSegments {} (roofOpt 500)).toOption.bind fun ls => ls[1]?.bind id).isSome ∧ ((sliceSegments {} (roofOpt 5000)).toOption.bind fun ls => ls[1]?.bind id).isSome := by
  constructor <;> decide +kernel

theorem roof_layer {e : Int} (h : ((sliceSegments {} (roofOpt e)).toOption.bind fun ls => ls[1]?.bind id).isSome) :
    ∃ layers layer, sliceSegments {} (roofOpt e) = .ok layers ∧ layers[1]? = some (some layer) := by
  cases hs : sliceSegments {} (roofOpt e) with
  | error f => rw [hs] at h; cases h
  | ok ls =>
    rw [hs] at h
    simp only [Except.toOption, Option.bind_some] at h
    match hl : ls[1]? with
    | none => rw [hl] at h; cases h
    | some none => rw [hl] at h; cases h
    | some (some layer) => exact ⟨ls, layer, rfl, hl⟩

/-- The lines in which the plane of the second layer meets the pyramid. -/
theorem roof_cuts {e : Int} (he : e = 500 ∨ e = 5000) : ∀ f ∈ roofGap e ++ roofFaces e, ∀ s ∈ faceSides f, ∀ s' ∈ faceSides f, Down 400 s → Up 400 s' → (meetPoint 400 s, meetPoint 400 s') ∈
    [((90000, 90000), (102000, 90000)), ((102000, 90000), (90000, 102000)), ((90000, 102000), (90000, 101880)), ((90000, 101880), (90000, 90000 + 3 / 5 * (e : ℚ))), ((90000, 90000 + 3 / 5 * (e : ℚ)), ((90000 : ℚ), (90000 : ℚ)))] := by
  rcases he with rfl | rfl <;> decide +kernel

theorem roof_far {e : Int} (he : e = 500 ∨ e = 5000) : FarEnough {} (roofGap e ++ roofFaces e) 1 (93500, 93500) ∧ FarEnough {} (roofGap e ++ roofFaces e) 1 (86000, 93500) := by
  have hD : (2 * ((max 0 ({} : Options).slicing.finishPolygonSnapDistance : Int) : ℚ) + 2) = 2002 := by decide +kernel
  unfold FarEnough
  rw [roof_height, hD]
  constructor <;>
  · intro f hf s hs s' hs' hd hu t h0 h1
    have := roof_cuts he f hf s hs s' hs' hd hu
    simp only [List.mem_cons, Prod.mk.injEq, List.not_mem_nil, or_false] at this
    rcases he with rfl | rfl <;> rcases this with ⟨e, e'⟩ | ⟨e, e'⟩ | ⟨e, e'⟩ | ⟨e, e'⟩ | ⟨e, e'⟩ <;> rw [e, e'] <;> norm_num <;> nlinarith

/-- With gaps of 0.3 mm and 0.12 mm, the outline is closed: (93.5 mm, 93.5 mm) is enclosed, (86 mm, 93.5 mm) is not. -/
example : ∃ layers layer paths, sliceSegments {} (roofOpt 500) = .ok layers ∧ layers[1]? = some (some layer) ∧ makePolygons {} (roofOpt 500) layer = .ok paths ∧
    InsidePaths paths (93500, 93500) ∧ ¬ InsidePaths paths (86000, 93500) := by
  obtain ⟨layers, layer, h, hl⟩ := roof_layer roof_segments.1
  obtain ⟨paths, hp, hin⟩ := C139_repaired {} (roof 500) (roofOpt 500) roof_ok.1 (roofFaces 500) (roofGap 500) roofFaces_ok.1 (by decide) (by decide) (by decide) (by decide) (by decide)
    layers h 1 layer hl (by rw [roof_height]; exact roof_missing.1) (by
      rw [roof_height]
      unfold GapsWithin Up Down NearPt
      decide +kernel)
  have hf := roof_far (e := 500) (.inl rfl)
  exact ⟨layers, layer, paths, h, hl, hp, (hin _ hf.1).2 (by decide +kernel), fun hc => absurd ((hin _ hf.2).1 hc) (by decide +kernel)⟩

/-- With gaps of 3 mm and 0.12 mm, an outline is lost. -/
example : ∃ layers layer paths p, sliceSegments {} (roofOpt 5000) = .ok layers ∧ layers[1]? = some (some layer) ∧ makePolygons {} (roofOpt 5000) layer = .ok paths ∧
    (InsidePaths paths (93500, 93500) ↔ ¬ Encloses p (93500, 93500)) := by
  obtain ⟨layers, layer, h, hl⟩ := roof_layer roof_segments.2
  obtain ⟨paths, p, hp, -, hin⟩ := C139_lost {} (roof 5000) (roofOpt 5000) roof_ok.2 (roofFaces 5000) (roofGap 5000) roofFaces_ok.2 (by decide) (by decide) (by decide) (by decide) (by decide)
    layers h 1 layer hl (by rw [roof_height]; exact roof_missing.2) (by
      rw [roof_height]
      unfold WideGap Up Down NearPt
      decide +kernel)
  have hf := roof_far (e := 5000) (.inr rfl)
  refine ⟨layers, layer, paths, p, h, hl, hp, ?_⟩
  rw [hin _ hf.1]
  have : InsideSolid (roofGap 5000 ++ roofFaces 5000) (layerHeight {} 1) (93500, 93500) := by decide +kernel
  exact ⟨fun hn he => hn ⟨fun _ => this, fun _ => he⟩, fun hn hi => hn (hi.2 this)⟩

end Verif
