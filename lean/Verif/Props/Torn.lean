import Verif.Props.Holes

/-! # Outlines with any number of wide gaps (C148) -/
namespace Verif
open Verif.Go Verif.Model Verif.Spec

theorem chain_back {next : Nat → Nat} {P : Nat → Prop} : ∀ {l : List Nat}, (l.IsChain fun i j => j = next i) → (∀ i ∈ l, P (next i) → P i) → ∀ {b}, l.getLast? = some b → P b → ∀ i ∈ l, P i
  | [], _, _, _, hb, _, _, _ => by cases hb
  | [a], _, _, b, hb, hP, i, hi => by
    rw [List.mem_singleton.1 hi]
    cases hb
    exact hP
  | a :: c :: l, hch, hback, b, hb, hP, i, hi => by
    rw [List.isChain_cons_cons] at hch
    rw [List.getLast?_cons_cons] at hb
    have ih := chain_back hch.2 (fun i hi => hback i (List.mem_cons_of_mem _ hi)) hb hP
    rcases List.mem_cons.1 hi with rfl | hi
    · exact hback i (by simp) (by rw [← hch.1]; exact ih c (by simp))
    · exact ih i hi

/-- The number of faces hit by a ray, of those with a property, modulo 2. -/
theorem hits_segments {fs : List (Tri Vec3)} {z : Int} {q : ℚ × ℚ} (htip : NoTip z fs) {N : Nat} {idx : Nat → Nat} {d u : Nat → Vec3 × Vec3} (P : Tri Vec3 → Bool)
    (hidx : (List.range N).map idx = (List.range fs.length).filter fun i => (fs[i]?).any fun f => decide (Crosses z f))
    (hs : ∀ i < N, ∃ f, fs[idx i]? = some f ∧ IsSide f (d i) ∧ IsSide f (u i) ∧ Down z (d i) ∧ Up z (u i)) :
    (((fs.filter P).countP fun f => decide (RayHits z q f) : Nat) : ZMod 2) =
      (((List.range N).filter fun i => (fs[idx i]?).any P).map fun i => cross2 q (meetPoint z (d i)) (meetPoint z (u i))).sum := by
  let H : Nat → ZMod 2 := fun k => match fs[k]? with
    | some f => if P f = true ∧ RayHits z q f then 1 else 0
    | none => 0
  have e0 : (((fs.filter P).countP fun f => decide (RayHits z q f) : Nat) : ZMod 2) = (fs.map fun f => if P f = true ∧ RayHits z q f then (1 : ZMod 2) else 0).sum := by
    clear * -
    induction fs with
    | nil => rfl
    | cons f fs ih =>
      rw [List.map_cons, List.sum_cons, ← ih]
      by_cases h : P f = true
      · rw [List.filter_cons_of_pos h, List.countP_cons, Nat.cast_add, add_comm]
        congr 1
        by_cases hr : RayHits z q f <;> simp [h, hr]
      · rw [List.filter_cons_of_neg h]
        simp [h]
  have e1 : (fs.map fun f => if P f = true ∧ RayHits z q f then (1 : ZMod 2) else 0) = (List.range fs.length).map H := by
    apply List.ext_getElem?
    intro k
    rw [List.getElem?_map, List.getElem?_map]
    by_cases hk : k < fs.length
    · simp [H, List.getElem?_range hk, List.getElem?_eq_getElem hk]
    · rw [List.getElem?_eq_none (by omega), List.getElem?_eq_none (by simpa using hk)]; rfl
  rw [e0, e1, ← sum_filter (fun i => (fs[i]?).any fun f => decide (Crosses z f)), ← hidx, List.map_map, ← sum_filter (fun i => (fs[idx i]?).any P)]
  · refine congrArg List.sum (List.map_congr_left fun i hi => ?_)
    obtain ⟨hi, hP⟩ := List.mem_filter.1 hi
    obtain ⟨f, hf, hd, hu, hdd, huu⟩ := hs i (List.mem_range.1 hi)
    rw [hf, Option.any_some] at hP
    simp only [Function.comp, H, hf, hP]
    unfold cross2
    have : RayHits z q f ↔ RayCrosses q (meetPoint z (d i)) (meetPoint z (u i)) := by
      constructor
      · rintro ⟨d', hd', u', hu', h1, h2, h3⟩
        rw [isSide_iff] at hd' hu'
        rwa [down_unique hd' hd h1 hdd, up_unique hu' hu h2 huu] at h3
      · exact fun h => ⟨_, isSide_iff.2 hd, _, isSide_iff.2 hu, hdd, huu, h⟩
    simp [this]
  · intro i hi hP
    obtain ⟨f, hf, -⟩ := hs i (List.mem_range.1 hi)
    rw [hf, Option.any_some] at hP
    simp [H, hf, hP]
  · intro k hk hn
    simp only [H]
    cases hf : fs[k]? with
    | none => rfl
    | some f =>
      rw [hf] at hn
      simp only
      rw [if_neg]
      rintro ⟨-, d', hd', u', hu', h1, h2, h3⟩
      rw [isSide_iff] at hd'
      have := crosses_of_down hd' h1 (htip f (List.mem_of_getElem? hf))
      simp [this] at hn

/-- The outlines without those which lead to a wide gap. -/
theorem torn_outlines (o : Options) (m : Mesh) (om : OptModel) (hom : optimize o m = .ok om) (fs : List (Tri Vec3)) (gaps : List Gap) (hfs : om.faces.mapM om.facePoints = .ok fs)
    (hmeld : 2 ≤ o.slicing.meldDistance) (hjoin : 2 ≤ o.slicing.joinPolygonSnapDistance) (hsmall : o.slicing.joinPolygonSnapDistance < 2 ^ 26) (ht : 0 < o.print.layerThickness)
    (layers : List (Option SliceLayer)) (h : sliceSegments o om = .ok layers) (n : Nat) (layer : SliceLayer) (hn : layers[n]? = some (some layer))
    (hm : TornAt o (layerHeight o n) gaps fs) :
    ∃ paths short, makePolygons o om layer = .ok paths ∧ (∀ p ∈ short, pathLength p ≤ o.slicing.finishPolygonSnapDistance) ∧
      (∀ q, FarFromSurface 2 (wholeFaces (o.slicing.joinPolygonSnapDistance + 4) (layerHeight o n) gaps fs) (layerHeight o n) q → FarFromGaps 2 (wholeGaps (o.slicing.joinPolygonSnapDistance + 4) (layerHeight o n) gaps fs) (layerHeight o n) q →
        (InsidePaths (paths ++ short) q ↔ InsideClosed (wholeGaps (o.slicing.joinPolygonSnapDistance + 4) (layerHeight o n) gaps fs) (wholeFaces (o.slicing.joinPolygonSnapDistance + 4) (layerHeight o n) gaps fs) (layerHeight o n) q)) ∧
      (∀ D q, 0 ≤ D → FarFromSurface (D + 2) (wholeFaces (o.slicing.joinPolygonSnapDistance + 4) (layerHeight o n) gaps fs) (layerHeight o n) q → FarFromGaps (D + 2) (wholeGaps (o.slicing.joinPolygonSnapDistance + 4) (layerHeight o n) gaps fs) (layerHeight o n) q →
        ∀ p ∈ paths ++ short, FarFromPath D p q) ∧
      (∀ p ∈ paths ++ short, ∀ x ∈ p, ∃ f ∈ (wholeFaces (o.slicing.joinPolygonSnapDistance + 4) (layerHeight o n) gaps fs), ∃ s ∈ faceSides f,
        (Down (layerHeight o n) s ∨ Up (layerHeight o n) s) ∧ OnSide (layerHeight o n) s x) ∧
      ∀ p ∈ paths ++ short, p.length ≤ 2 * cutFaces (layerHeight o n) fs := by
  have hcount : layer.segments.length = cutFaces (layerHeight o n) fs := segments_cut hfs ht h hn
  obtain ⟨hproper, -⟩ := C47_faces o m om hom fs hfs
  obtain ⟨d, u, next, hl⟩ := hole_links o m om hom fs gaps hfs hmeld ht layers h n layer hn hm.toOpenAt
  have hgood := goodLayer_of h ht hn
  obtain ⟨h1, -, -⟩ := C53_segments o om layers h ht fs hfs n layer hn
  change layer.segments.map SliceSegment.faceIndex = (List.range fs.length).filter (fun i => (fs[i]?).any fun f => decide (Crosses (layerHeight o n) f)) at h1
  obtain ⟨⟨hopen, htip, hends, -, ⟨honce1, -⟩, hspread, hbut⟩, hsplit, hfarg⟩ := hm
  have hloose : ∀ g ∈ gaps, Loose fs g.1 := fun g hg => (hends g hg).2.2.1
  generalize layerHeight o n = z at *
  have hseg : ∀ i (hi : i < layer.segments.length), segAt layer i = layer.segments[i] := by
    intro i hi
    unfold segAt
    rw [List.getD_eq_getElem?_getD, List.getElem?_eq_getElem hi]; rfl
  have hS : ∀ i < layer.segments.length, NearPt 2 (exactPt (segAt layer i).start) (meetPoint z (d i)) := fun i hi => by
    obtain ⟨-, -, -, -, -, -, ho, -⟩ := hl.seg i hi; exact near_of_onSide ho
  have hF : ∀ i < layer.segments.length, NearPt 2 (exactPt (segAt layer i).finish) (meetPoint z (u i)) := fun i hi => by
    obtain ⟨-, -, -, -, -, -, -, ho⟩ := hl.seg i hi; exact near_of_onSide ho
  have hmu : ∀ i < layer.segments.length, meetPoint z (u i).swap = meetPoint z (u i) := fun i hi => by
    obtain ⟨-, -, -, -, -, huu, -⟩ := hl.seg i hi
    exact meetPoint_swap (by unfold Up at huu; omega)
  have hapart : ∀ {c : Int} {i j : Nat}, i < layer.segments.length → j < layer.segments.length → Within (segAt layer i).finish (segAt layer j).start c →
      NearPt (c + 4) (meetPoint z (u i)) (meetPoint z (d j)) := fun hi hj hw =>
    (((hF _ hi).symm.trans (near_of_within hw)).trans (hS _ hj)).mono (by linarith)
  have hfl : ∀ {i j : Nat}, Spec.Follows o.slicing.meldDistance om layer i j → i < layer.segments.length ∧ j < layer.segments.length ∧
      Within (segAt layer i).finish (segAt layer j).start o.slicing.meldDistance := by
    rintro i j ⟨s, s', -, hs, hs', -, -, hw⟩
    obtain ⟨hi, rfl⟩ := List.getElem?_eq_some_iff.1 hs
    obtain ⟨hj, rfl⟩ := List.getElem?_eq_some_iff.1 hs'
    exact ⟨hi, hj, by rw [hseg i hi, hseg j hj]; exact hw⟩
  have hfol : ∀ i j, Spec.Follows o.slicing.meldDistance om layer i j → j = next i ∧ ¬ Loose fs (u i) := by
    intro i j hf
    obtain ⟨hi, hj, hw⟩ := hfl hf
    obtain ⟨f, hfi, -, hfu, -, huu, -⟩ := hl.seg i hi
    obtain ⟨g, hgj, hgd, -, hdd, -⟩ := hl.seg j hj
    refine hl.same i hi j hj ?_
    by_contra hne
    exact hspread f (List.mem_of_getElem? hfi) g (List.mem_of_getElem? hgj) _ (isSide_iff.2 hfu) _ (isSide_iff.2 hgd) huu hdd hne (hapart hi hj hw)
  have hnogap : ∀ i < layer.segments.length, ¬ Loose fs (u i) → d (next i) = (u i).swap := by
    intro i hi hng
    rcases hl.step i hi with ⟨e, -⟩ | ⟨-, hgu⟩
    · exact e
    · exact absurd hgu hng
  have hgapof : ∀ i < layer.segments.length, Loose fs (u i) → (u i, d (next i)) ∈ gaps := by
    intro i hi hg
    rcases hl.step i hi with ⟨-, e⟩ | ⟨hg, -⟩
    · contradiction
    · exact hg
  have hnear' : ∀ i < layer.segments.length, ¬ Loose fs (u i) → Within (segAt layer i).finish (segAt layer (next i)).start o.slicing.joinPolygonSnapDistance := by
    intro i hi hng
    obtain ⟨f, hfi, -, hfu, -, huu, -, hoe⟩ := hl.seg i hi
    obtain ⟨g, hgj, hgd, -, hdd, -, hos, -⟩ := hl.seg _ (hl.lt i hi)
    rw [hnogap i hi hng, onSide_swap (by unfold Up at huu; simp only [Prod.fst_swap, Prod.snd_swap]; omega)] at hos
    exact within_of_near hjoin (near_near hoe.1 hos.1) (near_near hoe.2 hos.2)
  -- a link which is not within a snap distance is a wide gap
  have hwideof : ∀ (c : Int) i, min o.slicing.joinPolygonSnapDistance o.slicing.finishPolygonSnapDistance ≤ c → i < layer.segments.length → Loose fs (u i) →
      ¬ Within (segAt layer i).finish (segAt layer (next i)).start c → Gap.Wider (o.slicing.joinPolygonSnapDistance + 4) z (u i, d (next i)) := by
    intro c i hc hi hg hnw
    rcases hsplit _ (hgapof i hi hg) with hw | hn
    · exact hw
    · exfalso
      have hcq : ((min o.slicing.joinPolygonSnapDistance o.slicing.finishPolygonSnapDistance : Int) : ℚ) ≤ c := by exact_mod_cast hc
      exact hnw (within_of_nearPt (((hF i hi).trans hn).trans (hS _ (hl.lt i hi)).symm) (by linarith))
  have hlo : ∀ i < layer.segments.length, ¬ Within (segAt layer i).finish (segAt layer (next i)).start o.slicing.joinPolygonSnapDistance → Loose fs (u i) := by
    intro i hi hw
    by_contra hg
    exact hw (hnear' i hi hg)
  obtain ⟨kept, lost, hperm, hcyc, hpoly, hkept, hlost⟩ := torn_polygons o hgood (next := next) (E := fun i => Loose fs (u i)) hl.lt hl.inj
    (fun i hi j hj hwi hwj hw => absurd (hapart hi (hl.lt j hj) hw)
      (hfarg (u i, d (next i)) (hgapof i hi (hlo i hi hwi)) (u j, d (next j)) (hgapof j hj (hlo j hj hwj)) (hwideof _ i (min_le_left _ _) hi (hlo i hi hwi) hwi)
        (hwideof _ j (min_le_left _ _) hj (hlo j hj hwj) hwj)))
    hfol hl.follows
    (by
      intro i hi j hj hw
      obtain ⟨f, hfi, -, hfu, -, huu, -⟩ := hl.seg i hi
      obtain ⟨g, hgj, hgd, -, hdd, -⟩ := hl.seg j hj
      by_cases e : d j = (u i).swap
      · exact (hl.same i hi j hj e).1
      by_cases e' : (u i, d j) ∈ gaps
      · exact hl.across i hi j hj e'
      · exact absurd (hapart hi hj hw)
          (hbut f (List.mem_of_getElem? hfi) g (List.mem_of_getElem? hgj) _ (isSide_iff.2 hfu) _ (isSide_iff.2 hgd) huu hdd e e'))
    hnear' hsmall
  have hlt : ∀ K ∈ kept ++ lost, ∀ i ∈ K.flatten, i < layer.segments.length := by
    intro K hK i hi
    apply List.mem_range.1 (hperm.mem_iff.1 _)
    rw [List.flatten_flatten]
    exact List.mem_flatten.2 ⟨_, List.mem_map.2 ⟨K, hK, rfl⟩, hi⟩
  generalize hW : (o.slicing.joinPolygonSnapDistance : ℚ) + 4 = W at *
  -- which segments are lost
  have hlostT : ∀ K ∈ lost, ∀ i ∈ K.flatten, ∀ f, fs[(segAt layer i).faceIndex]? = some f → Torn W z gaps fs f := by
    intro K hK
    obtain ⟨-, -, halong, c, b, hc, hb, hEb, hcl, hw, hcb⟩ := hlost K hK
    have hK' := hlt K (List.mem_append_right _ hK)
    have hbl := hK' b (List.mem_of_getLast? hb)
    refine chain_back (P := fun i => ∀ f, fs[(segAt layer i).faceIndex]? = some f → Torn W z gaps fs f) halong ?_ hb ?_
    · intro i hi ih f hf
      have hil := hK' i hi
      obtain ⟨f', hf', -, hfu, -, huu, -⟩ := hl.seg i hil
      rw [hf] at hf'
      cases hf'
      obtain ⟨g, hg, hgd, -⟩ := hl.seg _ (hl.lt i hil)
      rcases hl.step i hil with ⟨e, -⟩ | ⟨e, -⟩
      · exact .next (isSide_iff.2 hfu) huu (List.mem_of_getElem? hg) (by rw [← e]; exact isSide_iff.2 hgd) (ih g hg)
      · exact .over e (isSide_iff.2 hfu) (List.mem_of_getElem? hg) (isSide_iff.2 hgd) (ih g hg)
    · intro f hf
      obtain ⟨f', hf', -, hfu, -⟩ := hl.seg b hbl
      rw [hf] at hf'
      cases hf'
      refine .wide (hgapof b hbl hEb) ?_ (isSide_iff.2 hfu)
      rcases hcb with rfl | ⟨hwb, -⟩
      · exact hwideof _ c (min_le_right _ _) hbl hEb hw
      · exact hwideof _ b (min_le_left _ _) hbl hEb hwb
  have hnextK : ∀ K ∈ kept, ∀ i ∈ K.flatten, next i ∈ K.flatten := by
    intro K hK i hi
    obtain ⟨-, -, halong, a, b, ha, hb, rfl⟩ := hcyc K hK
    rcases chain_next halong hi with hl' | ⟨y, hy, rfl⟩
    · rw [hb] at hl'
      cases hl'
      exact List.mem_of_mem_head? ha
    · exact List.mem_of_mem_tail hy
  have howner : ∀ {j : Nat} {f f' : Tri Vec3} {s : Vec3 × Vec3}, fs[j]? = some f → IsSide f s → f' ∈ fs → IsSide f' s → f' = f := by
    intro j f f' s hf hs hf' hs'
    obtain ⟨k, hk⟩ := List.getElem?_of_mem hf'
    rw [open_owner hopen hproper hf hk hs hs', hf] at hk
    exact (Option.some.inj hk).symm
  have hkeptT : ∀ K ∈ kept, ∀ f, Torn W z gaps fs f → ∀ i ∈ K.flatten, fs[(segAt layer i).faceIndex]? = some f → False := by
    intro K hK f hT
    have hK' := hlt K (List.mem_append_left _ hK)
    induction hT with
    | @wide f g hg hw hgs =>
      intro i hi hf
      have hil := hK' i hi
      obtain ⟨f', hf', -, hfu, -, huu, -⟩ := hl.seg i hil
      rw [hf] at hf'
      cases hf'
      have hug := up_unique hfu (isSide_iff.1 hgs) huu (hends g hg).1
      have hli : Loose fs (u i) := by rw [hug]; exact hloose g hg
      have e : g = (u i, d (next i)) := List.inj_on_of_nodup_map honce1 hg (hgapof i hil hli) hug.symm
      subst e
      rcases hkept K hK i hi hli with hw' | hw'
      · exact hw (by rw [← hW]; exact hapart hil (hl.lt i hil) hw')
      · exact hfarg _ hg _ hg hw hw (hapart hil (hl.lt i hil) hw')
    | @next f f' s hs hu hf'm hs' _ ih =>
      intro i hi hf
      have hil := hK' i hi
      obtain ⟨f1, hf1, -, hfu, -, huu, -⟩ := hl.seg i hil
      rw [hf] at hf1
      cases hf1
      obtain rfl := up_unique hfu (isSide_iff.1 hs) huu hu
      obtain ⟨g, hg, hgd, -⟩ := hl.seg _ (hl.lt i hil)
      rcases hl.step i hil with ⟨e, -⟩ | ⟨-, hlo⟩
      · rw [e] at hgd
        obtain rfl := howner hg hgd hf'm (isSide_iff.1 hs')
        exact ih _ (hnextK K hK i hi) hg
      · exact hlo f' hf'm hs'
    | @over f f' g hg hgs hf'm hs' _ ih =>
      intro i hi hf
      have hil := hK' i hi
      obtain ⟨f1, hf1, -, hfu, -, huu, -⟩ := hl.seg i hil
      rw [hf] at hf1
      cases hf1
      have hug := up_unique hfu (isSide_iff.1 hgs) huu (hends g hg).1
      have hli : Loose fs (u i) := by rw [hug]; exact hloose g hg
      have e : g = (u i, d (next i)) := List.inj_on_of_nodup_map honce1 hg (hgapof i hil hli) hug.symm
      subst e
      obtain ⟨g, hg', hgd, -⟩ := hl.seg _ (hl.lt i hil)
      obtain rfl := howner hg' hgd hf'm (isSide_iff.1 hs')
      exact ih _ (hnextK K hK i hi) hg'
  classical
  let P : Tri Vec3 → Bool := fun f => decide (¬ Torn W z gaps fs f)
  let I : List Nat := (List.range layer.segments.length).filter fun i => (fs[(segAt layer i).faceIndex]?).any P
  have hany : ∀ {i : Nat} {f : Tri Vec3}, fs[(segAt layer i).faceIndex]? = some f → (((fs[(segAt layer i).faceIndex]?).any P = true) ↔ ¬ Torn W z gaps fs f) := by
    intro i f hf
    rw [hf, Option.any_some]
    exact decide_eq_true_iff
  have hI : kept.flatten.flatten.Perm I := by
    have := hperm.filter fun i => (fs[(segAt layer i).faceIndex]?).any P
    rw [List.flatten_append, List.flatten_append, List.filter_append, List.filter_eq_self.2, List.filter_eq_nil_iff.2, List.append_nil] at this
    · exact this
    · intro i hi
      rw [List.flatten_flatten] at hi
      obtain ⟨l, hl', hi⟩ := List.mem_flatten.1 hi
      obtain ⟨K, hK, rfl⟩ := List.mem_map.1 hl'
      obtain ⟨f, hf, -⟩ := hl.seg i (hlt K (List.mem_append_right _ hK) i hi)
      rw [hany hf, not_not]
      exact hlostT K hK i hi f hf
    · intro i hi
      rw [List.flatten_flatten] at hi
      obtain ⟨l, hl', hi⟩ := List.mem_flatten.1 hi
      obtain ⟨K, hK, rfl⟩ := List.mem_map.1 hl'
      obtain ⟨f, hf, -⟩ := hl.seg i (hlt K (List.mem_append_left _ hK) i hi)
      rw [hany hf]
      exact fun hT => hkeptT K hK f hT i hi hf
  have hIlt : ∀ i ∈ I, i < layer.segments.length := fun i hi => List.mem_range.1 (List.mem_filter.1 hi).1
  have hIK : ∀ K ∈ kept, ∀ i ∈ K.flatten, i ∈ I := fun K hK i hi => hI.mem_iff.1 (by
    rw [List.flatten_flatten]
    exact List.mem_flatten.2 ⟨_, List.mem_map.2 ⟨K, hK, rfl⟩, hi⟩)
  have hInext : ∀ i ∈ I, next i ∈ I := by
    intro i hi
    have := hI.mem_iff.2 hi
    rw [List.flatten_flatten] at this
    obtain ⟨l, hl', hi⟩ := List.mem_flatten.1 this
    obtain ⟨K, hK, rfl⟩ := List.mem_map.1 hl'
    exact hIK K hK _ (hnextK K hK i hi)
  have hInd : I.Nodup := List.nodup_range.filter _
  have hIperm : (I.map next).Perm I := by
    have hnd : (I.map next).Nodup := by
      rw [List.nodup_map_iff_inj_on hInd]
      exact fun i hi j hj e => hl.inj i (hIlt i hi) j (hIlt j hj) e
    refine (List.subperm_of_subset hnd ?_).perm_of_length_le (by simp)
    intro x hx
    obtain ⟨i, hi, rfl⟩ := List.mem_map.1 hx
    exact hInext i hi
  have hIface : ∀ i ∈ I, ∀ f, fs[(segAt layer i).faceIndex]? = some f → f ∈ wholeFaces W z gaps fs := by
    intro i hi f hf
    refine List.mem_filter.2 ⟨List.mem_of_getElem? hf, ?_⟩
    have := (List.mem_filter.1 hi).2
    rw [hany hf] at this
    exact decide_eq_true this
  have hIgap : ∀ i ∈ I, Loose fs (u i) → (u i, d (next i)) ∈ wholeGaps W z gaps fs := by
    intro i hi hlo
    refine List.mem_filter.2 ⟨hgapof i (hIlt i hi) hlo, decide_eq_true ?_⟩
    intro f hf hs
    obtain ⟨g, hg, -, hgu, -⟩ := hl.seg i (hIlt i hi)
    obtain rfl := howner hg hgu hf (isSide_iff.1 hs)
    have := (List.mem_filter.1 hi).2
    rwa [hany hg] at this
  have hfarSeg : ∀ D q, FarFromSurface D (wholeFaces W z gaps fs) z q → ∀ i ∈ I, FarFrom D (meetPoint z (d i)) (meetPoint z (u i)) q := by
    intro D q hq i hi
    obtain ⟨f, hf, hd, hu, hdd, huu, -⟩ := hl.seg i (hIlt i hi)
    exact hq f (hIface i hi f hf) _ (isSide_iff.2 hd) _ (isSide_iff.2 hu) hdd huu
  have hfarGap : ∀ D q, FarFromSurface D (wholeFaces W z gaps fs) z q → FarFromGaps D (wholeGaps W z gaps fs) z q → ∀ i ∈ I, FarFrom D (meetPoint z (u i)) (meetPoint z (d (next i))) q := by
    intro D q hq hqg i hi
    by_cases hg : Loose fs (u i)
    · exact hqg (u i, d (next i)) (hIgap i hi hg)
    · have := farFrom_left (hfarSeg D q hq _ (hInext i hi))
      rwa [hnogap i (hIlt i hi) hg, hmu i (hIlt i hi)] at this ⊢
  have hall : ∀ p ∈ (kept.map (joinedPath layer)).filter (fun p => decide (o.slicing.finishPolygonSnapDistance < pathLength p)) ++
      (kept.map (joinedPath layer)).filter (fun p => !decide (o.slicing.finishPolygonSnapDistance < pathLength p)), ∃ K ∈ kept, p = joinedPath layer K := by
    intro p hp
    rcases List.mem_append.1 hp with hp | hp <;>
    · obtain ⟨K, hK, rfl⟩ := List.mem_map.1 (List.mem_filter.1 hp).1
      exact ⟨K, hK, rfl⟩
  have hfollow : ∀ D q, 0 ≤ D → FarFromSurface (D + 2) (wholeFaces W z gaps fs) z q → ∀ i, ∀ j ∈ I, Spec.Follows o.slicing.meldDistance om layer i j →
      FarFrom D (exactPt (segAt layer i).finish) (exactPt (segAt layer j).finish) q := by
    intro D q hD hq i j hjI hf
    obtain ⟨hi, hj, -⟩ := hfl hf
    obtain ⟨rfl, hng⟩ := hfol i j hf
    refine farFrom_near hD ?_ (hF _ hj) (hfarSeg _ q hq _ hjI)
    rw [hnogap i hi hng, hmu i hi]
    exact hF i hi
  refine ⟨_, (kept.map (joinedPath layer)).filter (fun p => !decide (o.slicing.finishPolygonSnapDistance < pathLength p)), hpoly, fun p hp => by simpa using (List.mem_filter.1 hp).2, ?_, ?_, ?_, ?_⟩
  · intro q hq2 hqg
    have hfar2 := hfarSeg 2 q hq2
    have hpath : ∀ K ∈ kept, pathCross q (joinedPath layer K) = (K.flatten.map fun i => cross2 q (exactPt (segAt layer i).start) (exactPt (segAt layer i).finish) +
        cross2 q (exactPt (segAt layer i).finish) (exactPt (segAt layer (next i)).start)).sum := by
      intro K hK
      refine cycle_cross_on (hcyc K hK) (hlt K (List.mem_append_left _ hK)) fun i _ j hjK hf => ?_
      obtain ⟨hi, hj, -⟩ := hfl hf
      obtain ⟨rfl, hng⟩ := hfol i j hf
      obtain ⟨u', v', hside⟩ := separated (hfar2 _ (hIK K hK _ hjK))
      have s1 : Side u' v' q (exactPt (segAt layer i).finish) := hside _ 0 le_rfl zero_le_one (by rw [lineAt_zero, hnogap i hi hng, hmu i hi]; exact hF i hi)
      have s2 : Side u' v' q (exactPt (segAt layer (next i)).start) := hside _ 0 le_rfl zero_le_one (by rw [lineAt_zero]; exact hS _ hj)
      have s3 : Side u' v' q (exactPt (segAt layer (next i)).finish) := hside _ 1 zero_le_one le_rfl (by rw [lineAt_one]; exact hF _ hj)
      exact (cross2_tri s1 s2 s3).symm
    have hsum := crossings_on (q := q) hIperm (fun i hi => hS i (hIlt i hi)) (fun i hi => hF i (hIlt i hi)) hfar2 (hfarGap 2 q hq2 hqg)
    rw [insidePaths_iff, sum_parts, List.map_map]
    have e1 : kept.map (pathCross q ∘ joinedPath layer) = kept.map fun K =>
        (K.flatten.map fun i => cross2 q (exactPt (segAt layer i).start) (exactPt (segAt layer i).finish) +
          cross2 q (exactPt (segAt layer i).finish) (exactPt (segAt layer (next i)).start)).sum := List.map_congr_left fun K hK => hpath K hK
    have e2 : (kept.map fun K => (K.flatten.map fun i => cross2 q (exactPt (segAt layer i).start) (exactPt (segAt layer i).finish) +
          cross2 q (exactPt (segAt layer i).finish) (exactPt (segAt layer (next i)).start)).sum).sum =
        (I.map fun i => cross2 q (exactPt (segAt layer i).start) (exactPt (segAt layer i).finish) +
          cross2 q (exactPt (segAt layer i).finish) (exactPt (segAt layer (next i)).start)).sum := by
      rw [← (hI.map _).sum_eq, List.flatten_flatten, List.map_flatten, List.sum_flatten, List.map_map, List.map_map]
      rfl
    have i1 : (((wholeFaces W z gaps fs).countP fun f => decide (RayHits z q f) : Nat) : ZMod 2) = (I.map fun i => cross2 q (meetPoint z (d i)) (meetPoint z (u i))).sum := by
      refine hits_segments htip P (N := layer.segments.length) (idx := fun i => (segAt layer i).faceIndex) ?_ fun i hi => ?_
      · rw [← h1]
        refine List.ext_getElem (by simp) fun k hk hk' => ?_
        rw [List.getElem_map, List.getElem_map, List.getElem_range, hseg k (by simpa using hk')]
      · obtain ⟨f, hf, hd, hu, hdd, huu, -⟩ := hl.seg i hi
        exact ⟨f, hf, hd, hu, hdd, huu⟩
    have i2 : (((wholeGaps W z gaps fs).countP fun g => decide (RayCrosses q (meetPoint z g.1) (meetPoint z g.2)) : Nat) : ZMod 2) =
        (I.map fun i => cross2 q (meetPoint z (u i)) (meetPoint z (d (next i)))).sum := by
      have hnd : (wholeGaps W z gaps fs).Nodup := (List.Nodup.of_map _ honce1).filter _
      rw [countP_cross, ← List.sum_toFinset _ hnd, ← List.sum_toFinset _ hInd,
        ← Finset.sum_filter_add_sum_filter_not I.toFinset (fun i => Loose fs (u i)),
        Finset.sum_eq_zero (s := I.toFinset.filter fun i => ¬ Loose fs (u i)) (fun i hi => by
          rw [Finset.mem_filter, List.mem_toFinset] at hi
          rw [hnogap i (hIlt i hi.1) hi.2, hmu i (hIlt i hi.1)]
          exact cross2_self _ _), add_zero]
      symm
      refine Finset.sum_nbij (fun i => (u i, d (next i))) ?_ ?_ ?_ ?_
      · intro i hi
        rw [Finset.mem_filter, List.mem_toFinset] at hi
        exact List.mem_toFinset.2 (hIgap i hi.1 hi.2)
      · intro i hi j hj e
        rw [Finset.mem_coe, Finset.mem_filter, List.mem_toFinset] at hi hj
        exact hl.uinj i (hIlt i hi.1) j (hIlt j hj.1) (Prod.mk.inj e).1
      · intro g hg
        rw [Finset.mem_coe, List.mem_toFinset] at hg
        obtain ⟨hg, hgT⟩ := List.mem_filter.1 hg
        have hgT := of_decide_eq_true hgT
        obtain ⟨i, hi, hgi⟩ := hl.back g hg
        have hli : Loose fs (u i) := by rw [hgi]; exact hloose g hg
        refine ⟨i, ?_, (List.inj_on_of_nodup_map honce1 hg (hgapof i hi hli) hgi.symm).symm⟩
        rw [Finset.mem_coe, Finset.mem_filter, List.mem_toFinset]
        obtain ⟨f, hf, -, hfu, -⟩ := hl.seg i hi
        refine ⟨List.mem_filter.2 ⟨List.mem_range.2 hi, ?_⟩, hli⟩
        rw [hany hf]
        exact hgT f (List.mem_of_getElem? hf) (by rw [← hgi]; exact isSide_iff.2 hfu)
      · exact fun i _ => rfl
    rw [e1, e2, hsum, InsideClosed, ← ZMod.natCast_eq_one_iff_odd, Nat.cast_add, i1, i2]
  · intro D q hD hq hqg p hp
    obtain ⟨K, hK, rfl⟩ := hall p hp
    exact cycle_sides_on (hcyc K hK) (hlt K (List.mem_append_left _ hK)) (Q := fun x y => FarFrom D (exactPt x) (exactPt y) q)
      (fun i hi => farFrom_near hD (hS i (hIlt i (hIK K hK i hi))) (hF i (hIlt i (hIK K hK i hi))) (hfarSeg _ q hq i (hIK K hK i hi)))
      (fun i _ j hj => hfollow D q hD hq i j (hIK K hK j hj))
      (fun i hi => farFrom_near hD (hF i (hIlt i (hIK K hK i hi))) (hS _ (hl.lt i (hIlt i (hIK K hK i hi)))) (hfarGap _ q hq hqg i (hIK K hK i hi)))
  · intro p hp x hx
    obtain ⟨K, hK, rfl⟩ := hall p hp
    obtain ⟨i, hi, hx⟩ : ∃ i ∈ I, x = (segAt layer i).start ∨ x = (segAt layer i).finish := by
      obtain ⟨c, hc, hx⟩ : ∃ c ∈ K, x ∈ pathOf (segmentsOf layer c) := by
        obtain ⟨l, hl', hx⟩ := List.mem_flatten.1 hx
        obtain ⟨c, hc, rfl⟩ := List.mem_map.1 hl'
        exact ⟨c, hc, hx⟩
      have hcl : ∀ i ∈ c, i ∈ K.flatten := fun i hi => List.mem_flatten.2 ⟨c, hc, hi⟩
      rw [segmentsOf_map fun i hi => hlt K (List.mem_append_left _ hK) i (hcl i hi)] at hx
      cases c with
      | nil => cases hx
      | cons i c =>
        rw [List.map_cons, pathOf, ← List.map_cons (f := segAt layer), List.map_map] at hx
        rcases List.mem_cons.1 hx with rfl | hx
        · exact ⟨i, hIK K hK i (hcl i (by simp)), .inl rfl⟩
        · obtain ⟨j, hj, rfl⟩ := List.mem_map.1 hx
          exact ⟨j, hIK K hK j (hcl j hj), .inr rfl⟩
    obtain ⟨f, hf, hd, hu, hdd, huu, ho, ho'⟩ := hl.seg i (hIlt i hi)
    refine ⟨f, hIface i hi f hf, ?_⟩
    rcases hx with rfl | rfl
    · exact ⟨_, isSide_iff.2 hd, .inl hdd, ho⟩
    · exact ⟨_, isSide_iff.2 hu, .inr huu, ho'⟩
  · intro p hp
    obtain ⟨K, hK, rfl⟩ := hall p hp
    have e1 := joined_length (layer := layer) K fun c hc => ((hcyc K hK).chains c hc).1
    have e2 : K.flatten.length ≤ ((kept ++ lost).map List.flatten).flatten.length := (List.sublist_flatten_of_mem (List.mem_map.2 ⟨K, List.mem_append_left _ hK, rfl⟩)).length_le
    have e3 := hperm.length_eq
    rw [List.flatten_flatten, List.length_range] at e3
    omega

/-- **C148** An outline which has a wide gap is lost as a whole, and nothing else: the outlines of the layer are those of the faces whose cuts do not lead to a wide gap, closed by straight lines over their gaps. -/
theorem C148_outlines (o : Options) (m : Mesh) (om : OptModel) (hom : optimize o m = .ok om) (fs : List (Tri Vec3)) (gaps : List Gap) (hfs : om.faces.mapM om.facePoints = .ok fs)
    (hmeld : 2 ≤ o.slicing.meldDistance) (hjoin : 2 ≤ o.slicing.joinPolygonSnapDistance) (hsmall : o.slicing.joinPolygonSnapDistance < 2 ^ 26) (ht : 0 < o.print.layerThickness)
    (hfin : o.slicing.finishPolygonSnapDistance < 2 ^ 26 - 1)
    (layers : List (Option SliceLayer)) (h : sliceSegments o om = .ok layers) (n : Nat) (layer : SliceLayer) (hn : layers[n]? = some (some layer))
    (hm : TornAt o (layerHeight o n) gaps fs) :
    ∃ paths, makePolygons o om layer = .ok paths ∧
      ∀ q, FarEnough o (wholeFaces (o.slicing.joinPolygonSnapDistance + 4) (layerHeight o n) gaps fs) n q →
        FarFromGaps 2 (wholeGaps (o.slicing.joinPolygonSnapDistance + 4) (layerHeight o n) gaps fs) (layerHeight o n) q →
        (InsidePaths paths q ↔ InsideClosed (wholeGaps (o.slicing.joinPolygonSnapDistance + 4) (layerHeight o n) gaps fs)
          (wholeFaces (o.slicing.joinPolygonSnapDistance + 4) (layerHeight o n) gaps fs) (layerHeight o n) q) := by
  obtain ⟨paths, short, hp, hs, hin, -, hon, -⟩ := torn_outlines o m om hom fs gaps hfs hmeld hjoin hsmall ht layers h n layer hn hm
  refine ⟨paths, hp, fun q hq hqg => ?_⟩
  have hD : (0 : ℚ) ≤ ((max 0 o.slicing.finishPolygonSnapDistance : Int) : ℚ) := by exact_mod_cast le_max_left _ _
  rw [← hin q (farFromSurface_mono hq (by norm_num) (by linarith)) hqg, insidePaths_iff, insidePaths_iff, List.map_append, List.sum_append,
    short_zero hfin hs fun p hp x hx => far_corner (by linarith) hq (hon p (List.mem_append_right _ hp) x hx), add_zero]

end Verif
