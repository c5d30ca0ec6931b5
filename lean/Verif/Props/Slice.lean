import Verif.Props.Polygons
import Verif.Props.MachineSimplify

/-! # Slicing of a whole model (C56, C58–C60) -/
namespace Verif
open Verif.Go Verif.Model Verif.Spec

section
variable {meld : Int} {om : OptModel} {layer : SliceLayer}

theorem segmentsOf_getLast {c : List Nat} {b : Nat} {s : SliceSegment} (hb : c.getLast? = some b) (hs : layer.segments[b]? = some s) :
    (segmentsOf layer c).getLast? = some s := by
  rcases List.eq_nil_or_concat c with rfl | ⟨l, x, rfl⟩
  · cases hb
  · simp only [List.concat_eq_append, List.getLast?_append, List.getLast?_singleton, Option.some_or, Option.some.injEq] at hb
    subst hb
    unfold segmentsOf
    rw [List.concat_eq_append, List.filterMap_append, List.filterMap_cons, hs]
    simp

theorem segmentsOf_head {c : List Nat} {a : Nat} {s : SliceSegment} (ha : c.head? = some a) (hs : layer.segments[a]? = some s) :
    (segmentsOf layer c).head? = some s := by
  cases c with
  | nil => cases ha
  | cons x c =>
    cases ha
    simp [segmentsOf, hs]

theorem pathOf_head {ss : List SliceSegment} {s : SliceSegment} (h : ss.head? = some s) : (pathOf ss).head? = some s.start := by
  cases ss with
  | nil => cases h
  | cons a l => cases h; rfl

theorem pathOf_last {ss : List SliceSegment} {s : SliceSegment} (h : ss.getLast? = some s) : (pathOf ss).getLast? = some s.finish := by
  cases ss with
  | nil => cases h
  | cons a l =>
    rw [pathOf, List.getLast?_cons, List.getLast?_map, h]
    rfl

theorem follows_continues {c : List Nat} {a b : Nat} (ha : c.head? = some a) (hb : c.getLast? = some b) (h : Follows meld om layer b a) :
    Continues meld (pathOf (segmentsOf layer c)) (pathOf (segmentsOf layer c)) := by
  obtain ⟨s, s', _, hs, hs', _, _, hw⟩ := h
  exact ⟨s.finish, s'.start, pathOf_last (segmentsOf_getLast hb hs), pathOf_head (segmentsOf_head ha hs'), hw⟩

theorem chain_path {c : List Nat} {p : Poly} (h : IsChainOf meld om layer c p) (hc : ∀ k ∈ c, k < layer.segments.length) : p.path ≠ none ∧ p.path ≠ some [] := by
  rw [h.path]
  refine ⟨by simp, ?_⟩
  intro e
  cases c with
  | nil => exact h.nonempty rfl
  | cons k c =>
    have hk := hc k (by simp)
    rw [Option.some.injEq] at e
    simp [segmentsOf, List.getElem?_eq_getElem hk, pathOf] at e

theorem filterMap_range_getElem {α : Type} (l : List α) : (List.range l.length).filterMap (l[·]?) = l := by
  induction l with
  | nil => rfl
  | cons a l ih =>
    rw [List.length_cons, List.range_succ_eq_map, List.filterMap_cons]
    simp only [List.getElem?_cons_zero, List.filterMap_map]
    congr 1

theorem pathsOf_chains {chains : List (List Nat)} {polys : List Poly} (hch : List.Forall₂ (IsChainOf meld om layer) chains polys) (g : List Nat) :
    pathsOf polys g = (g.filterMap (chains[·]?)).map fun c => pathOf (segmentsOf layer c) := by
  unfold pathsOf
  rw [List.map_filterMap]
  congr 1
  funext k
  have hlen := hch.length_eq
  by_cases hk : k < chains.length
  · have hk' : k < polys.length := by omega
    have := (List.forall₂_iff_get.1 hch).2 k hk hk'
    rw [List.getElem?_eq_getElem hk, List.getElem?_eq_getElem hk']
    exact this.path
  · rw [List.getElem?_eq_none_iff.2 (by omega), List.getElem?_eq_none_iff.2 (by omega)]
    rfl

theorem forall₂_filterMap {α β γ : Type} {R : α → β → Prop} {as : List α} {bs : List β} (f : β → Option γ) (h : List.Forall₂ R as bs) :
    ∃ as' : List α, as'.Sublist as ∧ List.Forall₂ (fun a c => ∃ b ∈ bs, R a b ∧ f b = some c) as' (bs.filterMap f) := by
  induction h with
  | nil => exact ⟨[], List.Sublist.refl _, .nil⟩
  | @cons a b as bs hab h ih =>
    obtain ⟨as', hsub, hf⟩ := ih
    have hf' : List.Forall₂ (fun a c => ∃ b' ∈ b :: bs, R a b' ∧ f b' = some c) as' (bs.filterMap f) :=
      hf.imp fun a c ⟨b', hb', h⟩ => ⟨b', by simp [hb'], h⟩
    cases e : f b with
    | none => exact ⟨as', hsub.cons _, by rw [List.filterMap_cons, e]; exact hf'⟩
    | some c =>
      refine ⟨a :: as', hsub.cons_cons _, ?_⟩
      rw [List.filterMap_cons, e]
      exact .cons ⟨b, by simp, hab, e⟩ hf'

/-- **C57**, **C58** The polygons of a layer can always be made. Each of them goes along chains of segments, the chains being at most the join distance apart. No segment
is used twice, neither in one polygon nor in two. Each polygon ends within the meld distance, the join distance or the finish distance of its start, and is longer
than the finish distance. -/
theorem C58_delivered (o : Options) (hg : GoodLayer om layer) : ∃ (paths : Paths) (css : List (List (List Nat))), makePolygons o om layer = .ok paths ∧
    List.Forall₂ (IsOutline o.slicing.meldDistance o.slicing.joinPolygonSnapDistance om layer) css paths ∧
    css.flatten.flatten.Subperm (List.range layer.segments.length) ∧
    ∀ path ∈ paths, (Continues o.slicing.meldDistance path path ∨ Continues o.slicing.joinPolygonSnapDistance path path ∨
      Continues o.slicing.finishPolygonSnapDistance path path) ∧ o.slicing.finishPolygonSnapDistance < pathLength path := by
  obtain ⟨polys, chains, e1, hch, hperm, -⟩ := C57_partition (meld := o.slicing.meldDistance) hg
  have hlen := hch.length_eq
  have hmem : ∀ c ∈ chains, ∀ k ∈ c, k < layer.segments.length := fun c hc k hk =>
    List.mem_range.1 (hperm.mem_iff.1 (List.mem_flatten.2 ⟨c, hc, hk⟩))
  have h0 : ∀ p ∈ polys, p.path ≠ none ∧ p.path ≠ some [] := by
    intro p hp
    obtain ⟨k, hk⟩ := List.getElem?_of_mem hp
    obtain ⟨hk', rfl⟩ := List.getElem?_eq_some_iff.1 hk
    have hkc : k < chains.length := by omega
    exact chain_path ((List.forall₂_iff_get.1 hch).2 k hkc hk') (hmem _ (List.getElem_mem hkc))
  obtain ⟨polys', groups, e2, hj, hperm2, -⟩ := C58_join o.slicing.joinPolygonSnapDistance polys h0
  have hne' : ∀ p ∈ polys', p.path ≠ some [] := by
    apply joinInv_nonempty h0
    exact ⟨hj.length_eq, fun k g p hg hp => by
      obtain ⟨h1, rfl⟩ := List.getElem?_eq_some_iff.1 hg
      obtain ⟨h2, rfl⟩ := List.getElem?_eq_some_iff.1 hp
      exact (List.forall₂_iff_get.1 hj).2 k h1 h2, hperm2⟩
  have e3 := C58_clear o.slicing.finishPolygonSnapDistance polys' hne'
  obtain ⟨gs, hsub, hdel⟩ := forall₂_filterMap (fun p : Poly => p.path.filter fun path => decide (Delivered o.slicing.finishPolygonSnapDistance p path)) hj
  refine ⟨polys'.filterMap fun p => p.path.filter fun path => decide (Delivered o.slicing.finishPolygonSnapDistance p path),
    gs.map fun g => g.filterMap (chains[·]?), ?_, ?_, ?_, ?_⟩
  · simp only [makePolygons, e1, e2, bind, Except.bind]
    exact e3
  · rw [List.forall₂_map_left_iff]
    apply hdel.imp
    rintro g path ⟨p, hp, hjg, hf⟩
    rw [Option.filter_eq_some_iff] at hf
    obtain ⟨hpath, hd⟩ := hf
    have hd := of_decide_eq_true hd
    have hgne : g ≠ [] := fun e => by rw [hjg.none e] at hpath; cases hpath
    have hpj := hjg.path hgne
    rw [hpath, Option.some.injEq, pathsOf_chains hch] at hpj
    refine ⟨?_, ?_, hpj, ?_⟩
    · intro e
      rw [e] at hpj
      exact hne' p hp (by rw [hpath, hpj]; rfl)
    · intro c hc
      obtain ⟨k, _, hk⟩ := List.mem_filterMap.1 hc
      obtain ⟨hkc, rfl⟩ := List.getElem?_eq_some_iff.1 hk
      have := (List.forall₂_iff_get.1 hch).2 k hkc (by omega)
      exact ⟨this.nonempty, this.linked⟩
    · have := hjg.linked
      rwa [pathsOf_chains hch] at this
  · have s1 : ((gs.map fun g => g.filterMap (chains[·]?)).flatten).Sublist ((groups.map fun g => g.filterMap (chains[·]?)).flatten) :=
      (hsub.map _).flatten
    have s2 : ((groups.map fun g => g.filterMap (chains[·]?)).flatten) = groups.flatten.filterMap (chains[·]?) := by
      rw [List.filterMap_flatten]
    have s3 := hperm2.filterMap (chains[·]?)
    rw [← hlen, filterMap_range_getElem] at s3
    rw [s2] at s1
    have s4 : ((gs.map fun g => g.filterMap (chains[·]?)).flatten.flatten).Sublist (groups.flatten.filterMap (chains[·]?)).flatten := s1.flatten
    exact s4.subperm.trans (s3.flatten.trans hperm).subperm
  · intro path hpath
    obtain ⟨p, hp, hf⟩ := List.mem_filterMap.1 hpath
    rw [Option.filter_eq_some_iff] at hf
    obtain ⟨hpp, hd⟩ := hf
    obtain ⟨-, hd, hlong⟩ := of_decide_eq_true hd
    refine ⟨?_, hlong⟩
    rcases hd with hd | hd
    · obtain ⟨k, hk⟩ := List.getElem?_of_mem hp
      obtain ⟨hk', rfl⟩ := List.getElem?_eq_some_iff.1 hk
      have hkg : k < groups.length := by rw [hj.length_eq]; exact hk'
      have jk := (List.forall₂_iff_get.1 hj).2 k hkg hk'
      simp only [List.get_eq_getElem] at jk
      have hgne : groups[k] ≠ [] := fun e => by rw [jk.none e] at hpp; cases hpp
      have hpj := jk.path hgne
      rw [hpp, Option.some.injEq] at hpj
      by_cases h2 : 2 ≤ groups[k].length
      · rw [jk.closed h2, ← hpj] at hd
        exact .inr (.inl hd)
      · obtain ⟨m, hm⟩ : ∃ m, groups[k] = [m] := by
          have := List.length_pos_of_ne_nil hgne
          exact List.length_eq_one_iff.1 (by omega)
        have hpm := jk.one m hm
        obtain ⟨hm', hpm⟩ := List.getElem?_eq_some_iff.1 hpm
        have hmc : m < chains.length := by omega
        have cm := (List.forall₂_iff_get.1 hch).2 m hmc hm'
        simp only [List.get_eq_getElem] at cm
        rw [hpm] at cm
        obtain ⟨a, b, ha, hb, hf⟩ := cm.closed.1 hd
        have hpath' := cm.path
        rw [hpp, Option.some.injEq] at hpath'
        left
        rw [hpath']
        exact follows_continues ha hb hf
    · exact .inr (.inr hd)

end

/-- **C59** (violation) The function which is to remove the duplicated last point of a closed polygon never changes a polygon. -/
theorem C59_nothing (p : Path) : removeLastPoint p = p := removeLastPoint_id p

/-! ## Layers -/

theorem goodLayer_of {o : Options} {om : OptModel} {layers : List (Option SliceLayer)} {layer : SliceLayer} {n : Nat} (h : sliceSegments o om = .ok layers)
    (ht : 0 < o.print.layerThickness) (hn : layers[n]? = some (some layer)) : GoodLayer om layer := by
  obtain ⟨fs, _, hfs, -⟩ := sliceSegments_inv h
  obtain ⟨-, h2, h3⟩ := C53_segments o om layers h ht fs hfs n layer hn
  refine ⟨h3, ?_⟩
  intro s hs
  obtain ⟨f, _, _, hf, _⟩ := h2 s hs
  have := (List.getElem?_eq_some_iff.1 hf).1
  rw [(mapM_ok.1 hfs).length_eq]
  exact this

theorem generateLayerParts_ok {lib : ClipperLib} (hlib : ∀ s, (lib.execute .union s []).isSome) (paths : Paths) :
    ∃ parts, lib.generateLayerParts paths = .ok (some parts) := by
  obtain ⟨simple, hs⟩ : ∃ simple, paths.mapM (fun p => simplifyM p (-1) (-1)) = .ok simple := by
    induction paths with
    | nil => exact ⟨[], rfl⟩
    | cons p ps ih =>
      obtain ⟨r, hr, _⟩ := C08_int64 p (-1) (-1)
      obtain ⟨rs, hrs⟩ := ih
      exact ⟨r :: rs, by simp only [List.mapM_cons, hr, hrs, bind, Except.bind, pure, Except.pure]⟩
  simp only [ClipperLib.generateLayerParts, hs, bind, Except.bind]
  split
  · exact ⟨[], rfl⟩
  · obtain ⟨t, ht⟩ := Option.isSome_iff_exists.1 (hlib (clipperPaths simple))
    exact ⟨_, by rw [ht]; rfl⟩

theorem finishLayer_ok {lib : ClipperLib} {o : Options} {om : OptModel} {layer : SliceLayer} (hlib : ∀ s, (lib.execute .union s []).isSome)
    (hg : GoodLayer om layer) : ∃ l, finishLayer lib o om (some layer) = .ok l := by
  obtain ⟨paths, _, e, _⟩ := C58_delivered o hg
  obtain ⟨parts, hp⟩ := generateLayerParts_ok hlib paths
  exact ⟨_, by simp only [finishLayer, e, hp, bind, Except.bind]; rfl⟩

/-- **C60** (violation) If no face reaches the height of a layer between bottom and top, slicing panics (if the library works). -/
theorem C60_gap (lib : ClipperLib) (hlib : ∀ s, (lib.execute .union s []).isSome) (o : Options) (om : OptModel) (layers : List (Option SliceLayer))
    (h : sliceSegments o om = .ok layers) (ht : 0 < o.print.layerThickness) (fs : List (Tri Vec3)) (hfs : om.faces.mapM om.facePoints = .ok fs)
    (n : Nat) (hn : n < layers.length) (hr : ∀ f ∈ fs, ¬ ReachesLayer o.print.initialLayerThickness o.print.layerThickness n f) :
    slice lib o om = .error (.panic "nil pointer dereference") := by
  have hnone := (C53_layers o om layers h ht fs hfs n hn).2 hr
  have hgood : ∀ l, some l ∈ layers → GoodLayer om l := by
    intro l hl
    obtain ⟨k, hk⟩ := List.getElem?_of_mem hl
    exact goodLayer_of h ht hk
  have hmem : none ∈ layers := List.mem_of_getElem? hnone
  have key : ∀ ls : List (Option SliceLayer), (∀ l, some l ∈ ls → GoodLayer om l) → none ∈ ls →
      ls.mapM (finishLayer lib o om) = .error (.panic "nil pointer dereference") := by
    intro ls
    induction ls with
    | nil => intro _ h; cases h
    | cons l ls ih =>
      intro hg hm
      cases l with
      | none => rw [List.mapM_cons]; rfl
      | some l =>
        obtain ⟨r, hr⟩ := finishLayer_ok (lib := lib) (o := o) hlib (hg l (by simp))
        have := ih (fun l hl => hg l (by simp [hl])) (by simpa using hm)
        simp only [List.mapM_cons, hr, this, bind, Except.bind]
  simp only [slice, h, bind, Except.bind]
  exact key layers hgood hmem

/-- **C60** If each layer is reached by a face, and the library works, slicing succeeds and delivers each layer. -/
theorem C60_succeeds (lib : ClipperLib) (hlib : ∀ s, (lib.execute .union s []).isSome) (o : Options) (om : OptModel) (layers : List (Option SliceLayer))
    (h : sliceSegments o om = .ok layers) (ht : 0 < o.print.layerThickness) (fs : List (Tri Vec3)) (hfs : om.faces.mapM om.facePoints = .ok fs)
    (hr : ∀ n < layers.length, ∃ f ∈ fs, ReachesLayer o.print.initialLayerThickness o.print.layerThickness n f) :
    ∃ ls, slice lib o om = .ok ls ∧ ls.length = layers.length := by
  have hgood : ∀ l ∈ layers, ∃ r, finishLayer lib o om l = .ok r := by
    intro l hl
    obtain ⟨k, hk⟩ := List.getElem?_of_mem hl
    cases l with
    | none =>
      obtain ⟨f, hf, hrf⟩ := hr k (List.getElem?_eq_some_iff.1 hk).1
      exact absurd hrf ((C53_layers o om layers h ht fs hfs k (List.getElem?_eq_some_iff.1 hk).1).1 hk f hf)
    | some l => exact finishLayer_ok hlib (goodLayer_of h ht hk)
  have key : ∀ ls : List (Option SliceLayer), (∀ l ∈ ls, ∃ r, finishLayer lib o om l = .ok r) → ∃ rs, ls.mapM (finishLayer lib o om) = .ok rs ∧ rs.length = ls.length := by
    intro ls
    induction ls with
    | nil => intro _; exact ⟨[], rfl, rfl⟩
    | cons l ls ih =>
      intro hg
      obtain ⟨r, hr⟩ := hg l (by simp)
      obtain ⟨rs, hrs, hlen⟩ := ih fun l hl => hg l (by simp [hl])
      exact ⟨r :: rs, by simp only [List.mapM_cons, hr, hrs, bind, Except.bind, pure, Except.pure], by simp [hlen]⟩
  simp only [slice, h, bind, Except.bind]
  exact key layers hgood

/-! ## Closed surfaces -/

theorem isSide_faceSide {f : Tri Vec3} {s : Vec3 × Vec3} (h : IsSide f s) : ∃ n < 3, faceSide f n = s := by
  rcases h with rfl | rfl | rfl
  · exact ⟨0, by decide, rfl⟩
  · exact ⟨1, by decide, rfl⟩
  · exact ⟨2, by decide, rfl⟩

theorem isSide_hasSide {f : Tri Vec3} {s : Vec3 × Vec3} (h : IsSide f s) : HasSide f s := by
  rcases h with rfl | rfl | rfl <;> simp [HasSide, Tri.corners]

theorem crosses_of_down {z : Int} {f : Tri Vec3} {s : Vec3 × Vec3} (h : IsSide f s) (hd : Down z s)
    (ht : ¬ (belowCount z f = 2 ∧ ∃ p ∈ f.corners, p.z = z)) : Crosses z f := by
  have hc : belowCount z f = 1 ∨ belowCount z f = 2 := by
    unfold belowCount Down at *
    simp only [Tri.corners, List.countP_cons, List.countP_nil, decide_eq_true_eq]
    rcases h with rfl | rfl | rfl <;> simp only at hd <;> (split <;> split <;> split) <;> omega
  rcases hc with hc | hc
  · exact .inl hc
  · refine .inr ⟨hc, fun p hp e => ht ⟨hc, p, hp, e⟩⟩

theorem isSide_not_both {f : Tri Vec3} {s : Vec3 × Vec3} (hp : Proper f) (h : IsSide f s) : ¬ IsSide f s.swap := by
  obtain ⟨p1, p2, p3⟩ := hp
  rintro (h' | h' | h') <;> rcases h with rfl | rfl | rfl <;> simp only [Prod.swap, Prod.mk.injEq] at h' <;> obtain ⟨e1, e2⟩ := h' <;>
    first | exact p1 e1 | exact p1 e1.symm | exact p1 e2 | exact p1 e2.symm | exact p2 e1 | exact p2 e1.symm | exact p2 e2 | exact p2 e2.symm | exact p3 e1 |
      exact p3 e1.symm | exact p3 e2 | exact p3 e2.symm

theorem within_of_near {p q : Pt} {d : Int} (hd : 2 ≤ d) (hx : |p.x - q.x| ≤ 1) (hy : |p.y - q.y| ≤ 1) : Within p q d := by
  refine ⟨by omega, ?_⟩
  have h1 := sq_le_sq' (abs_le.1 hx).1 (abs_le.1 hx).2
  have h2 := sq_le_sq' (abs_le.1 hy).1 (abs_le.1 hy).2
  nlinarith

theorem ofSide_mem {α : Type} (t : Tri α) (n : Nat) : ofSide t n ∈ t.corners := by
  unfold ofSide Tri.corners
  split <;> simp

theorem cycles_exact (o : Options) (m : Mesh) (om : OptModel) (hom : optimize o m = .ok om) (fs : List (Tri Vec3)) (hfs : om.faces.mapM om.facePoints = .ok fs)
    (hclosed : ClosedSurface fs) (hmeld : 2 ≤ o.slicing.meldDistance) (ht : 0 < o.print.layerThickness) (layers : List (Option SliceLayer))
    (h : sliceSegments o om = .ok layers) (n : Nat) (layer : SliceLayer) (hn : layers[n]? = some (some layer))
    (htip : NoTip (heightOf o.print.initialLayerThickness o.print.layerThickness n) fs) :
    ∃ σ : Equiv.Perm (Fin layer.segments.length), ∀ a : Fin layer.segments.length, Follows o.slicing.meldDistance om layer a (σ a) ∧
      ∃ f g u, fs[layer.segments[a].faceIndex]? = some f ∧ fs[layer.segments[σ a].faceIndex]? = some g ∧ IsSide f u ∧
        Up (heightOf o.print.initialLayerThickness o.print.layerThickness n) u ∧ IsSide g u.swap := by
  obtain ⟨h1, h2, h3⟩ := C53_segments o om layers h ht fs hfs n layer hn
  obtain ⟨hproper, -⟩ := C47_faces o m om hom fs hfs
  generalize heightOf o.print.initialLayerThickness o.print.layerThickness n = z at *
  have hlenf := (mapM_ok.1 hfs).length_eq
  -- for each segment, the segment of the face on the other side
  have step : ∀ a : Fin layer.segments.length, ∃ b : Fin layer.segments.length, Follows o.slicing.meldDistance om layer a b ∧
      ∃ f g u, fs[layer.segments[a].faceIndex]? = some f ∧ fs[layer.segments[b].faceIndex]? = some g ∧ IsSide f u ∧ Up z u ∧ IsSide g u.swap := by
    intro a
    obtain ⟨f, d, u, hf, hd, hu, hdd, huu, hos, hoe⟩ := h2 _ (List.getElem_mem a.2)
    obtain ⟨j, g, hji, hgj, hgs, honly⟩ := hclosed _ f u hf hu
    have hcross : Crosses z g := crosses_of_down hgs (show Down z u.swap from ⟨huu.1, huu.2⟩) (htip g (List.mem_of_getElem? hgj))
    have hmem : j ∈ layer.segments.map SliceSegment.faceIndex := by
      rw [h1, List.mem_filter, List.mem_range]
      refine ⟨(List.getElem?_eq_some_iff.1 hgj).1, ?_⟩
      rw [hgj]
      simpa using hcross
    obtain ⟨sb, hsb, hsbj⟩ := List.mem_map.1 hmem
    obtain ⟨b, hb⟩ := List.getElem?_of_mem hsb
    obtain ⟨hbl, hbe⟩ := List.getElem?_eq_some_iff.1 hb
    have hgb : fs[layer.segments[b].faceIndex]? = some g := by rw [hbe, hsbj]; exact hgj
    refine ⟨⟨b, hbl⟩, ?_, f, g, u, hf, hgb, hu, huu, hgs⟩
    obtain ⟨g', d', u', hg', hd', hu', hdd', huu', hos', hoe'⟩ := h2 _ (List.getElem_mem hbl)
    rw [hgb] at hg'
    cases hg'
    have e := down_unique hgs hd' (show Down z u.swap from ⟨huu.1, huu.2⟩) hdd'
    subst e
    have hzne : u.1.z ≠ u.2.z := by unfold Up at huu; omega
    rw [onSide_swap (by simpa using Ne.symm hzne)] at hos'
    have hfl : layer.segments[a].faceIndex < om.faces.length := by rw [hlenf]; exact (List.getElem?_eq_some_iff.1 hf).1
    have hjl : j < om.faces.length := by rw [hlenf]; exact (List.getElem?_eq_some_iff.1 hgj).1
    obtain ⟨nn, hnn, hside⟩ := isSide_faceSide hu
    obtain ⟨nn', hnn', hside'⟩ := isSide_faceSide hgs
    have htouch := (C50_mutual o m om hom fs hfs _ j _ _ f g (List.getElem?_eq_getElem hfl) hf (List.getElem?_eq_getElem hjl) hgj
      (fun e => hji e.symm) nn nn' hnn hnn' (.inr (by rw [hside, hside'])) (by rw [hside]; exact honly)).1
    refine ⟨layer.segments[a], layer.segments[b], om.faces[layer.segments[a].faceIndex], List.getElem?_eq_getElem a.2, List.getElem?_eq_getElem hbl,
      List.getElem?_eq_getElem hfl, ?_, ?_⟩
    · rw [hbe, hsbj, ← htouch]
      exact ofSide_mem _ _
    · exact within_of_near hmeld (near_near hoe.1 hos'.1) (near_near hoe.2 hos'.2)
  choose σ hσ hface using step
  have hinj : Function.Injective σ := by
    intro a a' e
    obtain ⟨f, g, u, hf, hg, hu, huu, hgs⟩ := hface a
    obtain ⟨f', g', u', hf', hg', hu', huu', hgs'⟩ := hface a'
    rw [← e, hg] at hg'
    cases hg'
    have eu := down_unique hgs hgs' (show Down z u.swap from ⟨huu.1, huu.2⟩) (show Down z u'.swap from ⟨huu'.1, huu'.2⟩)
    have eu : u = u' := Prod.swap_injective eu
    subst eu
    obtain ⟨j, g2, hji, hgj, hgs2, honly⟩ := hclosed _ f u hf hu
    have hkb := honly _ g hg (by have := isSide_hasSide hgs; exact ⟨this.2, this.1⟩)
    have hk := honly _ f' hf' (isSide_hasSide hu')
    have hidx : layer.segments[a'].faceIndex = layer.segments[a].faceIndex := by
      rcases hk with hk | hk
      · exact hk
      · exfalso
        rcases hkb with hkb | hkb
        · rw [hkb, hf] at hg
          cases hg
          exact isSide_not_both (hproper _ (List.mem_of_getElem? hf)) hu hgs
        · rw [hk, ← hkb, hg] at hf'
          cases hf'
          exact isSide_not_both (hproper _ (List.mem_of_getElem? hg)) hu' hgs
    have m1 := (h3 layer.segments[a].faceIndex a).2 (by rw [List.getElem?_eq_getElem a.2]; rfl)
    have m2 := (h3 layer.segments[a].faceIndex a').2 (by rw [List.getElem?_eq_getElem a'.2, ← hidx]; rfl)
    rw [m1, Option.some.injEq] at m2
    exact Fin.ext m2
  exact ⟨Equiv.ofBijective σ (Finite.injective_iff_bijective.1 hinj), fun a => ⟨hσ a, hface a⟩⟩

/-- **C56** For a closed surface the segments of a layer can be put into cycles: there is a permutation of the segments which gives for each one a segment following it,
in the face on the other side of the side it ends on. -/
theorem C56_cycles (o : Options) (m : Mesh) (om : OptModel) (hom : optimize o m = .ok om) (fs : List (Tri Vec3)) (hfs : om.faces.mapM om.facePoints = .ok fs)
    (hclosed : ClosedSurface fs) (hmeld : 2 ≤ o.slicing.meldDistance) (ht : 0 < o.print.layerThickness) (layers : List (Option SliceLayer))
    (h : sliceSegments o om = .ok layers) (n : Nat) (layer : SliceLayer) (hn : layers[n]? = some (some layer))
    (htip : NoTip (heightOf o.print.initialLayerThickness o.print.layerThickness n) fs) :
    ∃ σ : Equiv.Perm (Fin layer.segments.length), ∀ a : Fin layer.segments.length, Follows o.slicing.meldDistance om layer a (σ a) := by
  obtain ⟨σ, hσ⟩ := cycles_exact o m om hom fs hfs hclosed hmeld ht layers h n layer hn htip
  exact ⟨σ, fun a => (hσ a).1⟩

theorem chain_pred {α : Type} {R : α → α → Prop} {c : List α} (h : c.IsChain R) {x : α} (hx : x ∈ c) : c.head? = some x ∨ ∃ y ∈ c.dropLast, R y x := by
  induction c with
  | nil => cases hx
  | cons a l ih =>
    rcases List.mem_cons.1 hx with rfl | hx
    · exact .inl rfl
    · rw [List.isChain_cons] at h
      have hl : l ≠ [] := by rintro rfl; cases hx
      right
      rcases ih h.2 hx with hh | ⟨y, hy, hr⟩
      · exact ⟨a, by rw [List.dropLast_cons_of_ne_nil hl]; simp, h.1 x hh⟩
      · exact ⟨y, by rw [List.dropLast_cons_of_ne_nil hl]; simp [hy], hr⟩

theorem last_not_mem_dropLast {α : Type} {c : List α} (h : c.Nodup) {b : α} (hb : c.getLast? = some b) : b ∉ c.dropLast := by
  rcases List.eq_nil_or_concat c with rfl | ⟨l, x, rfl⟩
  · cases hb
  · simp only [List.concat_eq_append, List.getLast?_append, List.getLast?_singleton, Option.some_or, Option.some.injEq] at hb
    subst hb
    rw [List.concat_eq_append] at h ⊢
    rw [List.dropLast_concat]
    intro hm
    rw [List.nodup_append] at h
    exact h.2.2 x hm x (by simp) rfl

theorem chains_disjoint {L : List (List Nat)} (h : L.flatten.Nodup) {i k : Nat} {c d : List Nat} (hi : L[i]? = some c) (hk : L[k]? = some d) {x : Nat} (hx : x ∈ c)
    (hy : x ∈ d) : i = k := by
  rw [List.nodup_flatten] at h
  obtain ⟨hi', rfl⟩ := List.getElem?_eq_some_iff.1 hi
  obtain ⟨hk', rfl⟩ := List.getElem?_eq_some_iff.1 hk
  have hp := List.pairwise_iff_getElem.1 h.2
  rcases Nat.lt_trichotomy i k with hlt | rfl | hlt
  · exact absurd hy (hp i k hi' hk' hlt hx)
  · rfl
  · exact absurd hx (hp k i hk' hi' hlt hy)

theorem cycles_closed {meld : Int} {om : OptModel} {layer : SliceLayer} {chains : List (List Nat)} (σ : Equiv.Perm (Fin layer.segments.length))
    (hσ : ∀ (a : Fin layer.segments.length) (b : Nat), Follows meld om layer a b ↔ b = σ a) (hperm : chains.flatten.Perm (List.range layer.segments.length))
    (hch : ∀ c ∈ chains, c ≠ [] ∧ c.IsChain (Follows meld om layer)) (hend : EndsLate meld om layer chains) (k : Nat) :
    ∀ c, chains[k]? = some c → ∃ a b, c.head? = some a ∧ c.getLast? = some b ∧ Follows meld om layer b a := by
  have hnd : chains.flatten.Nodup := hperm.symm.nodup List.nodup_range
  have hlt : ∀ c ∈ chains, ∀ x ∈ c, x < layer.segments.length := fun c hc x hx =>
    List.mem_range.1 (hperm.mem_iff.1 (List.mem_flatten.2 ⟨c, hc, hx⟩))
  induction k using Nat.strong_induction_on with
  | _ k ih =>
    intro c hk
    have hc := List.mem_of_getElem? hk
    obtain ⟨hne, hchain⟩ := hch c hc
    obtain ⟨b, hb⟩ : ∃ b, c.getLast? = some b := ⟨_, List.getLast?_eq_some_getLast hne⟩
    have hbc : b ∈ c := List.mem_of_getLast? hb
    have hbl := hlt c hc b hbc
    have hfol : Follows meld om layer b (σ ⟨b, hbl⟩) := (hσ ⟨b, hbl⟩ _).2 rfl
    have hmem := hend k c b hk hb _ hfol
    obtain ⟨d, hd, hxd⟩ := List.mem_flatten.1 hmem
    obtain ⟨i, hi⟩ := List.getElem?_of_mem hd
    have hik : i < k + 1 := by
      have := (List.getElem?_eq_some_iff.1 hi).1
      rw [List.length_take] at this
      omega
    rw [List.getElem?_take_of_lt hik] at hi
    have hdm := List.mem_of_getElem? hi
    have uniq : ∀ y, Follows meld om layer y (σ ⟨b, hbl⟩) → y = b := by
      intro y hy
      have hyl : y < layer.segments.length := by
        obtain ⟨s, _, _, hs, _⟩ := hy
        exact (List.getElem?_eq_some_iff.1 hs).1
      have := (hσ ⟨y, hyl⟩ _).1 hy
      have := σ.injective (Fin.ext this)
      exact (Fin.mk.inj this).symm
    have hnodup : ∀ c ∈ chains, c.Nodup := (List.nodup_flatten.1 hnd).1
    rcases chain_pred (hch d hdm).2 hxd with hh | ⟨y, hy, hr⟩
    · by_cases hlt' : i < k
      · obtain ⟨a', b', ha', hb', hf'⟩ := ih i hlt' d hi
        rw [hh, Option.some.injEq] at ha'
        subst ha'
        have := uniq b' hf'
        subst this
        have := chains_disjoint hnd hi hk (List.mem_of_getLast? hb') hbc
        omega
      · have : i = k := by omega
        subst this
        rw [hk, Option.some.injEq] at hi
        subst hi
        exact ⟨_, b, hh, hb, hfol⟩
    · have := uniq y hr
      subst this
      have hyd := List.mem_of_mem_dropLast hy
      have := chains_disjoint hnd hi hk hyd hbc
      subst this
      rw [hk, Option.some.injEq] at hi
      subst hi
      exact absurd hy (last_not_mem_dropLast (hnodup _ hc) hb)

/-- **C56** If each segment of a layer is followed by one segment only, and each segment follows only one, all polygons are closed: the outlines of the layer go along the cycles of the segments, each
segment is used exactly once, and nothing is joined. Only outlines which are not longer than the finish distance are left out. -/
theorem C56_outlines (o : Options) (om : OptModel) (layer : SliceLayer) (hg : GoodLayer om layer) (σ : Equiv.Perm (Fin layer.segments.length))
    (hσ : ∀ (a : Fin layer.segments.length) (b : Nat), Follows o.slicing.meldDistance om layer a b ↔ b = σ a) :
    ∃ chains : List (List Nat), chains.flatten.Perm (List.range layer.segments.length) ∧
      (∀ c ∈ chains, c.IsChain (Follows o.slicing.meldDistance om layer) ∧
        ∃ a b, c.head? = some a ∧ c.getLast? = some b ∧ Follows o.slicing.meldDistance om layer b a) ∧
      makePolygons o om layer = .ok ((chains.map fun c => pathOf (segmentsOf layer c)).filter
        fun path => decide (o.slicing.finishPolygonSnapDistance < pathLength path)) := by
  obtain ⟨polys, chains, e1, hch, hperm, hend⟩ := C57_partition (meld := o.slicing.meldDistance) hg
  have hchk : ∀ (k : Nat) c, chains[k]? = some c → ∃ p, polys[k]? = some p ∧ IsChainOf o.slicing.meldDistance om layer c p := by
    intro k c hk
    obtain ⟨hk', rfl⟩ := List.getElem?_eq_some_iff.1 hk
    have hp : k < polys.length := by rw [← hch.length_eq]; exact hk'
    exact ⟨_, List.getElem?_eq_getElem hp, (List.forall₂_iff_get.1 hch).2 k hk' hp⟩
  have hcs : ∀ c ∈ chains, c ≠ [] ∧ c.IsChain (Follows o.slicing.meldDistance om layer) := by
    intro c hc
    obtain ⟨k, hk⟩ := List.getElem?_of_mem hc
    obtain ⟨p, _, h⟩ := hchk k c hk
    exact ⟨h.nonempty, h.linked⟩
  have hclosed := cycles_closed σ hσ hperm hcs hend
  refine ⟨chains, hperm, ?_, ?_⟩
  · intro c hc
    obtain ⟨k, hk⟩ := List.getElem?_of_mem hc
    exact ⟨(hcs c hc).2, hclosed k c hk⟩
  · have hpolys : polys = chains.map fun c => ⟨some (pathOf (segmentsOf layer c)), true⟩ := by
      apply List.ext_getElem?
      intro k
      rw [List.getElem?_map]
      cases hk : chains[k]? with
      | none =>
        rw [List.getElem?_eq_none_iff, hch.length_eq] at hk
        rw [List.getElem?_eq_none_iff.2 hk]; rfl
      | some c =>
        obtain ⟨p, hp, h⟩ := hchk k c hk
        rw [hp, Option.map_some]
        have h1 := h.path
        have h2 := h.closed.2 (hclosed k c hk)
        cases p
        simp only at h1 h2
        rw [h1, h2]
    have hne : ∀ p ∈ polys, p.path ≠ some [] := by
      intro p hp
      obtain ⟨k, hk⟩ := List.getElem?_of_mem hp
      have hkl := (List.getElem?_eq_some_iff.1 hk).1
      have hkc : k < chains.length := by rw [hch.length_eq]; exact hkl
      obtain ⟨p', hp', h⟩ := hchk k _ (List.getElem?_eq_getElem hkc)
      rw [hk] at hp'
      cases hp'
      exact (chain_path h fun x hx => List.mem_range.1 (hperm.mem_iff.1 (List.mem_flatten.2 ⟨_, List.getElem_mem hkc, hx⟩))).2
    obtain ⟨r, e2, hstep, _⟩ := joinPass_spec (join := o.slicing.joinPolygonSnapDistance) hne polys 0 rfl
    have hr : r = none := by
      cases r with
      | none => rfl
      | some polys' =>
        obtain ⟨i, p, b, q, last, cl, hp, _⟩ := hstep _ rfl
        rw [hpolys, List.getElem?_map] at hp
        cases hk : chains[i]? with
        | none => rw [hk] at hp; cases hp
        | some c => rw [hk] at hp; simp at hp
    subst hr
    have e3 := C58_clear o.slicing.finishPolygonSnapDistance polys hne
    simp only [makePolygons, e1, joinAll, e2, bind, Except.bind, pure, Except.pure, e3, Except.ok.injEq]
    rw [hpolys, List.filterMap_map, List.filter_map, ← List.filterMap_eq_filter, List.map_filterMap]
    congr 1
    funext c
    simp only [Function.comp, Option.filter_some, Delivered, true_or, true_and]
    by_cases hl : o.slicing.finishPolygonSnapDistance < pathLength (pathOf (segmentsOf layer c))
    · simp [hl, Option.guard]
    · simp [hl, Option.guard]

theorem within_twice {p q r : Pt} {d : Int} (h1 : Within p q d) (h2 : Within p r d) : Within q r (2 * d) := by
  obtain ⟨h0, h1⟩ := h1
  obtain ⟨-, h2⟩ := h2
  refine ⟨by omega, ?_⟩
  nlinarith [sq_nonneg (q.x - p.x + (r.x - p.x)), sq_nonneg (q.y - p.y + (r.y - p.y))]

/-- **C56** For a closed surface whose segments of a layer start more than twice the meld distance apart, all outlines of the layer are closed, they use each segment of the layer exactly once and no gap is
joined. -/
theorem C56_surface (o : Options) (m : Mesh) (om : OptModel) (hom : optimize o m = .ok om) (fs : List (Tri Vec3)) (hfs : om.faces.mapM om.facePoints = .ok fs)
    (hclosed : ClosedSurface fs) (hmeld : 2 ≤ o.slicing.meldDistance) (ht : 0 < o.print.layerThickness) (layers : List (Option SliceLayer))
    (h : sliceSegments o om = .ok layers) (n : Nat) (layer : SliceLayer) (hn : layers[n]? = some (some layer))
    (htip : NoTip (heightOf o.print.initialLayerThickness o.print.layerThickness n) fs)
    (hapart : layer.segments.Pairwise fun s s' => ¬ Within s.start s'.start (2 * o.slicing.meldDistance)) :
    ∃ chains : List (List Nat), chains.flatten.Perm (List.range layer.segments.length) ∧
      (∀ c ∈ chains, c.IsChain (Follows o.slicing.meldDistance om layer) ∧
        ∃ a b, c.head? = some a ∧ c.getLast? = some b ∧ Follows o.slicing.meldDistance om layer b a) ∧
      makePolygons o om layer = .ok ((chains.map fun c => pathOf (segmentsOf layer c)).filter
        fun path => decide (o.slicing.finishPolygonSnapDistance < pathLength path)) := by
  obtain ⟨σ, hσ⟩ := C56_cycles o m om hom fs hfs hclosed hmeld ht layers h n layer hn htip
  apply C56_outlines o om layer (goodLayer_of h ht hn) σ
  intro a b
  constructor
  · intro hf
    obtain ⟨s, s', f, e1, e2, -, -, hw⟩ := hf
    obtain ⟨s1, s1', f1, e3, e4, -, -, hw1⟩ := hσ a
    rw [e1] at e3
    cases e3
    obtain ⟨hb, rfl⟩ := List.getElem?_eq_some_iff.1 e2
    obtain ⟨hc, rfl⟩ := List.getElem?_eq_some_iff.1 e4
    rw [List.pairwise_iff_getElem] at hapart
    rcases Nat.lt_trichotomy b (σ a) with hlt | heq | hlt
    · exact absurd (within_twice hw hw1) (hapart _ _ hb hc hlt)
    · exact heq
    · exact absurd (within_twice hw1 hw) (hapart _ _ hc hb hlt)
  · rintro rfl
    exact hσ a

/-! ## Examples -/

theorem tetra_segments : (sliceSegments {} tetraOpt).map (List.map (Option.map SliceLayer.segments)) = .ok
    [some [⟨⟨99500, 99500⟩, ⟨100300, 99500⟩, 1⟩, ⟨⟨99500, 100300⟩, ⟨99500, 99500⟩, 2⟩, ⟨⟨100300, 99500⟩, ⟨99500, 100300⟩, 3⟩],
     some [⟨⟨99500, 99500⟩, ⟨100100, 99500⟩, 1⟩, ⟨⟨99500, 100100⟩, ⟨99500, 99500⟩, 2⟩, ⟨⟨100100, 99500⟩, ⟨99500, 100100⟩, 3⟩],
     some [⟨⟨99500, 99500⟩, ⟨99900, 99500⟩, 1⟩, ⟨⟨99500, 99900⟩, ⟨99500, 99500⟩, 2⟩, ⟨⟨99900, 99500⟩, ⟨99500, 99900⟩, 3⟩],
     some [⟨⟨99500, 99500⟩, ⟨99700, 99500⟩, 1⟩, ⟨⟨99500, 99700⟩, ⟨99500, 99500⟩, 2⟩, ⟨⟨99700, 99500⟩, ⟨99500, 99700⟩, 3⟩],
     some []] := by decide +kernel

/-- The second layer of the tetrahedron. -/
theorem tetra_layer : ∃ layers layer, sliceSegments {} tetraOpt = .ok layers ∧ layers[1]? = some (some layer) ∧
    layer.segments = [⟨⟨99500, 99500⟩, ⟨100100, 99500⟩, 1⟩, ⟨⟨99500, 100100⟩, ⟨99500, 99500⟩, 2⟩, ⟨⟨100100, 99500⟩, ⟨99500, 100100⟩, 3⟩] := by
  obtain ⟨layers, h, -⟩ := tetra_sliced
  have e := tetra_segments
  rw [h] at e
  have e := Except.ok.inj e
  have e1 := congrArg (fun l => l[1]?) e
  simp only [List.getElem?_map, List.getElem?_cons_succ, List.getElem?_cons_zero, Option.map_eq_some_iff] at e1
  obtain ⟨l, hl, layer, rfl, hs⟩ := e1
  exact ⟨layers, layer, h, hl, hs⟩

/-- The assumptions of C56 are met by the tetrahedron. -/
example : ∃ layers layer, sliceSegments {} tetraOpt = .ok layers ∧ layers[1]? = some (some layer) ∧
    ∃ chains : List (List Nat), chains.flatten.Perm [0, 1, 2] ∧ (∀ c ∈ chains, c.IsChain (Follows 30 tetraOpt layer) ∧
        ∃ a b, c.head? = some a ∧ c.getLast? = some b ∧ Follows 30 tetraOpt layer b a) ∧
      makePolygons {} tetraOpt layer = .ok ((chains.map fun c => pathOf (segmentsOf layer c)).filter fun path => decide (1000 < pathLength path)) := by
  obtain ⟨layers, layer, h, hl, hs⟩ := tetra_layer
  have := C56_surface {} tetra tetraOpt tetra_ok tetraFaces tetraFaces_ok (by decide +kernel) (by decide) (by decide) layers h 1 layer hl (by decide +kernel)
    (by rw [hs]; decide +kernel)
  rw [hs] at this
  exact ⟨layers, layer, h, hl, this⟩

/-- A library for examples, which never fails. -/
def trivialLib : ClipperLib := { execute := fun _ _ _ => some [], executeOpen := fun _ _ _ => some [], offset := fun _ _ => [], hull := fun p => p }

/-- All layers of the tetrahedron are reached. -/
theorem tetra_five : ∃ ls, slice trivialLib {} tetraOpt = .ok ls ∧ ls.length = 5 := by
  obtain ⟨layers, h, hlen⟩ := tetra_sliced
  have h5 : layers.length = 5 := by
    have h1 := hlen 4
    have h2 := hlen 5
    unfold heightOf at h1 h2
    norm_num at h1 h2
    omega
  rw [← h5]
  apply C60_succeeds trivialLib (fun _ => rfl) {} tetraOpt layers h (by decide) tetraFaces tetraFaces_ok
  intro n hn
  rw [hlen] at hn
  refine ⟨_, List.getElem_mem (l := tetraFaces) (n := 1) (by decide), ⟨⟨99500, 99500, 0⟩, by decide, ?_⟩, .inl ⟨⟨99500, 99500, 1000⟩, by decide, ?_⟩⟩
  · show (0 : Int) ≤ heightOf 200 200 n
    unfold heightOf; omega
  · show heightOf 200 200 n ≤ 1000
    unfold heightOf at hn ⊢; omega

/-- Two tetrahedra, one of them floating 0.6 mm above the other. -/
def gapMesh : Mesh := tetra ++ tetra.map (Tri.map fun p => p.add ⟨0, 0, 1600⟩)

/-- **C60** (violation) The model with the gap cannot be sliced. -/
theorem C60_witness : ∃ om, optimize {} gapMesh = .ok om ∧ slice trivialLib {} om = .error (.panic "nil pointer dereference") := by
  obtain ⟨om, hom⟩ := C87_succeeds {} gapMesh (by decide) (by decide)
  refine ⟨om, hom, ?_⟩
  obtain ⟨fs, _, _, _, hfs, -⟩ := C48_faces {} gapMesh om hom
  obtain ⟨layers, h, hlen⟩ := C55_model {} gapMesh om hom (by decide) (by decide) (by decide)
  have he : (optimize {} gapMesh).map (fun om => (om.faces.mapM om.facePoints, om.size)) =
    .ok (.ok (tetraFaces ++ tetraFaces.map (Tri.map fun p => p.add ⟨0, 0, 1600⟩)), ⟨1000, 1000, 2600⟩) := by decide +kernel
  rw [hom] at he
  have he := Except.ok.inj he
  rw [Prod.mk.injEq, hfs, Except.ok.injEq] at he
  obtain ⟨rfl, hsize⟩ := he
  have h5 : 5 < layers.length := by
    rw [hlen 5, hsize]
    decide
  refine C60_gap trivialLib (fun _ => rfl) {} om layers h (by decide) _ hfs 5 h5 ?_
  have : ∀ f ∈ tetraFaces ++ tetraFaces.map (Tri.map fun p => p.add ⟨0, 0, 1600⟩), (∀ p ∈ f.corners, p.z < 1200) ∨ ∀ p ∈ f.corners, 1200 < p.z := by decide +kernel
  rintro f hf ⟨⟨p, hp, hlo⟩, ⟨q, hq, hhi⟩ | ⟨h0, _⟩⟩
  · have e : heightOf ({} : Options).print.initialLayerThickness ({} : Options).print.layerThickness 5 = 1200 := by decide
    rw [e] at hlo hhi
    rcases this f hf with hh | hh
    · have := hh q hq; omega
    · have := hh p hp; omega
  · cases h0

/-- The layer of the tetrahedron gives one closed polygon (C57, C58). -/
example : ∃ layers layer, sliceSegments {} tetraOpt = .ok layers ∧ layers[1]? = some (some layer) ∧
    ∃ polys chains, buildPolygons 30 tetraOpt layer (List.range layer.segments.length) [] [] = .ok polys ∧
    List.Forall₂ (IsChainOf 30 tetraOpt layer) chains polys ∧ chains.flatten.Perm (List.range layer.segments.length) ∧ EndsLate 30 tetraOpt layer chains := by
  obtain ⟨layers, layer, h, hl, hs⟩ := tetra_layer
  exact ⟨layers, layer, h, hl, C57_partition (goodLayer_of h (by decide) hl)⟩
example : (do let ls ← sliceSegments {} tetraOpt; let l ← index ls 1; makePolygons {} tetraOpt (l.getD {})) =
    .ok [[⟨99500, 99500⟩, ⟨100100, 99500⟩, ⟨99500, 100100⟩, ⟨99500, 99500⟩]] := by decide +kernel

/-- Two open polygons with a gap of 100 µm are joined, and the result is closed. -/
def openPolys : List Poly := [⟨some [⟨0, 0⟩, ⟨1000, 0⟩], false⟩, ⟨some [⟨1100, 0⟩, ⟨1000, 1000⟩, ⟨0, 100⟩], false⟩]
example := C58_join 160 openPolys (by decide)
example : joinAll 160 3 openPolys = .ok [⟨some [⟨0, 0⟩, ⟨1000, 0⟩, ⟨1100, 0⟩, ⟨1000, 1000⟩, ⟨0, 100⟩], true⟩, ⟨none, false⟩] := by decide +kernel
example : JoinStep 160 openPolys [⟨some [⟨0, 0⟩, ⟨1000, 0⟩, ⟨1100, 0⟩, ⟨1000, 1000⟩, ⟨0, 100⟩], true⟩, ⟨none, false⟩] :=
  C58_best 160 openPolys (by decide) _ (by decide +kernel)
example := C58_clear 1000 openPolys (by decide)
example : removeLastPoint [⟨0, 0⟩, ⟨1000, 0⟩, ⟨0, 1000⟩, ⟨0, 0⟩] = [⟨0, 0⟩, ⟨1000, 0⟩, ⟨0, 1000⟩, ⟨0, 0⟩] := C59_nothing _

/-- A prism of 0.4 mm height, each side of which consists of two triangles. -/
def prism : Mesh :=
  [⟨⟨0, 0, 0⟩, ⟨0, 2000, 0⟩, ⟨2000, 0, 0⟩⟩, ⟨⟨0, 0, 400⟩, ⟨2000, 0, 400⟩, ⟨0, 2000, 400⟩⟩,
   ⟨⟨0, 0, 0⟩, ⟨2000, 0, 0⟩, ⟨2000, 0, 400⟩⟩, ⟨⟨0, 0, 0⟩, ⟨2000, 0, 400⟩, ⟨0, 0, 400⟩⟩,
   ⟨⟨2000, 0, 0⟩, ⟨0, 2000, 0⟩, ⟨0, 2000, 400⟩⟩, ⟨⟨2000, 0, 0⟩, ⟨0, 2000, 400⟩, ⟨2000, 0, 400⟩⟩,
   ⟨⟨0, 2000, 0⟩, ⟨0, 0, 0⟩, ⟨0, 0, 400⟩⟩, ⟨⟨0, 2000, 0⟩, ⟨0, 0, 400⟩, ⟨0, 2000, 400⟩⟩]

/-- **C56** (limit) Without the assumption on tips the polygons are not closed before joining: the top layer of a prism, whose top is exactly at the height of the layer, starts with three
open polygons. -/
theorem C56_tip : ∃ om fs layers layer polys, optimize {} prism = .ok om ∧ om.faces.mapM om.facePoints = .ok fs ∧ ClosedSurface fs ∧
    sliceSegments {} om = .ok layers ∧ layers[1]? = some (some layer) ∧ buildPolygons 30 om layer (List.range layer.segments.length) [] [] = .ok polys ∧
    polys.map Poly.closed = [false, false, false] := by
  obtain ⟨om, hom⟩ := C87_succeeds {} prism (by decide) (by decide)
  obtain ⟨fs, _, _, _, hfs, -⟩ := C48_faces {} prism om hom
  obtain ⟨layers, h, hlen⟩ := C55_model {} prism om hom (by decide) (by decide) (by decide)
  have hc : (optimize {} prism).map (fun om => (om.faces.mapM om.facePoints).map fun fs => decide (ClosedSurface fs)) = .ok (.ok true) := by decide +kernel
  rw [hom] at hc
  have hc := Except.ok.inj hc
  simp only [hfs] at hc
  have hc := of_decide_eq_true (Except.ok.inj hc)
  have hl : (optimize {} prism).map (fun om => (sliceSegments {} om).map fun ls => (ls[1]?).map fun l => l.map fun layer =>
      (buildPolygons 30 om layer (List.range layer.segments.length) [] []).map (List.map Poly.closed)) =
      .ok (.ok (some (some (.ok [false, false, false])))) := by decide +kernel
  rw [hom] at hl
  have hl := Except.ok.inj hl
  simp only [h] at hl
  have hl := Except.ok.inj hl
  simp only [Option.map_eq_some_iff] at hl
  obtain ⟨l, hl1, layer, rfl, hp⟩ := hl
  cases hb : buildPolygons 30 om layer (List.range layer.segments.length) [] [] with
  | error e => rw [hb] at hp; cases hp
  | ok polys =>
    rw [hb] at hp
    exact ⟨om, fs, layers, layer, polys, hom, hfs, hc, h, hl1, hb, Except.ok.inj hp⟩

end Verif
