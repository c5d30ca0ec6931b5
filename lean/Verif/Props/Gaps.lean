import Verif.Props.CutsWell

/-! # Outlines with a gap (for C139) -/
namespace Verif
open Verif.Go Verif.Model Verif.Spec

/-- The path along several chains of segments. -/
def joinedPath (layer : SliceLayer) (K : List (List Nat)) : Path := (K.map fun c => pathOf (segmentsOf layer c)).flatten

theorem piece_ends {layer : SliceLayer} {c : List Nat} (hlt : ∀ i ∈ c, i < layer.segments.length) (hc : c ≠ []) :
    (pathOf (segmentsOf layer c)).head? = c.head?.map (fun i => (segAt layer i).start) ∧
      (pathOf (segmentsOf layer c)).getLast? = c.getLast?.map fun i => (segAt layer i).finish := by
  rw [segmentsOf_map hlt]
  cases c with
  | nil => exact absurd rfl hc
  | cons i c =>
    refine ⟨rfl, ?_⟩
    rw [List.map_cons, pathOf, List.getLast?_cons, ← List.map_cons (f := segAt layer), List.map_map, List.getLast?_map, List.getLast?_cons]
    rfl

theorem joined_ends {layer : SliceLayer} {K : List (List Nat)} (hlt : ∀ i ∈ K.flatten, i < layer.segments.length) (hne : ∀ c ∈ K, c ≠ []) :
    (joinedPath layer K).head? = K.flatten.head?.map (fun i => (segAt layer i).start) ∧
      (joinedPath layer K).getLast? = K.flatten.getLast?.map fun i => (segAt layer i).finish := by
  have hl : ∀ c ∈ K, ∀ i ∈ c, i < layer.segments.length := fun c hc i hi => hlt i (List.mem_flatten.2 ⟨c, hc, hi⟩)
  have hp : ∀ l ∈ K.map (fun c => pathOf (segmentsOf layer c)), l ≠ [] := by
    intro l hm e
    obtain ⟨c, hc, rfl⟩ := List.mem_map.1 hm
    have h := (piece_ends (hl c hc) (hne c hc)).1
    obtain ⟨x, hx⟩ : ∃ x, c.head? = some x := ⟨_, List.head?_eq_some_head (hne c hc)⟩
    rw [e, hx] at h
    cases h
  unfold joinedPath
  rw [head?_flatten hp, head?_flatten hne, getLast?_flatten hp, getLast?_flatten hne, List.head?_map, List.getLast?_map]
  constructor
  · cases h : K.head? with
    | none => rfl
    | some c =>
      have hc := List.mem_of_mem_head? (Option.mem_def.2 h)
      exact (piece_ends (hl c hc) (hne c hc)).1
  · cases h : K.getLast? with
    | none => rfl
    | some c =>
      have hc := List.mem_of_getLast? h
      exact (piece_ends (hl c hc) (hne c hc)).2

theorem split_delivered {R : List Nat → Poly → Prop} {P : List Nat → Path} (fin : Int) {gs : List (List Nat)} {ps : List Poly} (h : List.Forall₂ R gs ps)
    (hR : ∀ g p, R g p → (g = [] → p.path = none) ∧ (g ≠ [] → p.path = some (P g))) :
    ∃ kept lost : List (List Nat), (kept ++ lost).Perm (gs.filter fun g => decide (g ≠ [])) ∧
      (ps.filterMap fun p => p.path.filter fun path => decide (Delivered fin p path)) = (kept.map P).filter (fun p => decide (fin < pathLength p)) ∧
      (∀ g ∈ kept, ∃ k : Nat, ∃ p, gs[k]? = some g ∧ ps[k]? = some p ∧ R g p ∧ (p.closed = true ∨ Continues fin (P g) (P g))) ∧
      (∀ g ∈ lost, ∃ k : Nat, ∃ p, gs[k]? = some g ∧ ps[k]? = some p ∧ R g p ∧ ¬ (p.closed = true ∨ Continues fin (P g) (P g))) := by
  induction h with
  | nil => exact ⟨[], [], by simp, rfl, by simp, by simp⟩
  | @cons g p gs ps hgp h ih =>
    obtain ⟨kept, lost, hperm, hdel, hk, hl⟩ := ih
    have hk' : ∀ g' ∈ kept, ∃ k : Nat, ∃ p', (g :: gs)[k]? = some g' ∧ (p :: ps)[k]? = some p' ∧ R g' p' ∧ (p'.closed = true ∨ Continues fin (P g') (P g')) := fun g' hg' => by
      obtain ⟨k, p', h1, h2, h3⟩ := hk g' hg'
      exact ⟨k + 1, p', by simpa using h1, by simpa using h2, h3⟩
    have hl' : ∀ g' ∈ lost, ∃ k : Nat, ∃ p', (g :: gs)[k]? = some g' ∧ (p :: ps)[k]? = some p' ∧ R g' p' ∧ ¬ (p'.closed = true ∨ Continues fin (P g') (P g')) := fun g' hg' => by
      obtain ⟨k, p', h1, h2, h3⟩ := hl g' hg'
      exact ⟨k + 1, p', by simpa using h1, by simpa using h2, h3⟩
    by_cases hg : g = []
    · refine ⟨kept, lost, by rw [List.filter_cons_of_neg (by simpa using hg)]; exact hperm, ?_, hk', hl'⟩
      rw [List.filterMap_cons, (hR g p hgp).1 hg]
      exact hdel
    · have hp := (hR g p hgp).2 hg
      by_cases hc : p.closed = true ∨ Continues fin (P g) (P g)
      · refine ⟨g :: kept, lost, by rw [List.filter_cons_of_pos (by simpa using hg)]; exact hperm.cons g, ?_, ?_, hl'⟩
        · rw [List.filterMap_cons, hp, List.map_cons, Option.filter_some]
          by_cases hlen : fin < pathLength (P g)
          · rw [if_pos (decide_eq_true ⟨hp, hc, hlen⟩), List.filter_cons_of_pos (by simpa using hlen), hdel]
          · rw [if_neg (by simp only [decide_eq_true_eq]; exact fun h => hlen h.2.2), List.filter_cons_of_neg (by simpa using hlen)]
            exact hdel
        · intro g' hg'
          rcases List.mem_cons.1 hg' with rfl | hg'
          · exact ⟨0, p, rfl, rfl, hgp, hc⟩
          · exact hk' g' hg'
      · refine ⟨kept, g :: lost, ?_, ?_, hk', ?_⟩
        · rw [List.filter_cons_of_pos (by simpa using hg)]
          exact List.perm_middle.trans (hperm.cons g)
        · rw [List.filterMap_cons, hp, Option.filter_some, if_neg (by simp only [decide_eq_true_eq]; exact fun h => hc h.2.1)]
          exact hdel
        · intro g' hg'
          rcases List.mem_cons.1 hg' with rfl | hg'
          · exact ⟨0, p, rfl, rfl, hgp, hc⟩
          · exact hl' g' hg'

theorem chain_succ {α : Type} {R : α → α → Prop} : ∀ {l : List α}, l.IsChain R → ∀ {x}, x ∈ l → l.getLast? = some x ∨ ∃ y, R x y
  | [], _, _, h => absurd h List.not_mem_nil
  | [a], _, x, h => by left; rw [List.mem_singleton.1 h]; rfl
  | a :: b :: l, hch, x, h => by
    rw [List.isChain_cons_cons] at hch
    rcases List.mem_cons.1 h with rfl | h
    · exact .inr ⟨b, hch.1⟩
    · rw [List.getLast?_cons_cons]
      exact chain_succ hch.2 h

/-- The chains go along a cycle of segments. -/
structure IsCycle (meld : Int) (om : OptModel) (layer : SliceLayer) (next : Nat → Nat) (K : List (List Nat)) : Prop where
  nonempty : K ≠ []
  chains : ∀ c ∈ K, c ≠ [] ∧ c.IsChain (Spec.Follows meld om layer)
  along : K.flatten.IsChain fun i j => j = next i
  close : ∃ a b, K.flatten.head? = some a ∧ K.flatten.getLast? = some b ∧ a = next b

theorem chain_next {α : Type} {R : α → α → Prop} : ∀ {l : List α}, l.IsChain R → ∀ {x}, x ∈ l → l.getLast? = some x ∨ ∃ y ∈ l.tail, R x y
  | [], _, _, h => absurd h List.not_mem_nil
  | [a], _, x, h => by left; rw [List.mem_singleton.1 h]; rfl
  | a :: b :: l, hch, x, h => by
    rw [List.isChain_cons_cons] at hch
    rcases List.mem_cons.1 h with rfl | h
    · exact .inr ⟨b, by simp, hch.1⟩
    · rw [List.getLast?_cons_cons]
      rcases chain_next hch.2 h with h | ⟨y, hy, hr⟩
      · exact .inl h
      · exact .inr ⟨y, List.mem_cons_of_mem _ hy, hr⟩

/-- If all segments have a successor, some of them at a larger distance, and no other segments are near, the outlines go along the cycles of the segments. A cycle with links which are too wide is left out, in pieces
from one wide link to the next. -/
theorem torn_polygons (o : Options) {om : OptModel} {layer : SliceLayer} (hg : GoodLayer om layer) {next : Nat → Nat} {E : Nat → Prop}
    (hlt : ∀ i < layer.segments.length, next i < layer.segments.length)
    (hinj : ∀ i < layer.segments.length, ∀ j < layer.segments.length, next i = next j → i = j)
    (hE : ∀ i < layer.segments.length, ∀ j < layer.segments.length, ¬ Within (segAt layer i).finish (segAt layer (next i)).start o.slicing.joinPolygonSnapDistance →
      ¬ Within (segAt layer j).finish (segAt layer (next j)).start o.slicing.joinPolygonSnapDistance →
      Within (segAt layer i).finish (segAt layer (next j)).start o.slicing.finishPolygonSnapDistance → i = j)
    (hfol : ∀ i j, Spec.Follows o.slicing.meldDistance om layer i j → j = next i ∧ ¬ E i)
    (hfol' : ∀ i < layer.segments.length, ¬ E i → Spec.Follows o.slicing.meldDistance om layer i (next i))
    (hjoin : ∀ i < layer.segments.length, ∀ j < layer.segments.length, Within (segAt layer i).finish (segAt layer j).start o.slicing.joinPolygonSnapDistance → j = next i)
    (hjoin' : ∀ i < layer.segments.length, ¬ E i → Within (segAt layer i).finish (segAt layer (next i)).start o.slicing.joinPolygonSnapDistance)
    (hsmall : o.slicing.joinPolygonSnapDistance < 2 ^ 26) :
    ∃ kept lost : List (List (List Nat)), (kept ++ lost).flatten.flatten.Perm (List.range layer.segments.length) ∧
      (∀ K ∈ kept, IsCycle o.slicing.meldDistance om layer next K) ∧
      makePolygons o om layer = .ok ((kept.map (joinedPath layer)).filter fun p => decide (o.slicing.finishPolygonSnapDistance < pathLength p)) ∧
      (∀ K ∈ kept, ∀ b ∈ K.flatten, E b → Within (segAt layer b).finish (segAt layer (next b)).start o.slicing.joinPolygonSnapDistance ∨
        Within (segAt layer b).finish (segAt layer (next b)).start o.slicing.finishPolygonSnapDistance) ∧
      (∀ K ∈ lost, K ≠ [] ∧ (∀ c ∈ K, c ≠ [] ∧ c.IsChain (Spec.Follows o.slicing.meldDistance om layer)) ∧ (K.flatten.IsChain fun i j => j = next i) ∧
        ∃ c b, K.flatten.head? = some (next c) ∧ K.flatten.getLast? = some b ∧ E b ∧ c < layer.segments.length ∧
          ¬ Within (segAt layer b).finish (segAt layer (next c)).start o.slicing.finishPolygonSnapDistance ∧
          (c = b ∨ ¬ Within (segAt layer b).finish (segAt layer (next b)).start o.slicing.joinPolygonSnapDistance ∧
            ¬ Within (segAt layer c).finish (segAt layer (next c)).start o.slicing.joinPolygonSnapDistance)) := by
  obtain ⟨polys, chains, e1, hch, hperm, -⟩ := C57_partition (meld := o.slicing.meldDistance) hg
  have hlen := hch.length_eq
  have hmem : ∀ c ∈ chains, ∀ k ∈ c, k < layer.segments.length := fun c hc k hk =>
    List.mem_range.1 (hperm.mem_iff.1 (List.mem_flatten.2 ⟨c, hc, hk⟩))
  have hchk : ∀ (k : Nat) c, chains[k]? = some c → ∃ p, polys[k]? = some p ∧ IsChainOf o.slicing.meldDistance om layer c p := by
    intro k c hk
    obtain ⟨hk', rfl⟩ := List.getElem?_eq_some_iff.1 hk
    have hp : k < polys.length := by omega
    exact ⟨_, List.getElem?_eq_getElem hp, (List.forall₂_iff_get.1 hch).2 k hk' hp⟩
  have h0 : ∀ p ∈ polys, p.path ≠ none ∧ p.path ≠ some [] := by
    intro p hp
    obtain ⟨k, hk⟩ := List.getElem?_of_mem hp
    obtain ⟨hk', rfl⟩ := List.getElem?_eq_some_iff.1 hk
    have hkc : k < chains.length := by omega
    exact chain_path ((List.forall₂_iff_get.1 hch).2 k hkc hk') (hmem _ (List.getElem_mem hkc))
  obtain ⟨polys', groups, e2, hj, hperm2, hmax⟩ := C58_join o.slicing.joinPolygonSnapDistance polys h0
  have hmax := hmax hsmall
  have hne' : ∀ p ∈ polys', p.path ≠ some [] := by
    apply joinInv_nonempty h0
    exact ⟨hj.length_eq, fun k g p hg hp => by
      obtain ⟨h1, rfl⟩ := List.getElem?_eq_some_iff.1 hg
      obtain ⟨h2, rfl⟩ := List.getElem?_eq_some_iff.1 hp
      exact (List.forall₂_iff_get.1 hj).2 k h1 h2, hperm2⟩
  have e3 := C58_clear o.slicing.finishPolygonSnapDistance polys' hne'
  -- the chains of a group
  let ch : List Nat → List (List Nat) := fun g => g.filterMap (chains[·]?)
  have hallperm : (groups.map ch).flatten.flatten.Perm (List.range layer.segments.length) := by
    have s2 : (groups.map ch).flatten = groups.flatten.filterMap (chains[·]?) := by rw [List.filterMap_flatten]
    have s3 := hperm2.filterMap (chains[·]?)
    rw [← hlen, filterMap_range_getElem] at s3
    rw [s2]
    exact s3.flatten.trans hperm
  have hnd : ((groups.map ch).map List.flatten).flatten.Nodup := by
    have := hallperm.symm.nodup List.nodup_range
    rwa [List.flatten_flatten] at this
  have hin : ∀ g ∈ groups, ∀ c ∈ ch g, c ∈ chains ∧ c ≠ [] ∧ c.IsChain (Spec.Follows o.slicing.meldDistance om layer) := by
    intro g _ c hc
    obtain ⟨k, -, hk⟩ := List.mem_filterMap.1 hc
    obtain ⟨p, -, h⟩ := hchk k c hk
    exact ⟨List.mem_of_getElem? hk, h.nonempty, h.linked⟩
  have hltg : ∀ g ∈ groups, ∀ i ∈ (ch g).flatten, i < layer.segments.length := by
    intro g hg i hi
    obtain ⟨c, hc, hi⟩ := List.mem_flatten.1 hi
    exact hmem c (hin g hg c hc).1 i hi
  have hnonempty : ∀ g ∈ groups, g ≠ [] → (ch g).flatten ≠ [] := by
    intro g hg hne e
    obtain ⟨k, hk⟩ := List.exists_mem_of_ne_nil g hne
    have hkl : k < chains.length := by
      rw [hlen]; exact List.mem_range.1 (hperm2.mem_iff.1 (List.mem_flatten.2 ⟨g, hg, hk⟩))
    have hc : chains[k] ∈ ch g := List.mem_filterMap.2 ⟨k, hk, List.getElem?_eq_getElem hkl⟩
    exact (hin g hg _ hc).2.1 (List.flatten_eq_nil_iff.1 e _ hc)
  have hpath : ∀ (k : Nat) g p, groups[k]? = some g → polys'[k]? = some p → IsJoinOf o.slicing.joinPolygonSnapDistance polys g p := by
    intro k g p hk hk'
    obtain ⟨h1, rfl⟩ := List.getElem?_eq_some_iff.1 hk
    obtain ⟨h2, rfl⟩ := List.getElem?_eq_some_iff.1 hk'
    exact (List.forall₂_iff_get.1 hj).2 k h1 h2
  have hpathsOf : ∀ g, (pathsOf polys g).flatten = joinedPath layer (ch g) := fun g => by rw [pathsOf_chains hch]; rfl
  have hends : ∀ g ∈ groups, ∀ d, Continues d (joinedPath layer (ch g)) (joinedPath layer (ch g)) ↔
      ∃ a b, (ch g).flatten.head? = some a ∧ (ch g).flatten.getLast? = some b ∧ Within (segAt layer b).finish (segAt layer a).start d := by
    intro g hg d
    obtain ⟨h1, h2⟩ := joined_ends (hltg g hg) fun c hc => (hin g hg c hc).2.1
    unfold Continues
    rw [h1, h2]
    constructor
    · rintro ⟨x, y, hx, hy, hw⟩
      obtain ⟨b, hb, rfl⟩ := Option.map_eq_some_iff.1 hx
      obtain ⟨a, ha, rfl⟩ := Option.map_eq_some_iff.1 hy
      exact ⟨a, b, ha, hb, hw⟩
    · rintro ⟨a, b, ha, hb, hw⟩
      exact ⟨_, _, by rw [hb]; rfl, by rw [ha]; rfl, hw⟩
  have halong' : ∀ (k : Nat) g, groups[k]? = some g →
      (ch g).flatten.IsChain fun i j => j = next i ∧ (E i → Within (segAt layer i).finish (segAt layer j).start o.slicing.joinPolygonSnapDistance) := by
    intro k g hk
    have hgm := List.mem_of_getElem? hk
    have hkp : k < polys'.length := by rw [← hj.length_eq]; exact (List.getElem?_eq_some_iff.1 hk).1
    have hl := (hpath k g _ hk (List.getElem?_eq_getElem hkp)).linked
    rw [List.isChain_flatten (fun h => (hin g hgm _ h).2.1 rfl)]
    refine ⟨fun c hc => (hin g hgm c hc).2.2.imp fun a b hf => ⟨(hfol a b hf).1, fun hE => absurd hE (hfol a b hf).2⟩, ?_⟩
    rw [pathsOf_chains hch, List.isChain_map] at hl
    refine List.IsChain.imp_of_mem_imp (fun c d hc hd hcd => ?_) hl
    intro x hx y hy
    have hcl := hmem c (hin g hgm c hc).1
    have hdl := hmem d (hin g hgm d hd).1
    obtain ⟨-, h2⟩ := piece_ends hcl (hin g hgm c hc).2.1
    obtain ⟨h3, -⟩ := piece_ends hdl (hin g hgm d hd).2.1
    obtain ⟨p, q, hp, hq, hw⟩ := hcd
    rw [h2, Option.mem_def.1 hx, Option.map_some, Option.some.injEq] at hp
    rw [h3, Option.mem_def.1 hy, Option.map_some, Option.some.injEq] at hq
    subst hp hq
    exact ⟨hjoin x (hcl x (List.mem_of_getLast? hx)) y (hdl y (List.mem_of_mem_head? hy)) hw, fun _ => hw⟩
  have halong : ∀ (k : Nat) g, groups[k]? = some g → (ch g).flatten.IsChain fun i j => j = next i := fun k g hk => (halong' k g hk).imp fun _ _ h => h.1
  -- when a group is closed
  have hclosed : ∀ (k : Nat) g p a b, groups[k]? = some g → g ≠ [] → polys'[k]? = some p → (ch g).flatten.head? = some a → (ch g).flatten.getLast? = some b →
      (p.closed = true → a = next b ∧ (E b → Within (segAt layer b).finish (segAt layer a).start o.slicing.joinPolygonSnapDistance)) ∧
      (a = next b → ¬ E b → p.closed = true) := by
    intro k g p a b hk hgne hp ha hb
    have hgm := List.mem_of_getElem? hk
    have hal := hltg g hgm a (List.mem_of_mem_head? ha)
    have hbl := hltg g hgm b (List.mem_of_getLast? hb)
    have hj := hpath k g p hk hp
    by_cases h2 : 2 ≤ g.length
    · rw [hj.closed h2, hpathsOf, hends g hgm]
      constructor
      · rintro ⟨a', b', ha', hb', hw⟩
        rw [ha] at ha'
        rw [hb] at hb'
        cases ha'
        cases hb'
        exact ⟨hjoin b hbl a hal hw, fun _ => hw⟩
      · rintro rfl hnE
        exact ⟨_, b, ha, hb, hjoin' b hbl hnE⟩
    · obtain ⟨m, rfl⟩ : ∃ m, g = [m] := List.length_eq_one_iff.1 (by have := List.length_pos_of_ne_nil hgne; omega)
      have hpm := hj.one m rfl
      have hml : m < chains.length := by rw [hlen]; exact (List.getElem?_eq_some_iff.1 hpm).1
      obtain ⟨p', hp', hc⟩ := hchk m _ (List.getElem?_eq_getElem hml)
      rw [hpm] at hp'
      cases hp'
      have hchm : (ch [m]).flatten = chains[m] := by simp [ch, List.getElem?_eq_getElem hml]
      rw [hchm] at ha hb
      rw [hc.closed]
      constructor
      · rintro ⟨a', b', ha', hb', hf⟩
        rw [ha] at ha'
        rw [hb] at hb'
        cases ha'
        cases hb'
        exact ⟨(hfol _ _ hf).1, fun hEb => absurd hEb (hfol _ _ hf).2⟩
      · rintro rfl hnE
        exact ⟨_, b, ha, hb, hfol' b hbl hnE⟩
  have hdisj : ∀ (i k : Nat) g g' x, groups[i]? = some g → groups[k]? = some g' → x ∈ (ch g).flatten → x ∈ (ch g').flatten → i = k := by
    intro i k g g' x hi hk hx hy
    exact chains_disjoint hnd (i := i) (k := k) (by simp [hi]) (by simp [hk]) hx hy
  -- the successor of the last segment of a group starts a group
  have hhead : ∀ (k : Nat) g b, groups[k]? = some g → (ch g).flatten.getLast? = some b → ∃ (j : Nat) (g' : List Nat), groups[j]? = some g' ∧ (ch g').flatten.head? = some (next b) := by
    intro k g b hk hb
    have hgm := List.mem_of_getElem? hk
    have hbm := List.mem_of_getLast? hb
    have hbl := hltg g hgm b hbm
    have hm : next b ∈ (groups.map ch).flatten.flatten := hallperm.mem_iff.2 (List.mem_range.2 (hlt b hbl))
    rw [List.flatten_flatten] at hm
    obtain ⟨l, hl, hm⟩ := List.mem_flatten.1 hm
    obtain ⟨cs, hcs, rfl⟩ := List.mem_map.1 hl
    obtain ⟨g', hg', rfl⟩ := List.mem_map.1 hcs
    obtain ⟨j, hj⟩ := List.getElem?_of_mem hg'
    refine ⟨j, g', hj, ?_⟩
    rcases chain_pred (halong j g' hj) hm with h | ⟨y, hy, hr⟩
    · exact h
    · exfalso
      have hym := List.mem_of_mem_dropLast hy
      obtain rfl := hinj b hbl y (hltg g' hg' y hym) hr
      obtain rfl := hdisj _ _ _ _ _ hj hk hym hbm
      rw [hk] at hj
      cases hj
      have hnd' : (ch g).flatten.Nodup := (List.nodup_flatten.1 hnd).1 _ (List.mem_map.2 ⟨_, List.mem_map.2 ⟨g, hgm, rfl⟩, rfl⟩)
      exact last_not_mem_dropLast hnd' hb hy
  have hpoly : ∀ (k : Nat) g, groups[k]? = some g → ∃ p, polys'[k]? = some p := fun k g hk =>
    ⟨_, List.getElem?_eq_getElem (by rw [← hj.length_eq]; exact (List.getElem?_eq_some_iff.1 hk).1)⟩
  have hgne : ∀ g : List Nat, ∀ b, (ch g).flatten.head? = some b → g ≠ [] := by
    rintro g b h rfl
    cases h
  have hcyc1 : ∀ (k : Nat) g b, groups[k]? = some g → (ch g).flatten.getLast? = some b →
      Within (segAt layer b).finish (segAt layer (next b)).start o.slicing.joinPolygonSnapDistance → (ch g).flatten.head? = some (next b) := by
    intro k g b hk hb hwb
    obtain ⟨j, g', hj', ha'⟩ := hhead k g b hk hb
    have hgm := List.mem_of_getElem? hk
    have hgm' := List.mem_of_getElem? hj'
    have hbl := hltg g hgm b (List.mem_of_getLast? hb)
    by_cases hjk : k = j
    · subst hjk
      rw [hk] at hj'
      cases hj'
      exact ha'
    exfalso
    have hgn' := hgne g' _ ha'
    have hgn : g ≠ [] := by rintro rfl; cases hb
    obtain ⟨a, ha⟩ : ∃ a, (ch g).flatten.head? = some a := ⟨_, List.head?_eq_some_head (hnonempty g hgm hgn)⟩
    obtain ⟨b', hb'⟩ : ∃ b', (ch g').flatten.getLast? = some b' := ⟨_, List.getLast?_eq_some_getLast (hnonempty g' hgm' hgn')⟩
    obtain ⟨p, hp⟩ := hpoly k g hk
    obtain ⟨p', hp'⟩ := hpoly j g' hj'
    have hpa := (hpath k g p hk hp).path hgn
    have hpa' := (hpath j g' p' hj' hp').path hgn'
    rw [hpathsOf] at hpa hpa'
    have hop : p.closed = false := by
      by_contra hc
      have := ((hclosed k g p a b hk hgn hp ha hb).1 (by simpa using hc)).1
      subst this
      exact hjk (hdisj _ _ _ _ _ hk hj' (List.mem_of_mem_head? ha) (List.mem_of_mem_head? ha'))
    have hop' : p'.closed = false := by
      by_contra hc
      have h1 := ((hclosed j g' p' _ b' hj' hgn' hp' ha' hb').1 (by simpa using hc)).1
      have h2 := hinj b hbl b' (hltg g' hgm' b' (List.mem_of_getLast? hb')) h1
      subst h2
      exact hjk (hdisj _ _ _ _ _ hk hj' (List.mem_of_getLast? hb) (List.mem_of_getLast? hb'))
    refine hmax k j (joinedPath layer (ch g)) (joinedPath layer (ch g')) hjk ?_ ?_ ?_
    · rw [hp]; cases p; simp only at hpa hop; rw [hpa, hop]
    · rw [hp']; cases p'; simp only at hpa' hop'; rw [hpa', hop']
    · obtain ⟨-, h2⟩ := joined_ends (hltg g hgm) fun c hc => (hin g hgm c hc).2.1
      obtain ⟨h3, -⟩ := joined_ends (hltg g' hgm') fun c hc => (hin g' hgm' c hc).2.1
      exact ⟨_, _, by rw [h2, hb]; rfl, by rw [h3, ha']; rfl, hwb⟩
  have hsurj : ∀ a < layer.segments.length, ∃ c < layer.segments.length, next c = a := by
    have hnd' : ((List.range layer.segments.length).map next).Nodup := by
      rw [List.nodup_map_iff_inj_on List.nodup_range]
      exact fun i hi j hj e => hinj i (List.mem_range.1 hi) j (List.mem_range.1 hj) e
    have hp : ((List.range layer.segments.length).map next).Perm (List.range layer.segments.length) := by
      refine (List.subperm_of_subset hnd' ?_).perm_of_length_le (by simp)
      intro x hx
      obtain ⟨i, hi, rfl⟩ := List.mem_map.1 hx
      exact List.mem_range.2 (hlt i (List.mem_range.1 hi))
    intro a ha
    obtain ⟨c, hc, e⟩ := List.mem_map.1 (hp.mem_iff.2 (List.mem_range.2 ha))
    exact ⟨c, List.mem_range.1 hc, e⟩
  have hcyc : ∀ (k : Nat) g b, groups[k]? = some g → (ch g).flatten.getLast? = some b → ∃ c < layer.segments.length, (ch g).flatten.head? = some (next c) ∧
      (c = b ∨ ¬ Within (segAt layer b).finish (segAt layer (next b)).start o.slicing.joinPolygonSnapDistance ∧
        ¬ Within (segAt layer c).finish (segAt layer (next c)).start o.slicing.joinPolygonSnapDistance) := by
    intro k g b hk hb
    have hgm := List.mem_of_getElem? hk
    have hbl := hltg g hgm b (List.mem_of_getLast? hb)
    by_cases hwb : Within (segAt layer b).finish (segAt layer (next b)).start o.slicing.joinPolygonSnapDistance
    · exact ⟨b, hbl, hcyc1 k g b hk hb hwb, .inl rfl⟩
    have hne : (ch g).flatten ≠ [] := by intro e; rw [e] at hb; cases hb
    have ha : (ch g).flatten.head? = some ((ch g).flatten.head hne) := List.head?_eq_some_head hne
    obtain ⟨c, hc, e⟩ := hsurj _ (hltg g hgm _ (List.mem_of_mem_head? ha))
    rw [← e] at ha
    refine ⟨c, hc, ha, ?_⟩
    have hcm : c ∈ (groups.map ch).flatten.flatten := hallperm.mem_iff.2 (List.mem_range.2 hc)
    rw [List.flatten_flatten] at hcm
    obtain ⟨l, hl, hcm⟩ := List.mem_flatten.1 hcm
    obtain ⟨cs, hcs, rfl⟩ := List.mem_map.1 hl
    obtain ⟨g', hg', rfl⟩ := List.mem_map.1 hcs
    obtain ⟨j, hj'⟩ := List.getElem?_of_mem hg'
    rcases chain_next (halong j g' hj') hcm with hcl | ⟨y, hy, rfl⟩
    · by_cases hwc : Within (segAt layer c).finish (segAt layer (next c)).start o.slicing.joinPolygonSnapDistance
      · have hh := hcyc1 j g' c hj' hcl hwc
        obtain rfl := hdisj _ _ _ _ _ hk hj' (List.mem_of_mem_head? ha) (List.mem_of_mem_head? hh)
        rw [hk] at hj'
        cases hj'
        rw [hb] at hcl
        cases hcl
        exact .inl rfl
      · exact .inr ⟨hwb, hwc⟩
    · exfalso
      obtain rfl := hdisj _ _ _ _ _ hk hj' (List.mem_of_mem_head? ha) (List.mem_of_mem_tail hy)
      rw [hk] at hj'
      cases hj'
      have hnd' : (ch g).flatten.Nodup := (List.nodup_flatten.1 hnd).1 _ (List.mem_map.2 ⟨_, List.mem_map.2 ⟨g, hgm, rfl⟩, rfl⟩)
      cases hl : (ch g).flatten with
      | nil => exact hne hl
      | cons x l =>
        rw [hl] at ha hy hnd'
        rw [List.head?_cons, Option.some.injEq] at ha
        rw [List.tail_cons, ← ha] at hy
        exact (List.nodup_cons.1 hnd').1 hy
  obtain ⟨kept, lost, hperm3, hdel, hkept, hlost⟩ := split_delivered (P := fun g => joinedPath layer (ch g)) o.slicing.finishPolygonSnapDistance hj
    (fun g p h => ⟨h.none, fun hne => by rw [h.path hne, hpathsOf]⟩)
  have hmemg : ∀ g ∈ kept ++ lost, ∃ k : Nat, groups[k]? = some g ∧ g ≠ [] := by
    intro g hg
    have := List.mem_filter.1 (hperm3.mem_iff.1 hg)
    obtain ⟨k, hk⟩ := List.getElem?_of_mem this.1
    exact ⟨k, hk, by simpa using this.2⟩
  have hkeep : ∀ g ∈ kept, ∃ b, (ch g).flatten.head? = some (next b) ∧ (ch g).flatten.getLast? = some b ∧
      (E b → Within (segAt layer b).finish (segAt layer (next b)).start o.slicing.joinPolygonSnapDistance ∨
        Within (segAt layer b).finish (segAt layer (next b)).start o.slicing.finishPolygonSnapDistance) := by
    intro g hg
    obtain ⟨k, p, hk, hp, -, hc⟩ := hkept g hg
    obtain ⟨-, -, hgn⟩ := hmemg g (List.mem_append_left _ hg)
    have hgm := List.mem_of_getElem? hk
    obtain ⟨b, hb⟩ : ∃ b, (ch g).flatten.getLast? = some b := ⟨_, List.getLast?_eq_some_getLast (hnonempty g hgm hgn)⟩
    have hbl := hltg g hgm b (List.mem_of_getLast? hb)
    obtain ⟨c, hcl, ha, hcb⟩ := hcyc k g b hk hb
    rcases hc with hc | hc
    · obtain ⟨e, hw⟩ := (hclosed k g p _ b hk hgn hp ha hb).1 hc
      obtain rfl := hinj c hcl b hbl e
      exact ⟨c, ha, hb, fun h => .inl (hw h)⟩
    · obtain ⟨a', b', ha', hb', hw⟩ := (hends g hgm _).1 hc
      rw [ha] at ha'
      rw [hb] at hb'
      cases ha'
      cases hb'
      rcases hcb with rfl | ⟨h1, h2⟩
      · exact ⟨c, ha, hb, fun _ => .inr hw⟩
      · obtain rfl := hE b hbl c hcl h1 h2 hw
        exact ⟨b, ha, hb, fun _ => .inr hw⟩
  refine ⟨kept.map ch, lost.map ch, ?_, ?_, ?_, ?_, ?_⟩
  · rw [← List.map_append]
    refine ((hperm3.map ch).flatten.flatten).trans ?_
    have : ((groups.filter fun g => decide (g ≠ [])).map ch).flatten = (groups.map ch).flatten := by
      clear * -
      induction groups with
      | nil => rfl
      | cons g gs ih =>
        by_cases hg : g = []
        · subst hg
          rw [List.filter_cons_of_neg (by simp), ih]
          rfl
        · rw [List.filter_cons_of_pos (by simpa using hg), List.map_cons, List.map_cons, List.flatten_cons, List.flatten_cons, ih]
    rw [this]
    exact hallperm
  · intro K hK
    obtain ⟨g, hg, rfl⟩ := List.mem_map.1 hK
    obtain ⟨k, hk, hne⟩ := hmemg g (List.mem_append_left _ hg)
    have hgm := List.mem_of_getElem? hk
    have hnn := hnonempty g hgm hne
    refine ⟨?_, fun c hc => (hin g hgm c hc).2, halong k g hk, ?_⟩
    · intro e
      rw [e] at hnn
      exact hnn rfl
    · obtain ⟨b, ha, hb, -⟩ := hkeep g hg
      exact ⟨_, b, ha, hb, rfl⟩
  · simp only [makePolygons, e1, e2, bind, Except.bind, e3, hdel, List.map_map]
    rfl
  · intro K hK b hbm hEb
    obtain ⟨g, hg, rfl⟩ := List.mem_map.1 hK
    obtain ⟨k, p, hk, hp, -, -⟩ := hkept g hg
    rcases chain_succ (halong' k g hk) hbm with hb | ⟨j, rfl, hw⟩
    swap
    · exact .inl (hw hEb)
    obtain ⟨b', -, hb', h⟩ := hkeep g hg
    rw [hb] at hb'
    cases hb'
    exact h hEb
  · intro K hK
    obtain ⟨g, hg, rfl⟩ := List.mem_map.1 hK
    obtain ⟨k, p, hk, hp, -, hc⟩ := hlost g hg
    obtain ⟨k', hk', hgn⟩ := hmemg g (List.mem_append_right _ hg)
    have hgm := List.mem_of_getElem? hk
    have hnn := hnonempty g hgm hgn
    obtain ⟨b, hb⟩ : ∃ b, (ch g).flatten.getLast? = some b := ⟨_, List.getLast?_eq_some_getLast hnn⟩
    obtain ⟨c, hcl, ha, hcb⟩ := hcyc k g b hk hb
    refine ⟨?_, fun c hc => (hin g hgm c hc).2, halong k g hk, c, b, ha, hb, ?_, hcl, fun hw => hc (.inr ((hends g hgm _).2 ⟨_, b, ha, hb, hw⟩)), hcb⟩
    · intro e
      rw [e] at hnn
      exact hnn rfl
    · by_contra hnE
      rcases hcb with rfl | ⟨hwb, -⟩
      · exact hc (.inl ((hclosed k g p _ _ hk hgn hp ha hb).2 rfl hnE))
      · exact hwb (hjoin' b (hltg g hgm b (List.mem_of_getLast? hb)) hnE)

/-- If all segments have a successor, at most one of them at a larger distance, and no other segments are near, the outlines go along the cycles of the segments. The one with the gap is left out if the gap is too wide. -/
theorem gap_polygons (o : Options) {om : OptModel} {layer : SliceLayer} (hg : GoodLayer om layer) {next : Nat → Nat} {E : Nat → Prop}
    (hlt : ∀ i < layer.segments.length, next i < layer.segments.length)
    (hinj : ∀ i < layer.segments.length, ∀ j < layer.segments.length, next i = next j → i = j)
    (hE : ∀ i < layer.segments.length, ∀ j < layer.segments.length, ¬ Within (segAt layer i).finish (segAt layer (next i)).start o.slicing.joinPolygonSnapDistance →
      ¬ Within (segAt layer j).finish (segAt layer (next j)).start o.slicing.joinPolygonSnapDistance → i = j)
    (hfol : ∀ i j, Spec.Follows o.slicing.meldDistance om layer i j → j = next i ∧ ¬ E i)
    (hfol' : ∀ i < layer.segments.length, ¬ E i → Spec.Follows o.slicing.meldDistance om layer i (next i))
    (hjoin : ∀ i < layer.segments.length, ∀ j < layer.segments.length, Within (segAt layer i).finish (segAt layer j).start o.slicing.joinPolygonSnapDistance → j = next i)
    (hjoin' : ∀ i < layer.segments.length, ¬ E i → Within (segAt layer i).finish (segAt layer (next i)).start o.slicing.joinPolygonSnapDistance)
    (hsmall : o.slicing.joinPolygonSnapDistance < 2 ^ 26) :
    ∃ kept lost : List (List (List Nat)), (kept ++ lost).flatten.flatten.Perm (List.range layer.segments.length) ∧
      (∀ K ∈ kept ++ lost, IsCycle o.slicing.meldDistance om layer next K) ∧
      makePolygons o om layer = .ok ((kept.map (joinedPath layer)).filter fun p => decide (o.slicing.finishPolygonSnapDistance < pathLength p)) ∧
      (∀ K ∈ kept, ∀ b ∈ K.flatten, E b → Within (segAt layer b).finish (segAt layer (next b)).start o.slicing.joinPolygonSnapDistance ∨
        Within (segAt layer b).finish (segAt layer (next b)).start o.slicing.finishPolygonSnapDistance) ∧
      (∀ K ∈ lost, ∃ b, K.flatten.getLast? = some b ∧ E b ∧ ¬ Within (segAt layer b).finish (segAt layer (next b)).start o.slicing.finishPolygonSnapDistance) := by
  obtain ⟨kept, lost, h1, h2, h3, h4, h5⟩ := torn_polygons o hg hlt hinj (fun i hi j hj h h' _ => hE i hi j hj h h') hfol hfol' hjoin hjoin' hsmall
  have hlost : ∀ K ∈ lost, IsCycle o.slicing.meldDistance om layer next K ∧ ∃ b, K.flatten.getLast? = some b ∧ E b ∧
      ¬ Within (segAt layer b).finish (segAt layer (next b)).start o.slicing.finishPolygonSnapDistance := by
    intro K hK
    obtain ⟨e1, e2, e3, c, b, ha, hb, hEb, hc, hw, hcb⟩ := h5 K hK
    have hbl : b < layer.segments.length := by
      apply List.mem_range.1 (h1.mem_iff.1 _)
      rw [List.flatten_flatten]
      exact List.mem_flatten.2 ⟨_, List.mem_map.2 ⟨K, List.mem_append_right _ hK, rfl⟩, List.mem_of_getLast? hb⟩
    obtain rfl : c = b := by
      rcases hcb with e | ⟨w1, w2⟩
      · exact e
      · exact hE c hc b hbl w2 w1
    exact ⟨⟨e1, e2, e3, _, c, ha, hb, rfl⟩, c, hb, hEb, hw⟩
  refine ⟨kept, lost, h1, fun K hK => ?_, h3, h4, fun K hK => (hlost K hK).2⟩
  rcases List.mem_append.1 hK with hK | hK
  · exact h2 K hK
  · exact (hlost K hK).1

/-! ## Crossings -/

theorem walkSum_append {α : Type} (g : α → α → ZMod 2) : ∀ (l l' : List α) (h : l ≠ []) (h' : l' ≠ []),
    walkSum g (l ++ l') = walkSum g l + g (l.getLast h) (l'.head h') + walkSum g l'
  | [], _, h, _ => absurd rfl h
  | [a], b :: l', _, _ => by simp [walkSum]
  | [_], [], _, h' => absurd rfl h'
  | a :: b :: l, l', _, h' => by
    have ih := walkSum_append g (b :: l) l' (List.cons_ne_nil _ _) h'
    rw [List.cons_append] at ih
    rw [List.cons_append, List.cons_append, walkSum, ih, walkSum, List.getLast_cons (List.cons_ne_nil b l)]
    ring

theorem piece_walk {layer : SliceLayer} {q : ℚ × ℚ} : ∀ (c : List Nat) (_ : c ≠ []) (_ : ∀ i ∈ c, i < layer.segments.length)
    (_ : c.IsChain fun i j => cross2 q (exactPt (segAt layer i).finish) (exactPt (segAt layer j).finish) =
      cross2 q (exactPt (segAt layer i).finish) (exactPt (segAt layer j).start) + cross2 q (exactPt (segAt layer j).start) (exactPt (segAt layer j).finish)),
    walkSum (fun s t => cross2 q (exactPt s) (exactPt t)) (pathOf (segmentsOf layer c)) =
      (c.map fun i => cross2 q (exactPt (segAt layer i).start) (exactPt (segAt layer i).finish)).sum +
        walkSum (fun i j => cross2 q (exactPt (segAt layer i).finish) (exactPt (segAt layer j).start)) c
  | [], h, _, _ => absurd rfl h
  | i :: c, _, hlt, hch => by
    rw [segmentsOf_map hlt, List.map_cons, pathOf, List.map_cons, walkSum, ← List.map_cons (f := SliceSegment.finish), ← List.map_cons (f := segAt layer), List.map_map,
      walkSum_map]
    clear hlt
    rw [List.map_cons, List.sum_cons, add_assoc]
    congr 1
    induction c generalizing i with
    | nil => simp [walkSum]
    | cons j c ih =>
      rw [List.isChain_cons_cons] at hch
      have := ih j (List.cons_ne_nil _ _) hch.2
      rw [walkSum, this, List.map_cons, List.sum_cons, walkSum]
      simp only [Function.comp] at *
      rw [hch.1]
      ring

theorem joined_walk {layer : SliceLayer} {q : ℚ × ℚ} : ∀ (K : List (List Nat)) (_ : K ≠ []) (_ : ∀ c ∈ K, c ≠ []) (_ : ∀ i ∈ K.flatten, i < layer.segments.length)
    (_ : ∀ c ∈ K, c.IsChain fun i j => cross2 q (exactPt (segAt layer i).finish) (exactPt (segAt layer j).finish) =
      cross2 q (exactPt (segAt layer i).finish) (exactPt (segAt layer j).start) + cross2 q (exactPt (segAt layer j).start) (exactPt (segAt layer j).finish)),
    walkSum (fun s t => cross2 q (exactPt s) (exactPt t)) (joinedPath layer K) =
      (K.flatten.map fun i => cross2 q (exactPt (segAt layer i).start) (exactPt (segAt layer i).finish)).sum +
        walkSum (fun i j => cross2 q (exactPt (segAt layer i).finish) (exactPt (segAt layer j).start)) K.flatten
  | [], h, _, _, _ => absurd rfl h
  | [c], _, hne, hlt, hch => by
    have := piece_walk (layer := layer) (q := q) c (hne c (by simp)) (by simpa using hlt) (hch c (by simp))
    simpa [joinedPath] using this
  | c :: d :: K, _, hne, hlt, hch => by
    have hlt' : ∀ i ∈ (d :: K).flatten, i < layer.segments.length := fun i hi => hlt i (by rw [List.flatten_cons]; exact List.mem_append_right _ hi)
    have hltc : ∀ i ∈ c, i < layer.segments.length := fun i hi => hlt i (by rw [List.flatten_cons]; exact List.mem_append_left _ hi)
    have hne' : ∀ e ∈ d :: K, e ≠ [] := fun e he => hne e (List.mem_cons_of_mem _ he)
    have hc := hne c (by simp)
    have ih := joined_walk (d :: K) (List.cons_ne_nil _ _) hne' hlt' fun e he => hch e (List.mem_cons_of_mem _ he)
    have hp := piece_walk (layer := layer) (q := q) c hc hltc (hch c (by simp))
    obtain ⟨-, e2⟩ := piece_ends hltc hc
    obtain ⟨e3, -⟩ := joined_ends hlt' hne'
    have hcl : c.getLast? = some (c.getLast hc) := List.getLast?_eq_some_getLast hc
    have hfl : (d :: K).flatten ≠ [] := by
      intro e
      exact hne' d (by simp) (List.flatten_eq_nil_iff.1 e d (by simp))
    have hdh : (d :: K).flatten.head? = some ((d :: K).flatten.head hfl) := List.head?_eq_some_head hfl
    rw [hcl, Option.map_some] at e2
    rw [hdh, Option.map_some] at e3
    have hpn : pathOf (segmentsOf layer c) ≠ [] := by intro e; rw [e] at e2; cases e2
    have hkn : joinedPath layer (d :: K) ≠ [] := by intro e; rw [e] at e3; cases e3
    have e : joinedPath layer (c :: d :: K) = pathOf (segmentsOf layer c) ++ joinedPath layer (d :: K) := rfl
    rw [e, walkSum_append _ _ _ hpn hkn, hp, ih, show (c :: d :: K).flatten = c ++ (d :: K).flatten from List.flatten_cons, walkSum_append _ _ _ hc hfl, List.map_append, List.sum_append]
    rw [List.getLast?_eq_some_getLast hpn, Option.some.injEq] at e2
    rw [List.head?_eq_some_head hkn, Option.some.injEq] at e3
    rw [e2, e3]
    ring

/-- The crossings of the path along a cycle of segments. -/
theorem cycle_cross_on {layer : SliceLayer} {q : ℚ × ℚ} {meld : Int} {om : OptModel} {next : Nat → Nat} {K : List (List Nat)} (hK : IsCycle meld om layer next K)
    (hlt : ∀ i ∈ K.flatten, i < layer.segments.length)
    (htri : ∀ i ∈ K.flatten, ∀ j ∈ K.flatten, Spec.Follows meld om layer i j → cross2 q (exactPt (segAt layer i).finish) (exactPt (segAt layer j).finish) =
      cross2 q (exactPt (segAt layer i).finish) (exactPt (segAt layer j).start) + cross2 q (exactPt (segAt layer j).start) (exactPt (segAt layer j).finish)) :
    pathCross q (joinedPath layer K) = (K.flatten.map fun i => cross2 q (exactPt (segAt layer i).start) (exactPt (segAt layer i).finish) +
      cross2 q (exactPt (segAt layer i).finish) (exactPt (segAt layer (next i)).start)).sum := by
  have hw := joined_walk (layer := layer) (q := q) K hK.nonempty (fun c hc => (hK.chains c hc).1) hlt fun c hc =>
    List.IsChain.imp_of_mem_imp (fun i j hi hj hf => htri i (List.mem_flatten.2 ⟨c, hc, hi⟩) j (List.mem_flatten.2 ⟨c, hc, hj⟩) hf) (hK.chains c hc).2
  obtain ⟨a, b, ha, hb, rfl⟩ := hK.close
  have hne : K.flatten ≠ [] := by intro e; rw [e] at ha; cases ha
  have hcs := cycle_sum (fun i j => cross2 q (exactPt (segAt layer i).finish) (exactPt (segAt layer j).start)) next K.flatten hne hK.along
  rw [List.getLast?_eq_some_getLast hne, Option.some.injEq] at hb
  rw [hb] at hcs
  obtain ⟨e1, e2⟩ := joined_ends hlt fun c hc => (hK.chains c hc).1
  rw [ha, Option.map_some] at e1
  rw [List.getLast?_eq_some_getLast hne, hb, Option.map_some] at e2
  rw [List.sum_map_add, ← hcs]
  cases hp : joinedPath layer K with
  | nil => rw [hp] at e1; cases e1
  | cons x l =>
    rw [hp] at e1 e2 hw
    rw [pathCross_cons, hw]
    rw [List.head?_cons, Option.some.injEq] at e1
    rw [List.getLast?_eq_some_getLast (List.cons_ne_nil _ _), Option.some.injEq] at e2
    rw [e2, e1]
    ring

theorem cycle_cross {layer : SliceLayer} {q : ℚ × ℚ} {meld : Int} {om : OptModel} {next : Nat → Nat} {K : List (List Nat)} (hK : IsCycle meld om layer next K)
    (hlt : ∀ i ∈ K.flatten, i < layer.segments.length)
    (htri : ∀ i j, Spec.Follows meld om layer i j → cross2 q (exactPt (segAt layer i).finish) (exactPt (segAt layer j).finish) =
      cross2 q (exactPt (segAt layer i).finish) (exactPt (segAt layer j).start) + cross2 q (exactPt (segAt layer j).start) (exactPt (segAt layer j).finish)) :
    pathCross q (joinedPath layer K) = (K.flatten.map fun i => cross2 q (exactPt (segAt layer i).start) (exactPt (segAt layer i).finish) +
      cross2 q (exactPt (segAt layer i).finish) (exactPt (segAt layer (next i)).start)).sum :=
  cycle_cross_on hK hlt fun i _ j _ => htri i j

/-- The crossings of the lines between the ends of the segments are those of the exact lines, the gaps being closed. -/
theorem crossings_on {I : List Nat} {q : ℚ × ℚ} {S F A B : Nat → ℚ × ℚ} {next : Nat → Nat} (hnext : (I.map next).Perm I)
    (hS : ∀ i ∈ I, NearPt 2 (S i) (A i)) (hF : ∀ i ∈ I, NearPt 2 (F i) (B i)) (hfar : ∀ i ∈ I, FarFrom 2 (A i) (B i) q) (hgap : ∀ i ∈ I, FarFrom 2 (B i) (A (next i)) q) :
    (I.map fun i => cross2 q (S i) (F i) + cross2 q (F i) (S (next i))).sum =
      (I.map fun i => cross2 q (A i) (B i)).sum + (I.map fun i => cross2 q (B i) (A (next i))).sum := by
  have step : ∀ i ∈ I, cross2 q (S i) (F i) + cross2 q (F i) (S (next i)) =
      cross2 q (A i) (B i) + cross2 q (B i) (A (next i)) + (cross2 q (S i) (A i) + cross2 q (S (next i)) (A (next i))) := by
    intro i hi
    obtain ⟨u, v, h1⟩ := separated (hfar i hi)
    obtain ⟨u', v', h2⟩ := separated (hgap i hi)
    have near0 : ∀ x : ℚ × ℚ, NearPt 2 x x := NearPt.refl (by norm_num)
    have s1 : Side u v q (S i) := h1 _ 0 le_rfl zero_le_one (by rw [lineAt_zero]; exact hS i hi)
    have s2 : Side u v q (A i) := h1 _ 0 le_rfl zero_le_one (by rw [lineAt_zero]; exact near0 _)
    have s3 : Side u v q (B i) := h1 _ 1 zero_le_one le_rfl (by rw [lineAt_one]; exact near0 _)
    have s4 : Side u v q (F i) := h1 _ 1 zero_le_one le_rfl (by rw [lineAt_one]; exact hF i hi)
    have t1 : Side u' v' q (F i) := h2 _ 0 le_rfl zero_le_one (by rw [lineAt_zero]; exact hF i hi)
    have t2 : Side u' v' q (B i) := h2 _ 0 le_rfl zero_le_one (by rw [lineAt_zero]; exact near0 _)
    have t3 : Side u' v' q (A (next i)) := h2 _ 1 zero_le_one le_rfl (by rw [lineAt_one]; exact near0 _)
    have t4 : Side u' v' q (S (next i)) := h2 _ 1 zero_le_one le_rfl (by rw [lineAt_one]; exact hS _ (hnext.mem_iff.1 (List.mem_map.2 ⟨i, hi, rfl⟩)))
    have e1 := cross2_tri s1 s2 s4
    have e2 := cross2_tri s2 s3 s4
    have e3 := cross2_tri t1 t2 t4
    have e4 := cross2_tri t2 t3 t4
    rw [← e1, ← e2, ← e3, ← e4, cross2_symm q (F i) (B i), cross2_symm q (A (next i)) (S (next i))]
    have : cross2 q (B i) (F i) + cross2 q (B i) (F i) = 0 := CharTwo.add_self_eq_zero _
    linear_combination this
  rw [List.map_congr_left step, List.sum_map_add, List.sum_map_add, List.sum_map_add]
  have e : (I.map fun i => cross2 q (S (next i)) (A (next i))).sum = (I.map fun i => cross2 q (S i) (A i)).sum := by
    have := (hnext.map fun i => cross2 q (S i) (A i)).sum_eq
    rwa [List.map_map] at this
  rw [e]
  have : (I.map fun i => cross2 q (S i) (A i)).sum + (I.map fun i => cross2 q (S i) (A i)).sum = 0 := CharTwo.add_self_eq_zero _
  linear_combination this

theorem gap_crossings {N : Nat} {q : ℚ × ℚ} {S F A B : Nat → ℚ × ℚ} {next : Nat → Nat} (hlt : ∀ i < N, next i < N) (hinj : ∀ i < N, ∀ j < N, next i = next j → i = j)
    (hS : ∀ i < N, NearPt 2 (S i) (A i)) (hF : ∀ i < N, NearPt 2 (F i) (B i)) (hfar : ∀ i < N, FarFrom 2 (A i) (B i) q) (hgap : ∀ i < N, FarFrom 2 (B i) (A (next i)) q) :
    ((List.range N).map fun i => cross2 q (S i) (F i) + cross2 q (F i) (S (next i))).sum =
      ((List.range N).map fun i => cross2 q (A i) (B i)).sum + ((List.range N).map fun i => cross2 q (B i) (A (next i))).sum := by

  have hnext : ((List.range N).map next).Perm (List.range N) := by
    have hnd : ((List.range N).map next).Nodup := by
      rw [List.nodup_map_iff_inj_on List.nodup_range]
      exact fun i hi j hj e => hinj i (List.mem_range.1 hi) j (List.mem_range.1 hj) e
    refine (List.subperm_of_subset hnd ?_).perm_of_length_le (by simp)
    intro x hx
    obtain ⟨i, hi, rfl⟩ := List.mem_map.1 hx
    exact List.mem_range.2 (hlt i (List.mem_range.1 hi))
  exact crossings_on hnext (fun i hi => hS i (List.mem_range.1 hi)) (fun i hi => hF i (List.mem_range.1 hi)) (fun i hi => hfar i (List.mem_range.1 hi)) fun i hi => hgap i (List.mem_range.1 hi)

/-! ## Sides -/

theorem sides_of_chain {Q : Pt → Pt → Prop} {p : Path} (h : p.IsChain Q) (hc : ∀ a b, p.head? = some a → p.getLast? = some b → Q b a) : ∀ s ∈ sidesOf p, Q s.1 s.2 := by
  have walk : ∀ (l : Path) (a x : Pt), (a :: l).IsChain Q → (∀ b, (a :: l).getLast? = some b → Q b x) → ∀ s ∈ (a :: l).zip (l ++ [x]), Q s.1 s.2 := by
    intro l
    induction l with
    | nil =>
      intro a x _ hx s hs
      simp only [List.nil_append, List.zip_cons_cons, List.zip_nil_left, List.mem_singleton] at hs
      subst hs
      exact hx a rfl
    | cons b l ih =>
      intro a x hch hx s hs
      rw [List.isChain_cons_cons] at hch
      simp only [List.cons_append, List.zip_cons_cons, List.mem_cons] at hs
      rcases hs with rfl | hs
      · exact hch.1
      · exact ih b x hch.2 (fun c hc => hx c (by rw [List.getLast?_cons, hc]; rfl)) s hs
  cases p with
  | nil => intro s hs; cases hs
  | cons a l =>
    unfold sidesOf
    rw [List.rotate_cons_succ, List.rotate_zero]
    exact walk l a a h fun b hb => hc a b rfl hb

/-- The sides of the path along a cycle of segments. -/
theorem cycle_sides_on {layer : SliceLayer} {meld : Int} {om : OptModel} {next : Nat → Nat} {K : List (List Nat)} (hK : IsCycle meld om layer next K)
    (hlt : ∀ i ∈ K.flatten, i < layer.segments.length) {Q : Pt → Pt → Prop} (h1 : ∀ i ∈ K.flatten, Q (segAt layer i).start (segAt layer i).finish)
    (h2 : ∀ i ∈ K.flatten, ∀ j ∈ K.flatten, Spec.Follows meld om layer i j → Q (segAt layer i).finish (segAt layer j).finish)
    (h3 : ∀ i ∈ K.flatten, Q (segAt layer i).finish (segAt layer (next i)).start) : ∀ s ∈ sidesOf (joinedPath layer K), Q s.1 s.2 := by
  have hl : ∀ c ∈ K, ∀ i ∈ c, i < layer.segments.length := fun c hc i hi => hlt i (List.mem_flatten.2 ⟨c, hc, hi⟩)
  have hpn : ∀ c ∈ K, pathOf (segmentsOf layer c) ≠ [] := by
    intro c hc e
    have h := (piece_ends (hl c hc) (hK.chains c hc).1).1
    rw [e, List.head?_eq_some_head (hK.chains c hc).1] at h
    cases h
  apply sides_of_chain
  · unfold joinedPath
    rw [List.isChain_flatten (by
      intro h
      obtain ⟨c, hc, e⟩ := List.mem_map.1 h
      exact hpn c hc e)]
    constructor
    · intro p hp
      obtain ⟨c, hc, rfl⟩ := List.mem_map.1 hp
      rw [segmentsOf_map (hl c hc)]
      have hch := (hK.chains c hc).2
      have hlc : ∀ i ∈ c, i ∈ K.flatten := fun i hi => List.mem_flatten.2 ⟨c, hc, hi⟩
      cases c with
      | nil => exact .nil
      | cons i c =>
        rw [List.map_cons, pathOf, List.map_cons, List.isChain_cons_cons]
        refine ⟨h1 i (hlc i (by simp)), ?_⟩
        rw [← List.map_cons (f := SliceSegment.finish), ← List.map_cons (f := segAt layer), List.map_map, List.isChain_map]
        exact hch.imp_of_mem_imp fun a b ha hb hf => h2 a (hlc a ha) b (hlc b hb) hf
    · rw [List.isChain_map]
      have hal := hK.along
      rw [List.isChain_flatten (fun h => (hK.chains _ h).1 rfl)] at hal
      refine List.IsChain.imp_of_mem_imp (fun c d hc hd hcd => ?_) hal.2
      intro x hx y hy
      obtain ⟨-, e2⟩ := piece_ends (hl c hc) (hK.chains c hc).1
      obtain ⟨e3, -⟩ := piece_ends (hl d hd) (hK.chains d hd).1
      rw [e2] at hx
      rw [e3] at hy
      obtain ⟨i, hi, rfl⟩ := Option.map_eq_some_iff.1 (Option.mem_def.1 hx)
      obtain ⟨j, hj, rfl⟩ := Option.map_eq_some_iff.1 (Option.mem_def.1 hy)
      obtain rfl := hcd i (Option.mem_def.2 hi) j (Option.mem_def.2 hj)
      exact h3 i (List.mem_flatten.2 ⟨c, hc, List.mem_of_getLast? hi⟩)
  · intro a b ha hb
    obtain ⟨e1, e2⟩ := joined_ends hlt fun c hc => (hK.chains c hc).1
    rw [e1] at ha
    rw [e2] at hb
    obtain ⟨i, hi, rfl⟩ := Option.map_eq_some_iff.1 ha
    obtain ⟨j, hj, rfl⟩ := Option.map_eq_some_iff.1 hb
    obtain ⟨a, b, ha', hb', rfl⟩ := hK.close
    rw [hi] at ha'
    rw [hj] at hb'
    cases ha'
    cases hb'
    exact h3 _ (List.mem_of_getLast? hj)

theorem cycle_sides {layer : SliceLayer} {meld : Int} {om : OptModel} {next : Nat → Nat} {K : List (List Nat)} (hK : IsCycle meld om layer next K)
    (hlt : ∀ i ∈ K.flatten, i < layer.segments.length) {Q : Pt → Pt → Prop} (h1 : ∀ i < layer.segments.length, Q (segAt layer i).start (segAt layer i).finish)
    (h2 : ∀ i j, Spec.Follows meld om layer i j → Q (segAt layer i).finish (segAt layer j).finish)
    (h3 : ∀ i < layer.segments.length, Q (segAt layer i).finish (segAt layer (next i)).start) : ∀ s ∈ sidesOf (joinedPath layer K), Q s.1 s.2 :=
  cycle_sides_on hK hlt (fun i hi => h1 i (hlt i hi)) (fun i _ j _ => h2 i j) fun i hi => h3 i (hlt i hi)

end Verif
