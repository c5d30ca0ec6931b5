import Verif.Spec.Polygons
import Verif.Props.Slicer
import Verif.Props.Units

/-! # Polygons of a layer (C56–C60) -/
namespace Verif
open Verif.Go Verif.Model Verif.Spec

theorem within_iff (p q : Pt) (d : Int) : (p.sub q).shorterThanOrEqual d = true ↔ Within p q d := by
  unfold Within Pt.shorterThanOrEqual Pt.size2 Pt.sub
  simp only
  split
  · next h =>
    simp only [Bool.false_eq_true, false_iff, not_and, not_le]
    intro hd
    rcases h with h | h | h | h <;> nlinarith [mul_self_nonneg (p.x - q.x), mul_self_nonneg (p.y - q.y)]
  · next h =>
    rw [decide_eq_true_eq]
    constructor
    · intro hh
      exact ⟨by omega, by nlinarith⟩
    · intro hh
      nlinarith [hh.2]

/-! ## Chains of segments -/

section
variable {meld : Int} {om : OptModel} {layer : SliceLayer}

/-- Segment `n` belongs to one of the faces `ts` and starts near `p0`. -/
def Cand (meld : Int) (layer : SliceLayer) (p0 : Pt) (ts : List Int) (n : Nat) : Prop :=
  ∃ t ∈ ts, t > -1 ∧ layer.faceToSegmentIndex t.toNat = some n ∧ ∃ seg, layer.segments[n]? = some seg ∧ Within p0 seg.start meld

theorem nextSegment_spec (hv : ∀ i k, layer.faceToSegmentIndex i = some k → k < layer.segments.length) (added : List Nat) (start : Nat) (p0 : Pt)
    (ts : List Int) (r : Option Nat × Bool) : ∃ r', nextSegment meld layer added start p0 ts r = .ok r' ∧
      (∀ n, r'.1 = some n → r.1 = some n ∨ Cand meld layer p0 ts n ∧ n ∉ added) ∧
      (r'.1 = none → r.1 = none ∧ ∀ n, Cand meld layer p0 ts n → n ∈ added) ∧
      (r'.2 = true ↔ r.2 = true ∨ Cand meld layer p0 ts start) := by
  induction ts generalizing r with
  | nil =>
    refine ⟨r, rfl, fun n hn => .inl hn, fun hn => ⟨hn, ?_⟩, ?_⟩
    · rintro n ⟨t, ht, _⟩; cases ht
    · constructor
      · exact .inl
      · rintro (h | ⟨t, ht, _⟩)
        · exact h
        · cases ht
  | cons t ts ih =>
    have hcons : ∀ n, Cand meld layer p0 (t :: ts) n ↔ Cand meld layer p0 [t] n ∨ Cand meld layer p0 ts n := by
      intro n; unfold Cand; simp
    have skip : (∀ n, ¬ Cand meld layer p0 [t] n) → ∃ r', nextSegment meld layer added start p0 ts r = .ok r' ∧
        (∀ n, r'.1 = some n → r.1 = some n ∨ Cand meld layer p0 (t :: ts) n ∧ n ∉ added) ∧
        (r'.1 = none → r.1 = none ∧ ∀ n, Cand meld layer p0 (t :: ts) n → n ∈ added) ∧
        (r'.2 = true ↔ r.2 = true ∨ Cand meld layer p0 (t :: ts) start) := by
      intro hno
      obtain ⟨r', e, h1, h2, h3⟩ := ih r
      have : ∀ n, Cand meld layer p0 (t :: ts) n ↔ Cand meld layer p0 ts n := by
        intro n; rw [hcons]; have := hno n; tauto
      refine ⟨r', e, ?_, ?_, ?_⟩
      · intro n hn; rw [this]; exact h1 n hn
      · intro hn; refine ⟨(h2 hn).1, fun n => ?_⟩; rw [this]; exact (h2 hn).2 n
      · rw [this]; exact h3
    unfold nextSegment
    split
    · next hnone =>
      apply skip
      rintro n ⟨t', ht', hgt, hf, _⟩
      cases List.mem_singleton.1 ht'
      rw [if_pos hgt, hf] at hnone
      cases hnone
    · next ti hsome =>
      have hgt : t > -1 := by
        by_contra hc
        rw [if_neg hc] at hsome
        cases hsome
      rw [if_pos hgt] at hsome
      have hlt := hv _ _ hsome
      rw [index_of (List.getElem?_eq_getElem hlt)]
      simp only [bind, Except.bind]
      split
      · next hs =>
        have hw := (within_iff _ _ _).1 hs
        have hti : ∀ n, Cand meld layer p0 [t] n ↔ n = ti := by
          intro n
          constructor
          · rintro ⟨t', ht', _, hf, _⟩
            cases List.mem_singleton.1 ht'
            rw [hsome] at hf
            exact (Option.some.inj hf).symm
          · rintro rfl
            exact ⟨t, by simp, hgt, hsome, _, List.getElem?_eq_getElem hlt, hw⟩
        obtain ⟨r', e, h1, h2, h3⟩ := ih (if ti ∈ added then r.1 else some ti, if ti = start then true else r.2)
        refine ⟨r', e, ?_, ?_, ?_⟩
        · intro n hn
          rw [hcons, hti]
          rcases h1 n hn with h | h
          · simp only at h
            split at h
            · exact .inl h
            · next hna => cases h; exact .inr ⟨.inl rfl, hna⟩
          · exact .inr ⟨.inr h.1, h.2⟩
        · intro hn
          obtain ⟨ha, hb⟩ := h2 hn
          simp only at ha
          split at ha
          · next hin =>
            refine ⟨ha, fun n hc => ?_⟩
            rw [hcons, hti] at hc
            rcases hc with rfl | hc
            · exact hin
            · exact hb n hc
          · cases ha
        · rw [h3, hcons, hti]
          by_cases hst : ti = start
          · simp [hst]
          · have : ¬ start = ti := fun e => hst e.symm
            simp [hst, this]
      · next hs =>
        apply skip
        rintro n ⟨t', ht', _, hf, seg, hseg, hw⟩
        cases List.mem_singleton.1 ht'
        rw [hsome] at hf
        cases hf
        rw [List.getElem?_eq_getElem hlt] at hseg
        cases hseg
        exact hs ((within_iff _ _ _).2 hw)

theorem goodLayer_lt (hg : GoodLayer om layer) : ∀ i k, layer.faceToSegmentIndex i = some k → k < layer.segments.length := by
  intro i k h
  rw [hg.map] at h
  by_contra hc
  rw [List.getElem?_eq_none_iff.2 (by omega)] at h
  cases h

theorem cand_iff (hg : GoodLayer om layer) {i : Nat} {s : SliceSegment} {f : OptFace} (hs : layer.segments[i]? = some s)
    (hf : om.faces[s.faceIndex]? = some f) (j : Nat) : Cand meld layer s.finish f.touching.corners j ↔ Follows meld om layer i j := by
  constructor
  · rintro ⟨t, ht, hgt, hm, seg, hseg, hw⟩
    rw [hg.map, hseg, Option.map_some, Option.some.injEq] at hm
    refine ⟨s, seg, f, hs, hseg, hf, ?_, hw⟩
    rw [hm, Int.toNat_of_nonneg (by omega)]
    exact ht
  · rintro ⟨s1, seg, f1, e1, hseg, e2, ht, hw⟩
    rw [hs] at e1
    cases e1
    rw [hf] at e2
    cases e2
    refine ⟨_, ht, by omega, ?_, seg, hseg, hw⟩
    rw [hg.map, hseg, Option.map_some, Int.toNat_natCast]

theorem walk_spec (hg : GoodLayer om layer) (start : Nat) (rounds : Nat) (added : List Nat) (polygon : Path) (current : Nat)
    (hc : current < layer.segments.length) (hna : current ∉ added) (hnd : added.Nodup) (hsub : ∀ k ∈ added, k < layer.segments.length)
    (hr : layer.segments.length < added.length + rounds) :
    ∃ chain cl, walk meld om layer start rounds added polygon current =
        .ok (added ++ chain, polygon ++ (segmentsOf layer chain).map SliceSegment.finish, cl) ∧
      chain.head? = some current ∧ chain.IsChain (Follows meld om layer) ∧ (added ++ chain).Nodup ∧ (∀ k ∈ chain, k < layer.segments.length) ∧
      ∃ b, chain.getLast? = some b ∧ (cl = true ↔ Follows meld om layer b start) ∧ ∀ j, Follows meld om layer b j → j ∈ added ++ chain := by
  induction rounds generalizing added polygon current with
  | zero =>
    exfalso
    have : added.length ≤ (List.range layer.segments.length).length :=
      List.Subperm.length_le (List.subperm_of_subset hnd (fun k hk => List.mem_range.2 (hsub k hk)))
    simp at this
    omega
  | succ rounds ih =>
    have hs : layer.segments[current]? = some layer.segments[current] := List.getElem?_eq_getElem hc
    have hfl := hg.face _ (List.getElem_mem hc)
    have hf : om.faces[layer.segments[current].faceIndex]? = some om.faces[layer.segments[current].faceIndex] := List.getElem?_eq_getElem hfl
    obtain ⟨r, e, h1, h2, h3⟩ := nextSegment_spec (meld := meld) (goodLayer_lt hg) (added ++ [current]) start layer.segments[current].finish
      om.faces[layer.segments[current].faceIndex].touching.corners (none, false)
    simp only [cand_iff hg hs hf] at h1 h2 h3
    have hnd' : (added ++ [current]).Nodup := by
      rw [List.nodup_append]
      refine ⟨hnd, by simp, ?_⟩
      intro a ha b hb
      cases List.mem_singleton.1 hb
      rintro rfl
      exact hna ha
    have hsub' : ∀ k ∈ added ++ [current], k < layer.segments.length := by
      intro k hk
      rcases List.mem_append.1 hk with hk | hk
      · exact hsub k hk
      · cases List.mem_singleton.1 hk; exact hc
    have hseg : segmentsOf layer [current] = [layer.segments[current]] := by
      simp [segmentsOf, hs]
    simp only [walk, index_of hs, index_of hf, bind, Except.bind, e]
    cases hr1 : r.1 with
    | none =>
      refine ⟨[current], r.2, by simp [hseg, pure, Except.pure], rfl, by simp, hnd', by simpa using hc, current, rfl, ?_, ?_⟩
      · rw [h3]; simp
      · exact (h2 hr1).2
    | some next =>
      simp only
      rcases h1 next hr1 with h | ⟨hfol, hnn⟩
      · cases h
      · have hlt : next < layer.segments.length := by
          obtain ⟨_, s', _, _, hs', _⟩ := hfol
          exact (List.getElem?_eq_some_iff.1 hs').1
        obtain ⟨chain, cl, e', c1, c2, c3, c4, b, c5, c6, c7⟩ := ih (added ++ [current]) (polygon ++ [layer.segments[current].finish]) next hlt hnn hnd' hsub'
          (by simp; omega)
        refine ⟨current :: chain, cl, ?_, rfl, ?_, by simpa using c3, ?_, b, ?_, c6, by simpa using c7⟩
        · rw [e']
          have : segmentsOf layer (current :: chain) = layer.segments[current] :: segmentsOf layer chain := by
            simp [segmentsOf, hs]
          rw [this]
          simp
        · rw [List.isChain_cons]
          refine ⟨?_, c2⟩
          intro y hy
          rw [c1] at hy
          cases hy
          exact hfol
        · intro k hk
          rcases List.mem_cons.1 hk with rfl | hk
          · exact hc
          · exact c4 k hk
        · rw [List.getLast?_cons, c5]; rfl

theorem buildPolygons_spec (hg : GoodLayer om layer) (is : List Nat) (added : List Nat) (polys : List Poly) (chains : List (List Nat))
    (his : ∀ k ∈ is, k < layer.segments.length) (hadd : added = chains.flatten) (hnd : added.Nodup) (hsub : ∀ k ∈ added, k < layer.segments.length)
    (hch : List.Forall₂ (IsChainOf meld om layer) chains polys) (hel : EndsLate meld om layer chains) :
    ∃ polys' chains', buildPolygons meld om layer is added polys = .ok polys' ∧ (List.Forall₂ (IsChainOf meld om layer) chains' polys' ∧
      EndsLate meld om layer chains') ∧
      chains'.flatten.Nodup ∧ (∀ k ∈ chains'.flatten, k < layer.segments.length) ∧ (∀ k ∈ added, k ∈ chains'.flatten) ∧ ∀ k ∈ is, k ∈ chains'.flatten := by
  induction is generalizing added polys chains with
  | nil => subst hadd; exact ⟨polys, chains, rfl, ⟨hch, hel⟩, hnd, hsub, fun k hk => hk, by simp⟩
  | cons i is ih =>
    have hi := his i (by simp)
    by_cases hin : i ∈ added
    · obtain ⟨p', c', e, h1, h2, h3, h4, h5⟩ := ih added polys chains (fun k hk => his k (by simp [hk])) hadd hnd hsub hch hel
      refine ⟨p', c', by rw [buildPolygons, if_pos hin]; exact e, h1, h2, h3, h4, ?_⟩
      intro k hk
      rcases List.mem_cons.1 hk with rfl | hk
      · exact h4 _ hin
      · exact h5 k hk
    · have hs : layer.segments[i]? = some layer.segments[i] := List.getElem?_eq_getElem hi
      obtain ⟨chain, cl, e', c1, c2, c3, c4, b, c5, c6, c7⟩ := walk_spec (meld := meld) hg i (layer.segments.length + 1) added [layer.segments[i].start] i hi hin hnd hsub (by omega)
      have hchain : IsChainOf meld om layer chain ⟨some ([layer.segments[i].start] ++ (segmentsOf layer chain).map SliceSegment.finish), cl⟩ := by
        refine ⟨(by rintro rfl; cases c1), c2, ?_, ?_⟩
        · obtain ⟨rest, rfl⟩ : ∃ rest, chain = i :: rest := by
            cases chain with
            | nil => cases c1
            | cons a l => cases c1; exact ⟨l, rfl⟩
          have : segmentsOf layer (i :: rest) = layer.segments[i] :: segmentsOf layer rest := by
            simp [segmentsOf, hs]
          rw [this]
          rfl
        · rw [c6]
          constructor
          · intro h; exact ⟨i, b, c1, c5, h⟩
          · rintro ⟨a, b', ha, hb, h⟩
            rw [c1] at ha
            cases ha
            rw [c5] at hb
            cases hb
            exact h
      obtain ⟨p', c', e, h1, h2, h3, h4, h5⟩ := ih (added ++ chain) (polys ++ [⟨some ([layer.segments[i].start] ++ (segmentsOf layer chain).map SliceSegment.finish), cl⟩])
        (chains ++ [chain]) (fun k hk => his k (by simp [hk])) (by simp [hadd]) c3
        (by intro k hk; rcases List.mem_append.1 hk with hk | hk; exacts [hsub k hk, c4 k hk])
        (List.rel_append hch (.cons hchain .nil)) (by
          intro k c b' hk hb j hj
          by_cases hlt : k < chains.length
          · rw [List.getElem?_append_left hlt] at hk
            rw [List.take_append_of_le_length hlt]
            exact hel k c b' hk hb j hj
          · rw [List.getElem?_append_right (by omega)] at hk
            have hk0 : k - chains.length = 0 := by
              have := (List.getElem?_eq_some_iff.1 hk).1
              simpa using this
            rw [hk0] at hk
            cases hk
            rw [c5] at hb
            cases hb
            rw [List.take_of_length_le (by simp; omega), List.flatten_append, ← hadd]
            simpa using c7 j hj)
      refine ⟨p', c', ?_, h1, h2, h3, fun k hk => h4 k (by simp [hk]), ?_⟩
      · simp only [buildPolygons, if_neg hin, index_of hs, bind, Except.bind, e']
        exact e
      · intro k hk
        rcases List.mem_cons.1 hk with rfl | hk
        · apply h4
          apply List.mem_append_right
          exact List.mem_of_mem_head? c1
        · exact h5 k hk

/-- **C57** Polygon building ends and uses each segment of the layer exactly once. Each polygon is a path along segments, each of which starts (up to the meld distance)
where the one before ends, in a touching face. It is closed exactly if its first segment follows its last. -/
theorem C57_partition (hg : GoodLayer om layer) : ∃ polys chains, buildPolygons meld om layer (List.range layer.segments.length) [] [] = .ok polys ∧
    List.Forall₂ (IsChainOf meld om layer) chains polys ∧ chains.flatten.Perm (List.range layer.segments.length) ∧ EndsLate meld om layer chains := by
  obtain ⟨p', c', e, h1, h2, h3, _, h5⟩ := buildPolygons_spec (meld := meld) hg (List.range layer.segments.length) [] [] [] (fun k hk => List.mem_range.1 hk) rfl (by simp)
    (by simp) .nil (by intro k c b hk; cases hk)
  refine ⟨p', c', e, h1.1, ?_, h1.2⟩
  rw [List.perm_ext_iff_of_nodup h2 List.nodup_range]
  intro k
  rw [List.mem_range]
  exact ⟨h3 k, fun hk => h5 k (List.mem_range.2 hk)⟩

end

/-! ## Joining -/

theorem size_le {p q : Pt} {d : Int} (h : Within p q d) (hd : d < 2 ^ 26) : (p.sub q).size ≤ d := by
  have h1 : (p.sub q).size2 < 2 ^ 52 := by
    have : (p.sub q).size2 = (p.x - q.x) ^ 2 + (p.y - q.y) ^ 2 := by unfold Pt.size2 Pt.sub; ring
    rw [this]
    have := h.1
    have := h.2
    nlinarith
  rw [C73_point_size _ h1]
  have := (C02_point (p.sub q) d).1 ((within_iff _ _ _).2 h)
  exact_mod_cast (Int.floor_le _).trans this

theorem index_zero {α : Type} {l : List α} {a : α} (h : l.head? = some a) : index l 0 = .ok a := by
  cases l with
  | nil => cases h
  | cons b l => cases h; rfl

theorem index_last_point {α : Type} {l : List α} {a : α} (h : l.getLast? = some a) : index l ((l.length : Int) - 1) = .ok a := by
  have hl : l ≠ [] := by rintro rfl; cases h
  have : 0 < l.length := List.length_pos_of_ne_nil hl
  rw [show ((l.length : Int) - 1) = ((l.length - 1 : Nat) : Int) by omega]
  apply index_of
  rw [← h, List.getLast?_eq_getElem?]

/-- The best polygon found so far. -/
def BestInv (join : Int) (polys : List Poly) (i : Nat) (last : Pt) (best : Option Nat × Int) : Prop :=
  (best.1 = none → best.2 = join + 1) ∧ ∀ b, best.1 = some b → ∃ q, Joinable join polys i last b q ∧ best.2 = score last q

theorem bestPartner_spec {join : Int} {polys : List Poly} {i : Nat} {last : Pt} (hne : ∀ p ∈ polys, p.path ≠ some []) (ps : List Poly) (j : Nat)
    (best : Option Nat × Int) (hps : ps = polys.drop j) (hb : BestInv join polys i last best) :
    ∃ r, bestPartner join i last ps j best = .ok r ∧ BestInv join polys i last r ∧ r.2 ≤ best.2 ∧
      ∀ c q, j ≤ c → Joinable join polys i last c q → r.2 ≤ score last q := by
  induction ps generalizing j best with
  | nil =>
    refine ⟨best, rfl, hb, le_refl _, ?_⟩
    intro c q hc hj
    have := (List.getElem?_eq_some_iff.1 hj.1).1
    have := List.drop_eq_nil_iff.1 hps.symm
    omega
  | cons p ps ih =>
    have hj : polys[j]? = some p := by
      have := congrArg List.head? hps
      rw [List.head?_cons, List.head?_drop] at this
      exact this.symm
    have hps' : ps = polys.drop (j + 1) := by
      have := congrArg List.tail hps
      rw [List.tail_cons, List.tail_drop] at this
      exact this
    have skip : ∀ best', BestInv join polys i last best' → best'.2 ≤ best.2 → (∀ q, Joinable join polys i last j q → best'.2 ≤ score last q) →
        ∃ r, bestPartner join i last ps (j + 1) best' = .ok r ∧ BestInv join polys i last r ∧ r.2 ≤ best.2 ∧
          ∀ c q, j ≤ c → Joinable join polys i last c q → r.2 ≤ score last q := by
      intro best' hb' hle hq
      obtain ⟨r, e, h1, h2, h3⟩ := ih (j + 1) best' hps' hb'
      refine ⟨r, e, h1, h2.trans hle, ?_⟩
      intro c q hc hjc
      rcases Nat.lt_or_eq_of_le hc with hc | rfl
      · exact h3 c q hc hjc
      · exact h2.trans (hq q hjc)
    match p, hj with
    | ⟨none, cl⟩, hj =>
      rw [bestPartner]
      apply skip best hb (le_refl _)
      rintro q ⟨e, _⟩
      rw [hj] at e
      cases e
    | ⟨some q, cl⟩, hj =>
      rw [bestPartner]
      split
      · next hc =>
        apply skip best hb (le_refl _)
        rintro q' ⟨e, hne', _⟩
        rw [hj] at e
        cases e
        rcases hc with hc | hc
        · cases hc
        · exact absurd hc hne'
      · next hc =>
        push Not at hc
        have hcl : cl = false := by simpa using hc.1
        subst hcl
        have hq : q ≠ [] := by
          rintro rfl
          exact hne _ (List.mem_of_getElem? hj) rfl
        obtain ⟨first, hfirst⟩ : ∃ first, q.head? = some first := by
          cases q with
          | nil => exact absurd rfl hq
          | cons a l => exact ⟨a, rfl⟩
        have hsc : score last q = (last.sub first).size - (q.length * 10 : Nat) := by
          cases q with
          | nil => cases hfirst
          | cons a l => cases hfirst; rfl
        simp only [index_zero hfirst, bind, Except.bind]
        split
        · next hh =>
          have hjn : Joinable join polys i last j q := ⟨hj, hc.2, first, hfirst, (within_iff _ _ _).1 hh.1⟩
          apply skip (some j, (last.sub first).size - (q.length * 10 : Nat))
          · refine ⟨by simp, ?_⟩
            intro b hb
            cases hb
            exact ⟨q, hjn, hsc.symm⟩
          · exact hh.2.le
          · intro q' hq'
            have := hq'.1
            rw [hj] at this
            cases this
            rw [hsc]
        · next hh =>
          apply skip best hb (le_refl _)
          rintro q' ⟨e, _, f, hf, hw⟩
          rw [hj] at e
          cases e
          rw [hfirst] at hf
          cases hf
          rw [hsc]
          rw [within_iff] at hh
          by_contra hlt
          exact hh ⟨hw, not_le.1 hlt⟩

theorem removeLastPoint_id (p : Path) : removeLastPoint p = p := by
  unfold removeLastPoint; exact List.take_length

theorem isAlmostFinished_ok {p : Path} (d : Int) (hp : p ≠ []) : ∃ cl, isAlmostFinished p d = .ok cl ∧ (cl = true ↔ Continues d p p) := by
  obtain ⟨first, hf⟩ : ∃ first, p.head? = some first := by
    cases p with
    | nil => exact absurd rfl hp
    | cons a l => exact ⟨a, rfl⟩
  obtain ⟨last, hl⟩ : ∃ last, p.getLast? = some last := ⟨_, List.getLast?_eq_some_getLast hp⟩
  refine ⟨(first.sub last).shorterThanOrEqual d, ?_, ?_⟩
  · simp only [isAlmostFinished, index_zero hf, index_last_point hl, bind, Except.bind, pure, Except.pure]
  · rw [within_iff]
    unfold Continues Within
    constructor
    · rintro ⟨h0, h⟩
      refine ⟨last, first, hl, hf, h0, ?_⟩
      nlinarith
    · rintro ⟨x, y, hx, hy, h0, h⟩
      rw [hl] at hx
      rw [hf] at hy
      cases hx
      cases hy
      refine ⟨h0, ?_⟩
      nlinarith

theorem joinPass_spec {join : Int} {polys : List Poly} (hne : ∀ p ∈ polys, p.path ≠ some []) (ps : List Poly) (i : Nat) (hps : ps = polys.drop i) :
    ∃ r, joinPass join polys ps i = .ok r ∧ (∀ polys', r = some polys' → JoinStep join polys polys') ∧
      (r = none → join < 2 ^ 26 → ∀ k p last, i ≤ k → polys[k]? = some ⟨some p, false⟩ → p.getLast? = some last → ∀ b q, ¬ Joinable join polys k last b q) := by
  induction ps generalizing i with
  | nil =>
    refine ⟨none, rfl, by simp, ?_⟩
    intro _ _ k p last hk hp
    have := (List.getElem?_eq_some_iff.1 hp).1
    have := List.drop_eq_nil_iff.1 hps.symm
    omega
  | cons p ps ih =>
    have hi : polys[i]? = some p := by
      have := congrArg List.head? hps
      rw [List.head?_cons, List.head?_drop] at this
      exact this.symm
    have hps' : ps = polys.drop (i + 1) := by
      have := congrArg List.tail hps
      rw [List.tail_cons, List.tail_drop] at this
      exact this
    have skip : (join < 2 ^ 26 → ∀ p last, polys[i]? = some ⟨some p, false⟩ → p.getLast? = some last → ∀ b q, ¬ Joinable join polys i last b q) →
        ∃ r, joinPass join polys ps (i + 1) = .ok r ∧ (∀ polys', r = some polys' → JoinStep join polys polys') ∧
        (r = none → join < 2 ^ 26 → ∀ k p last, i ≤ k → polys[k]? = some ⟨some p, false⟩ → p.getLast? = some last → ∀ b q, ¬ Joinable join polys k last b q) := by
      intro hno
      obtain ⟨r, e, h1, h2⟩ := ih (i + 1) hps'
      refine ⟨r, e, h1, ?_⟩
      intro hr hj k p last hk
      rcases Nat.lt_or_eq_of_le hk with hk | rfl
      · exact h2 hr hj k p last hk
      · exact hno hj p last
    match p, hi with
    | ⟨none, cl⟩, hi =>
      rw [joinPass]
      apply skip
      intro _ p last e
      rw [hi] at e
      cases e
    | ⟨some p, cl⟩, hi =>
      rw [joinPass]
      split
      · next hc =>
        apply skip
        intro _ p' last e
        rw [hi] at e
        cases e
        cases hc
      · next hc =>
        have hcl : cl = false := by simpa using hc
        subst hcl
        have hp : p ≠ [] := by
          rintro rfl
          exact hne _ (List.mem_of_getElem? hi) rfl
        obtain ⟨last, hlast⟩ : ∃ last, p.getLast? = some last := ⟨_, List.getLast?_eq_some_getLast hp⟩
        obtain ⟨r, e, ⟨h1, h2⟩, _, h3⟩ := bestPartner_spec (join := join) (i := i) (last := last) hne polys 0 (none, join + 1) rfl ⟨fun _ => rfl, by simp⟩
        simp only [index_last_point hlast, bind, Except.bind, e]
        cases hr : r.1 with
        | none =>
          simp only
          apply skip
          intro hj p' last' e' hl' b q hjn
          rw [hi] at e'
          cases e'
          rw [hlast] at hl'
          cases hl'
          have hs := h3 b q (Nat.zero_le _) hjn
          rw [h1 hr] at hs
          obtain ⟨_, _, first, hf, hw⟩ := hjn
          have := size_le hw hj
          have hsc : score last q = (last.sub first).size - (q.length * 10 : Nat) := by
            cases q with
            | nil => cases hf
            | cons a l => cases hf; rfl
          omega
        | some b =>
          obtain ⟨q, hjn, hsc⟩ := h2 b hr
          obtain ⟨cl, hcl, hcl'⟩ := isAlmostFinished_ok join (p := p ++ q) (by simp [hp])
          refine ⟨some ((polys.set i ⟨some (p ++ q), cl⟩).set b ⟨none, false⟩), ?_, ?_, by simp⟩
          · simp only [joinPolygons, index_of hjn.1, bind, Except.bind, Option.getD_some, hcl, removeLastPoint_id, pure, Except.pure]
            cases cl <;> rfl
          · intro polys' e'
            cases e'
            refine ⟨i, p, b, q, last, cl, hi, hlast, hjn, ?_, hcl', rfl⟩
            intro c q' hc
            rw [← hsc]
            exact h3 c q' (Nat.zero_le _) hc

theorem flatten_set_perm {α : Type} {l : List (List α)} {i : Nat} {x : List α} (y : List α) (h : l[i]? = some x) :
    ((l.set i y).flatten ++ x).Perm (l.flatten ++ y) := by
  induction l generalizing i with
  | nil => cases h
  | cons a l ih =>
    cases i with
    | zero =>
      cases h
      simp only [List.set_cons_zero, List.flatten_cons, List.append_assoc]
      have h1 : (y ++ (l.flatten ++ x)).Perm (x ++ (y ++ l.flatten)) := by
        rw [← List.append_assoc]
        exact List.perm_append_comm
      exact h1.trans (List.perm_append_comm.append_left x)
    | succ i =>
      simp only [List.set_cons_succ, List.flatten_cons, List.append_assoc]
      exact (ih (by simpa using h)).append_left a

/-- The groups of joined polygons. -/
structure JoinInv (join : Int) (polys0 : List Poly) (groups : List (List Nat)) (polys : List Poly) : Prop where
  length : groups.length = polys.length
  joined : ∀ (k : Nat) g p, groups[k]? = some g → polys[k]? = some p → IsJoinOf join polys0 g p
  perm : groups.flatten.Perm (List.range polys0.length)

theorem pathsOf_append (polys : List Poly) (g h : List Nat) : pathsOf polys (g ++ h) = pathsOf polys g ++ pathsOf polys h := by
  unfold pathsOf; exact List.filterMap_append

theorem pathsOf_ne_nil {polys0 : List Poly} {g : List Nat} (hg : ∀ k ∈ g, k < polys0.length) (h0 : ∀ p ∈ polys0, p.path ≠ none) (hne : g ≠ []) :
    pathsOf polys0 g ≠ [] := by
  cases g with
  | nil => exact absurd rfl hne
  | cons k g =>
    have hk := hg k (by simp)
    have hp := h0 _ (List.getElem_mem hk)
    cases e : polys0[k].path with
    | none => exact absurd e hp
    | some q => simp [pathsOf, List.getElem?_eq_getElem hk, e]

theorem pathsOf_nonempty {polys0 : List Poly} {g : List Nat} (h0 : ∀ p ∈ polys0, p.path ≠ some []) : ∀ q ∈ pathsOf polys0 g, q ≠ [] := by
  rintro q hq rfl
  unfold pathsOf at hq
  obtain ⟨k, _, h⟩ := List.mem_filterMap.1 hq
  cases e : polys0[k]? with
  | none => rw [e] at h; cases h
  | some p =>
    rw [e] at h
    exact h0 p (List.mem_of_getElem? e) h

theorem getLast?_flatten {α : Type} {ls : List (List α)} (h : ∀ l ∈ ls, l ≠ []) : ls.flatten.getLast? = ls.getLast?.bind List.getLast? := by
  rcases List.eq_nil_or_concat ls with rfl | ⟨xs, x, rfl⟩
  · rfl
  · have hx := h x (by simp)
    simp only [List.concat_eq_append, List.flatten_append, List.flatten_cons, List.flatten_nil, List.append_nil, List.getLast?_append, List.getLast?_singleton, Option.some_or,
      Option.bind_some]
    rw [List.getLast?_eq_some_getLast hx]
    rfl

theorem head?_flatten {α : Type} {ls : List (List α)} (h : ∀ l ∈ ls, l ≠ []) : ls.flatten.head? = ls.head?.bind List.head? := by
  cases ls with
  | nil => rfl
  | cons x xs =>
    have hx := h x (by simp)
    cases x with
    | nil => exact absurd rfl hx
    | cons a l => rfl

theorem joinStep_inv {join : Int} {polys0 polys polys' : List Poly} {groups : List (List Nat)} (h0 : ∀ p ∈ polys0, p.path ≠ none ∧ p.path ≠ some [])
    (hi : JoinInv join polys0 groups polys) (hs : JoinStep join polys polys') :
    ∃ groups', JoinInv join polys0 groups' polys' ∧ polys'.countP (fun p => p.path.isSome) + 1 = polys.countP (fun p => p.path.isSome) := by
  obtain ⟨i, p, b, q, last, cl, hpi, hlast, ⟨hqb, hib, first, hfirst, hw⟩, -, hcl, rfl⟩ := hs
  have hil := (List.getElem?_eq_some_iff.1 hpi).1
  have hbl := (List.getElem?_eq_some_iff.1 hqb).1
  obtain ⟨gi, hgi⟩ : ∃ gi, groups[i]? = some gi := ⟨_, List.getElem?_eq_getElem (by rw [hi.length]; exact hil)⟩
  obtain ⟨gb, hgb⟩ : ∃ gb, groups[b]? = some gb := ⟨_, List.getElem?_eq_getElem (by rw [hi.length]; exact hbl)⟩
  have ji := hi.joined i gi _ hgi hpi
  have jb := hi.joined b gb _ hgb hqb
  have nei : gi ≠ [] := fun e => by have := ji.none e; cases this
  have neb : gb ≠ [] := fun e => by have := jb.none e; cases this
  have pi' : p = (pathsOf polys0 gi).flatten := Option.some.inj (ji.path nei)
  have pb' : q = (pathsOf polys0 gb).flatten := Option.some.inj (jb.path neb)
  have hrange : ∀ (k : Nat) g, groups[k]? = some g → ∀ m ∈ g, m < polys0.length := by
    intro k g hk m hm
    have : m ∈ groups.flatten := List.mem_flatten.2 ⟨g, List.mem_of_getElem? hk, hm⟩
    exact List.mem_range.1 (hi.perm.mem_iff.1 this)
  have isopen : ∀ (k : Nat) g r, groups[k]? = some g → polys[k]? = some ⟨some r, false⟩ → ∀ m ∈ g, ∃ q, polys0[m]? = some ⟨some q, false⟩ := by
    intro k g r hk hr m hm
    have j := hi.joined k g _ hk hr
    by_cases h2 : 2 ≤ g.length
    · exact j.isOpen h2 m hm
    · obtain ⟨a, rfl⟩ : ∃ a, g = [a] := by
        match g, hm with
        | [a], _ => exact ⟨a, rfl⟩
        | _ :: _ :: _, _ => simp at h2
      cases List.mem_singleton.1 hm
      exact ⟨r, j.one _ rfl⟩
  have hlen2 : 2 ≤ (gi ++ gb).length := by
    have := List.length_pos_of_ne_nil nei
    have := List.length_pos_of_ne_nil neb
    simp; omega
  have hnonempty : ∀ g, ∀ r ∈ pathsOf polys0 g, r ≠ [] := fun g => pathsOf_nonempty fun p hp => (h0 p hp).2
  have hflat : p ++ q = (pathsOf polys0 (gi ++ gb)).flatten := by rw [pathsOf_append, List.flatten_append, ← pi', ← pb']
  have hjoined : IsJoinOf join polys0 (gi ++ gb) ⟨some (p ++ q), cl⟩ := by
    refine ⟨fun e => by simp [nei] at e, fun k e => ?_, fun _ => by rw [hflat], ?_, ?_, fun _ => by rw [hcl, hflat]⟩
    · rw [e] at hlen2; simp at hlen2
    · rw [pathsOf_append, List.isChain_append]
      refine ⟨ji.linked, jb.linked, ?_⟩
      intro x hx y hy
      refine ⟨last, first, ?_, ?_, hw⟩
      · rw [pi', getLast?_flatten (hnonempty gi)] at hlast
        rw [Option.mem_def.1 hx] at hlast
        exact hlast
      · rw [pb', head?_flatten (hnonempty gb)] at hfirst
        rw [Option.mem_def.1 hy] at hfirst
        exact hfirst
    · intro _ k hk
      rcases List.mem_append.1 hk with hk | hk
      · exact isopen i gi p hgi hpi k hk
      · exact isopen b gb q hgb hqb k hk
  refine ⟨(groups.set i (gi ++ gb)).set b [], ⟨by simp [hi.length], ?_, ?_⟩, ?_⟩
  · intro k g r hg hr
    by_cases hkb : b = k
    · subst hkb
      rw [List.getElem?_set_self (by simpa using (List.getElem?_eq_some_iff.1 hgb).1)] at hg
      rw [List.getElem?_set_self (by simpa using hbl)] at hr
      cases hg
      cases hr
      exact ⟨fun _ => rfl, by simp, by simp, by simp [pathsOf], by simp, by simp⟩
    · rw [List.getElem?_set_ne hkb] at hg hr
      by_cases hki : i = k
      · subst hki
        rw [List.getElem?_set_self (List.getElem?_eq_some_iff.1 hgi).1] at hg
        rw [List.getElem?_set_self hil] at hr
        cases hg
        cases hr
        exact hjoined
      · rw [List.getElem?_set_ne hki] at hg hr
        exact hi.joined k g r hg hr
  · have h1 := flatten_set_perm (gi ++ gb) hgi
    have h2 := flatten_set_perm (l := groups.set i (gi ++ gb)) [] (i := b) (x := gb) (by rw [List.getElem?_set_ne hib]; exact hgb)
    rw [List.append_nil] at h2
    have h3 := (h2.append_right gi).trans h1
    rw [List.append_assoc] at h3
    have h4 := h3.trans (List.perm_append_comm.append_left _)
    exact ((List.perm_append_right_iff _).1 h4).trans hi.perm
  · have hset : ∀ (l : List Poly) (k : Nat) (x y : Poly), l[k]? = some x → (l.set k y).countP (fun p => p.path.isSome) + (if x.path.isSome then 1 else 0) =
        l.countP (fun p => p.path.isSome) + if y.path.isSome then 1 else 0 := by
      intro l
      induction l with
      | nil => intro k x y h; cases h
      | cons a l ih =>
        intro k x y h
        cases k with
        | zero => cases h; simp only [List.set_cons_zero, List.countP_cons]; omega
        | succ k =>
          simp only [List.set_cons_succ, List.countP_cons]
          have := ih k x y (by simpa using h)
          omega
    have e1 := hset polys i _ ⟨some (p ++ q), cl⟩ hpi
    have e2 := hset (polys.set i ⟨some (p ++ q), cl⟩) b _ ⟨none, false⟩ (by rw [List.getElem?_set_ne hib]; exact hqb)
    simp at e1 e2
    omega

theorem joinInv_nonempty {join : Int} {polys0 polys : List Poly} {groups : List (List Nat)} (h0 : ∀ p ∈ polys0, p.path ≠ none ∧ p.path ≠ some [])
    (hi : JoinInv join polys0 groups polys) : ∀ p ∈ polys, p.path ≠ some [] := by
  intro p hp e
  obtain ⟨k, hk⟩ := List.getElem?_of_mem hp
  have hkl := (List.getElem?_eq_some_iff.1 hk).1
  have hkg : k < groups.length := by rw [hi.length]; exact hkl
  have hgk : groups[k]? = some groups[k] := List.getElem?_eq_getElem hkg
  have j := hi.joined k _ p hgk hk
  have hne : groups[k] ≠ [] := fun e' => by rw [j.none e'] at e; cases e
  have hr : ∀ m ∈ groups[k], m < polys0.length := by
    intro m hm
    exact List.mem_range.1 (hi.perm.mem_iff.1 (List.mem_flatten.2 ⟨_, List.mem_of_getElem? hgk, hm⟩))
  rw [j.path hne, Option.some.injEq, List.flatten_eq_nil_iff] at e
  have hpn := pathsOf_ne_nil hr (fun p hp => (h0 p hp).1) hne
  obtain ⟨x, hx⟩ := List.exists_mem_of_ne_nil _ hpn
  exact pathsOf_nonempty (fun p hp => (h0 p hp).2) x hx (e x hx)

theorem joinAll_spec {join : Int} {polys0 : List Poly} (h0 : ∀ p ∈ polys0, p.path ≠ none ∧ p.path ≠ some []) (rounds : Nat) (polys : List Poly)
    (groups : List (List Nat)) (hi : JoinInv join polys0 groups polys) (hr : polys.countP (fun p => p.path.isSome) < rounds) :
    ∃ polys' groups', joinAll join rounds polys = .ok polys' ∧ JoinInv join polys0 groups' polys' ∧
      (join < 2 ^ 26 → ∀ (k : Nat) p last, polys'[k]? = some ⟨some p, false⟩ → p.getLast? = some last → ∀ b q, ¬ Joinable join polys' k last b q) := by
  induction rounds generalizing polys groups with
  | zero => omega
  | succ rounds ih =>
    obtain ⟨r, e, h1, h2⟩ := joinPass_spec (join := join) (joinInv_nonempty h0 hi) polys 0 rfl
    simp only [joinAll, e, bind, Except.bind]
    cases r with
    | none => exact ⟨polys, groups, rfl, hi, fun hj k p last => h2 rfl hj k p last (Nat.zero_le _)⟩
    | some polys1 =>
      obtain ⟨groups1, hi1, hc⟩ := joinStep_inv h0 hi (h1 _ rfl)
      exact ih polys1 groups1 hi1 (by omega)

theorem singletons_flatten (n : Nat) : ((List.range n).map fun k => [k]).flatten = List.range n := by
  induction n with
  | zero => rfl
  | succ n ih => rw [List.range_succ, List.map_append, List.flatten_append, ih]; rfl

/-- **C58** Joining ends and loses no polygon and no point: each polygon given is part of exactly one result, whose path is made of the paths of its parts; each part starts
within the join distance of the end of the part before. Only open polygons are joined. In the end, no open polygon ends within the join distance of the start of another one. -/
theorem C58_join (join : Int) (polys : List Poly) (h0 : ∀ p ∈ polys, p.path ≠ none ∧ p.path ≠ some []) :
    ∃ polys' groups, joinAll join (polys.length + 1) polys = .ok polys' ∧ List.Forall₂ (IsJoinOf join polys) groups polys' ∧
      groups.flatten.Perm (List.range polys.length) ∧
      (join < 2 ^ 26 → ∀ (i j : Nat) p q, i ≠ j → polys'[i]? = some ⟨some p, false⟩ → polys'[j]? = some ⟨some q, false⟩ → ¬ Continues join p q) := by
  obtain ⟨polys', groups, e, hi, hmax⟩ := joinAll_spec (join := join) h0 (polys.length + 1) polys ((List.range polys.length).map fun k => [k]) (by
    refine ⟨by simp, ?_, by rw [singletons_flatten]⟩
    intro k g p hg hp
    rw [List.getElem?_map, List.getElem?_range (List.getElem?_eq_some_iff.1 hp).1] at hg
    cases hg
    have hpath : ∃ q, p.path = some q := by
      have := (h0 p (List.mem_of_getElem? hp)).1
      cases e : p.path with
      | none => exact absurd e this
      | some q => exact ⟨q, rfl⟩
    obtain ⟨q, hq⟩ := hpath
    have hps : pathsOf polys [k] = [q] := by simp [pathsOf, hp, hq]
    refine ⟨by simp, ?_, ?_, ?_, by simp, by simp⟩
    · intro k' e
      cases e
      exact hp
    · intro _
      rw [hps, hq]
      simp
    · rw [hps]
      simp) (by
    have := List.countP_le_length (p := fun p : Poly => p.path.isSome) (l := polys)
    omega)
  refine ⟨polys', groups, e, ?_, hi.perm, ?_⟩
  · rw [List.forall₂_iff_get]
    refine ⟨hi.length, ?_⟩
    intro k h1 h2
    exact hi.joined k _ _ (List.getElem?_eq_getElem h1) (List.getElem?_eq_getElem h2)
  · rintro hj i j p q hij hp hq ⟨x, y, hx, hy, hw⟩
    exact hmax hj i p x hp hx j q ⟨hq, hij, y, hy, hw⟩

/-- **C58** A join takes the open polygon with the best score among those which start within the join distance. -/
theorem C58_best (join : Int) (polys : List Poly) (hne : ∀ p ∈ polys, p.path ≠ some []) (polys' : List Poly)
    (h : joinPass join polys polys 0 = .ok (some polys')) : JoinStep join polys polys' := by
  obtain ⟨r, e, h1, _⟩ := joinPass_spec (join := join) hne polys 0 rfl
  rw [h] at e
  cases e
  exact h1 _ rfl

/-! ## Finishing -/

theorem size_nonneg (p : Pt) : 0 ≤ p.size := by
  unfold Pt.size truncZ
  have h : (0 : ℚ) ≤ fsqrt64 (r64 (p.size2 : ℚ)) := by
    rw [fsqrt64_eq]
    have := rnd_mono (K := ℝ) 53 (by norm_num) (-1074) (Real.sqrt_nonneg ((r64 (p.size2 : ℚ) : ℚ) : ℝ))
    simpa [r64] using this
  rw [if_pos h]
  exact Int.floor_nonneg.2 h

theorem pathLength_nonneg (p : Path) : 0 ≤ pathLength p := by
  induction p with
  | nil => exact le_refl _
  | cons a l ih =>
    cases l with
    | nil => exact le_refl _
    | cons b l => exact Int.add_nonneg (size_nonneg _) ih

theorem polygonLength_open (finish : Int) (prev : Pt) (ps : Path) (n : Int) : polygonLength false finish prev ps n = n + pathLength (prev :: ps) := by
  induction ps generalizing prev n with
  | nil => simp [polygonLength, pathLength]
  | cons p ps ih =>
    simp only [polygonLength, Bool.false_eq_true, false_and, if_false, ih, pathLength]
    omega

theorem polygonLength_closed (finish : Int) (prev : Pt) (ps : Path) (n : Int) :
    finish < polygonLength true finish prev ps n ↔ finish < n + pathLength (prev :: ps) := by
  induction ps generalizing prev n with
  | nil => simp [polygonLength, pathLength]
  | cons p ps ih =>
    simp only [polygonLength, true_and, pathLength]
    have := pathLength_nonneg (p :: ps)
    split
    · next h =>
      constructor <;> intro _ <;> omega
    · rw [ih]
      constructor <;> intro _ <;> omega

/-- **C58** Exactly those polygons leave the slicer which are closed (or end within the finish distance of their start) and longer than the finish distance, unchanged and in
the same order. -/
theorem C58_clear (finish : Int) (polys : List Poly) (hne : ∀ p ∈ polys, p.path ≠ some []) :
    clearPolygons finish polys = .ok (polys.filterMap fun p => p.path.filter fun path => decide (Delivered finish p path)) := by
  induction polys with
  | nil => rfl
  | cons p ps ih =>
    have ih := ih fun p hp => hne p (by simp [hp])
    match p, hne p (by simp) with
    | ⟨none, cl⟩, _ =>
      rw [clearPolygons, ih]
      simp
    | ⟨some poly, cl⟩, hp =>
      have hp : poly ≠ [] := fun e => hp (by rw [e])
      obtain ⟨almost, e, ha⟩ := isAlmostFinished_ok finish hp
      simp only [clearPolygons, e, bind, Except.bind, ih, removeLastPoint_id, ite_self, pure, Except.pure, Except.ok.injEq, List.filterMap_cons]
      obtain ⟨a, l, rfl⟩ : ∃ a l, poly = a :: l := by
        cases poly with
        | nil => exact absurd rfl hp
        | cons a l => exact ⟨a, l, rfl⟩
      have key : (polygonLength (cl || almost) finish a l 0 > finish ∧ (cl || almost) = true) ↔ Delivered finish ⟨some (a :: l), cl⟩ (a :: l) := by
        unfold Delivered
        rw [← ha, Bool.or_eq_true]
        simp only [true_and]
        by_cases hc : cl = true ∨ almost = true
        · rw [show (cl || almost) = true by simpa using hc]
          have := polygonLength_closed finish a l 0
          rw [Int.zero_add] at this
          simp only [gt_iff_lt, this]
          tauto
        · tauto
      by_cases hk : Delivered finish ⟨some (a :: l), cl⟩ (a :: l)
      · rw [if_pos (key.2 hk)]
        rw [Option.filter_some, if_pos (decide_eq_true hk)]
      · rw [if_neg (fun h => hk (key.1 h)), Option.filter_some, if_neg (by simpa using hk)]

end Verif
