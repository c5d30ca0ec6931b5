import Verif.Props.InfillAreas
import Verif.Props.MachineSimplify

/-! # Support areas (C65, C67) -/
namespace Verif
open Verif.Go Verif.Model Verif.Spec

variable {X : Type} (inside : List IntPoint → Set X)

/-- The library never fails. -/
def NeverFails (lib : ClipperLib) : Prop := ∀ t s c, (lib.execute t s c).isSome = true

theorem runClipper_some {lib : ClipperLib} (h : NeverFails lib) (t : ClipType) (a b : List LayerPart) : ∃ r, lib.runClipper t a b = some r := by
  unfold ClipperLib.runClipper
  split
  · exact ⟨_, rfl⟩
  · obtain ⟨tree, ht⟩ := Option.isSome_iff_exists.1 (h t (a.flatMap ClipperLib.partPaths) (b.flatMap ClipperLib.partPaths))
    exact ⟨_, by rw [ht]; rfl⟩

theorem attrArea_of {ls : List Layer} {k : Nat} {l : Layer} (hk : ls[k]? = some l) (name : String) {ps : List LayerPart}
    (h : l.partsAttribute name = .ok ps) (x : X) : x ∈ attrArea inside ls k name ↔ x ∈ region inside ps := by
  unfold Layer.partsAttribute at h
  simp only [attrArea, Set.mem_ofPred_eq]
  split at h
  · next ha =>
    cases h
    constructor
    · rintro ⟨l', ps, h1, h2, h3⟩
      rw [hk] at h1
      cases h1
      rw [ha] at h2
      cases h2
    · simp
  · next r ha =>
    cases h
    constructor
    · rintro ⟨l', ps, h1, h2, h3⟩
      rw [hk] at h1
      cases h1
      rw [ha] at h2
      cases h2
      exact h3
    · exact fun h => ⟨l, _, hk, ha, h⟩
  · cases h

theorem attrArea_none {ls : List Layer} {k : Nat} {l : Layer} (hk : ls[k]? = some l) (name : String) (h : l.attr name = none) (x : X) :
    x ∉ attrArea inside ls k name := by
  rintro ⟨l', ps, h1, h2, _⟩
  rw [hk] at h1
  cases h1
  rw [h] at h2
  cases h2

theorem attrArea_congr {ls ls' : List Layer} {k : Nat} (h : ls'[k]? = ls[k]?) (name : String) :
    attrArea inside ls' k name = attrArea inside ls k name := by
  simp only [attrArea, h]

theorem partsAttribute_congr {l l' : Layer} {name : String} (h : l'.attr name = l.attr name) :
    l'.partsAttribute name = l.partsAttribute name := by
  unfold Layer.partsAttribute
  rw [h]

theorem brimOuter_eq (l : Layer) (ps : List LayerPart) (h : l.brimOuterDimension = .ok ps) : l.partsAttribute "outerBrim" = .ok ps := by
  unfold Layer.brimOuterDimension at h
  unfold Layer.partsAttribute
  split at h <;> simp_all

/-- The regions of interface and remaining support for one layer. -/
theorem supportInterface_region {lib : ClipperLib} (hl : Exact inside lib) (hf : NeverFails lib) (o : Options) (ls : List Layer) (m : Nat)
    (below : Layer) (hb : ls[m]? = some below) (actual : List LayerPart) (r : List LayerPart × List LayerPart)
    (h : supportInterface lib o ls (m + 1) below actual = .ok r) (x : X) :
    (x ∈ region inside r.1 ↔ x ∈ region inside actual ∧
      x ∉ attrArea inside ls (min (m + o.print.support.interfaceLayers) ((ls.length : Int) - 1)).toNat "fullSupport" ∧
      x ∉ attrArea inside ls m "outerBrim") ∧
    (x ∈ region inside r.2 ↔ x ∈ region inside actual ∧
      x ∈ attrArea inside ls (min (m + o.print.support.interfaceLayers) ((ls.length : Int) - 1)).toNat "fullSupport" ∧
      x ∉ attrArea inside ls m "outerBrim") := by
  unfold supportInterface at h
  split at h
  · next he =>
    cases h
    subst he
    simp
  · simp only [bind_ok] at h
    obtain ⟨above, ha, supportAbove, hs, interface, hi, rest, hr, brim, hbr, h⟩ := h
    have e : (if ((m + 1 : Nat) : Int) + o.print.support.interfaceLayers - 1 ≥ ls.length then (ls.length : Int) - 1
        else ((m + 1 : Nat) : Int) + o.print.support.interfaceLayers - 1) =
        min (m + o.print.support.interfaceLayers) ((ls.length : Int) - 1) := by
      split <;> omega
    rw [e] at ha
    have hab := attrArea_of inside (index_ok ha).2 "fullSupport" hs x
    have hbrim := attrArea_of inside hb "outerBrim" (brimOuter_eq _ _ hbr) x
    rw [hab, hbrim]
    have ri := C84_difference inside hl (orErr_ok hi) x
    have rr := C84_difference inside hl (orErr_ok hr) x
    split at h
    · next hz =>
      cases h
      subst hz
      rw [rr, ri]
      simp
      tauto
    · cases h
      obtain ⟨i', hi'⟩ := runClipper_some hf .difference interface brim
      obtain ⟨r', hr'⟩ := runClipper_some hf .difference rest brim
      have hi' : lib.difference interface brim = some i' := hi'
      have hr' : lib.difference rest brim = some r' := hr'
      rw [hi', hr']
      simp only [Option.getD_some]
      rw [C84_difference inside hl hi', C84_difference inside hl hr', rr, ri]
      tauto

/-- The area from which the support of a layer is continued: the support detected there, for the second layer from the top, otherwise the support
of the layer. -/
def continued (ls ls' : List Layer) (k : Nat) : Set X :=
  if k + 2 = ls.length then attrArea inside ls k "support" else attrArea inside ls' k "fullSupport"

/-- What the final state tells about the support of layer `m`. -/
def SupportOk (lib : ClipperLib) (o : Options) (ls ls' : List Layer) (m : Nat) : Prop :=
  ∀ below, ls[m]? = some below → ∀ x,
    (x ∈ attrArea inside ls' m "fullSupport" ↔
      (x ∈ continued inside ls ls' (m + 1) ∨ x ∈ attrArea inside ls m "support") ∧ x ∉ region inside (biggerLayer lib o below)) ∧
    (x ∈ attrArea inside ls' m "supportInterface" ↔ x ∈ attrArea inside ls' m "fullSupport" ∧
      ¬(0 < o.print.support.interfaceLayers ∧
        x ∈ attrArea inside ls' (min (m + o.print.support.interfaceLayers) ((ls.length : Int) - 1)).toNat "fullSupport") ∧
      x ∉ attrArea inside ls m "outerBrim") ∧
    (x ∈ attrArea inside ls' m "support" ↔ x ∈ attrArea inside ls' m "fullSupport" ∧
      (0 < o.print.support.interfaceLayers ∧
        x ∈ attrArea inside ls' (min (m + o.print.support.interfaceLayers) ((ls.length : Int) - 1)).toNat "fullSupport") ∧
      x ∉ attrArea inside ls m "outerBrim")

theorem generatorStep_keeps (lib : ClipperLib) (o : Options) (n : Nat) (ls : List Layer) (last : List LayerPart)
    (r : List Layer × List LayerPart) (h : generatorStep lib o n ls last = .ok r) (j : Nat) (hj : j ≠ n - 1) : r.1[j]? = ls[j]? := by
  simp only [generatorStep, bind_ok] at h
  obtain ⟨layer, _, below, hb, current, _, bs, _, h⟩ := h
  split at h
  · cases h; rfl
  · simp only [bind_ok, pure, Except.pure, Except.ok.injEq] at h
    obtain ⟨result, _, actual, _, parts, _, rfl⟩ := h
    exact List.getElem?_set_ne (by omega)

theorem generatorLoop_keeps (lib : ClipperLib) (o : Options) (n : Nat) (ls ls' : List Layer) (last : List LayerPart)
    (h : generatorLoop lib o n ls last = .ok ls') (j : Nat) (hj : n ≤ j) : ls'[j]? = ls[j]? := by
  induction n generalizing ls last with
  | zero => cases h; rfl
  | succ n ih =>
    simp only [generatorLoop, bind_ok] at h
    obtain ⟨r, hr, h⟩ := h
    rw [ih _ _ h (by omega), generatorStep_keeps lib o _ _ _ _ hr j (by omega)]

theorem setSupport_attrs (l : Layer) (a i r : List LayerPart) (hf : l.attr "fullSupport" = none) (hi : l.attr "supportInterface" = none) :
    (setSupport l a i r).partsAttribute "fullSupport" = .ok a ∧ (setSupport l a i r).partsAttribute "supportInterface" = .ok i ∧
    (setSupport l a i r).partsAttribute "support" = .ok r ∧ (setSupport l a i r).attr "outerBrim" = l.attr "outerBrim" := by
  have hx := extended_setParts (extended_setParts (extended_extend l) "fullSupport" a) "supportInterface" i
  have h1 := extended_setParts (extended_extend l) "fullSupport" a
  refine ⟨partsAttribute_of ?_, partsAttribute_of ?_, partsAttribute_of ?_, ?_⟩
  · unfold HasParts setSupport
    rw [attr_set hx, if_neg (by decide), attr_setParts h1, if_neg (by simp), attr_setParts (extended_extend l), attr_extend]
    by_cases hz : a = []
    · simp [hz, hf]
    · simp [hz]
  · unfold HasParts setSupport
    rw [attr_set hx, if_neg (by decide), attr_setParts h1, attr_setParts (extended_extend l), attr_extend]
    by_cases hz : i = []
    · simp [hz, hi]
    · simp [hz]
  · unfold HasParts setSupport
    rw [attr_set hx]
    simp
  · unfold setSupport
    rw [attr_set hx, if_neg (by decide), attr_setParts h1, if_neg (by simp), attr_setParts (extended_extend l), if_neg (by simp), attr_extend]

theorem generatorStep_region {lib : ClipperLib} (hl : Exact inside lib) (hf : NeverFails lib) (o : Options) (ls cur : List Layer)
    (last : List LayerPart) (r : List Layer × List LayerPart) (m : Nat) (h : generatorStep lib o (m + 1) cur last = .ok r)
    (hlen : cur.length = ls.length) (hm : m + 2 < ls.length) (hlow : ∀ i ≤ m, cur[i]? = ls[i]?)
    (hno : ∀ l ∈ ls, l.attr "fullSupport" = none ∧ l.attr "supportInterface" = none)
    (hinv : ∀ layer c, cur[m + 1]? = some layer → currentSupport layer last = .ok c → ∀ x, x ∈ region inside c ↔
      x ∈ continued inside ls cur (m + 1)) :
    SupportOk inside lib o ls r.1 m ∧ (∀ layer c, r.1[m]? = some layer → currentSupport layer r.2 = .ok c → ∀ x, x ∈ region inside c ↔
      x ∈ attrArea inside r.1 m "fullSupport") := by
  have hkeep := generatorStep_keeps lib o _ _ _ _ h
  have hcont : continued inside ls r.1 (m + 1) = continued inside ls cur (m + 1) := by
    unfold continued
    rw [attrArea_congr inside (hkeep (m + 1) (by omega))]
  simp only [generatorStep, bind_ok] at h
  obtain ⟨layer, hlay, below, hbel, current, hcur, bs, hbs, h⟩ := h
  have hlay := index_nat.1 hlay
  have hbel : cur[m]? = some below := by
    have := (index_ok hbel).2
    have e : (((m + 1 : Nat) : Int) - 1).toNat = m := by omega
    rwa [e] at this
  have hbel0 : ls[m]? = some below := by rw [← hlow m le_rfl, hbel]
  have hnb := hno below (List.mem_of_getElem? hbel0)
  have hC := hinv layer current hlay hcur
  have hS : ∀ x, x ∈ attrArea inside ls m "support" ↔ x ∈ region inside bs := attrArea_of inside hbel0 "support" hbs
  split at h
  · next hz =>
    cases h
    obtain ⟨hz1, hz2⟩ := hz
    have hz1 := List.length_eq_zero_iff.1 hz1
    have hz2 := List.length_eq_zero_iff.1 hz2
    subst hz1 hz2
    have hlast : last = [] := by
      by_contra hc
      unfold currentSupport at hcur
      rw [if_neg hc] at hcur
      cases hcur
      exact hc rfl
    have f0 : ∀ x, x ∉ attrArea inside cur m "fullSupport" := attrArea_none inside hbel _ hnb.1
    have i0 : ∀ x, x ∉ attrArea inside cur m "supportInterface" := attrArea_none inside hbel _ hnb.2
    have s0 : ∀ x, x ∉ attrArea inside cur m "support" := fun x => by rw [attrArea_of inside hbel "support" hbs]; simp
    refine ⟨?_, ?_⟩
    · intro below' hb' x
      have h1 := hC x
      have h2 := hS x
      simp only [region_nil, Set.mem_empty_iff_false, false_iff] at h1 h2
      simp only [f0 x, i0 x, s0 x, h1, h2, false_and, or_self, and_self]
    · intro layer' c' hl' hc' x
      rw [hbel] at hl'
      cases hl'
      unfold currentSupport at hc'
      rw [if_pos hlast, hbs] at hc'
      cases hc'
      simp [f0 x]
  · simp only [bind_ok, pure, Except.pure, Except.ok.injEq] at h
    obtain ⟨result, hres, actual, hact, parts, hparts, rfl⟩ := h
    obtain ⟨a1, a2, a3, a4⟩ := setSupport_attrs below actual parts.1 parts.2 hnb.1 hnb.2
    have hlt : m < cur.length := by omega
    have hnew : (cur.set (m + 1 - 1) (setSupport below actual parts.1 parts.2))[m]? = some (setSupport below actual parts.1 parts.2) := by
      simp [hlt]
    have rF := fun x => attrArea_of inside hnew "fullSupport" a1 x
    have rI := fun x => attrArea_of inside hnew "supportInterface" a2 x
    have rS := fun x => attrArea_of inside hnew "support" a3 x
    refine ⟨?_, ?_⟩
    · intro below' hb' x
      rw [hbel0] at hb'
      cases hb'
      simp only at hcont
      rw [rF, rI, rS, hcont, C84_difference inside hl (orErr_ok hact), C84_union inside hl (orErr_ok hres), hC, hS]
      obtain ⟨p1, p2⟩ := supportInterface_region inside hl hf o cur m below hbel actual parts hparts x
      rw [C84_difference inside hl (orErr_ok hact), C84_union inside hl (orErr_ok hres), hC] at p1 p2
      rw [p1, p2, hlen, attrArea_congr inside (hlow m le_rfl)]
      have key : x ∈ attrArea inside cur (min (m + o.print.support.interfaceLayers) ((ls.length : Int) - 1)).toNat "fullSupport" ↔
          (0 < o.print.support.interfaceLayers ∧ x ∈ attrArea inside (cur.set (m + 1 - 1) (setSupport below actual parts.1 parts.2))
            (min (m + o.print.support.interfaceLayers) ((ls.length : Int) - 1)).toNat "fullSupport") := by
        by_cases hpos : 0 < o.print.support.interfaceLayers
        · have : (min (m + o.print.support.interfaceLayers) ((ls.length : Int) - 1)).toNat ≠ m + 1 - 1 := by omega
          rw [attrArea_congr inside (hkeep _ this)]
          simp [hpos]
        · have hle : (min (m + o.print.support.interfaceLayers) ((ls.length : Int) - 1)).toNat ≤ m := by omega
          rw [attrArea_congr inside (hlow _ hle)]
          have : x ∉ attrArea inside ls (min (m + o.print.support.interfaceLayers) ((ls.length : Int) - 1)).toNat "fullSupport" := by
            rintro ⟨l', ps, h1, h2, _⟩
            rw [(hno l' (List.mem_of_getElem? h1)).1] at h2
            cases h2
          tauto
      rw [key]
      exact ⟨Iff.rfl, Iff.rfl, Iff.rfl⟩
    · intro layer' c' hl' hc' x
      rw [hnew] at hl'
      cases hl'
      rw [rF]
      unfold currentSupport at hc'
      split at hc'
      · next hz =>
        simp only at hz
        subst hz
        rw [a3] at hc'
        have : parts = ([], []) := by
          unfold supportInterface at hparts
          rw [if_pos rfl] at hparts
          cases hparts
          rfl
        rw [this] at hc'
        cases hc'
        simp
      · cases hc'
        rfl

theorem generatorLoop_region {lib : ClipperLib} (hl : Exact inside lib) (hf : NeverFails lib) (o : Options) (ls : List Layer)
    (hno : ∀ l ∈ ls, l.attr "fullSupport" = none ∧ l.attr "supportInterface" = none) (n : Nat) (cur ls' : List Layer)
    (last : List LayerPart) (h : generatorLoop lib o n cur last = .ok ls')
    (hlen : cur.length = ls.length) (hn : n + 1 < ls.length) (hlow : ∀ i < n, cur[i]? = ls[i]?)
    (hinv : ∀ layer c, cur[n]? = some layer → currentSupport layer last = .ok c → ∀ x, x ∈ region inside c ↔
      x ∈ continued inside ls cur n) (m : Nat) (hm : m < n) : SupportOk inside lib o ls ls' m := by
  induction n generalizing cur last with
  | zero => omega
  | succ n ih =>
    simp only [generatorLoop, bind_ok] at h
    obtain ⟨r, hr, h⟩ := h
    have hkeep := generatorStep_keeps lib o _ _ _ _ hr
    obtain ⟨h1, h2⟩ := generatorStep_region inside hl hf o ls cur last r n hr hlen (by omega) (fun i hi => hlow i (by omega)) hno hinv
    have hlen' : r.1.length = ls.length := by
      rw [← hlen]
      exact ((generatorStep_same lib o _ _ _ _ hr).length_eq).symm
    by_cases hmn : m = n
    · subst hmn
      have hk := generatorLoop_keeps lib o m _ _ _ h
      intro below hb x
      have := h1 below hb x
      have e1 : continued inside ls ls' (m + 1) = continued inside ls r.1 (m + 1) := by
        unfold continued
        rw [attrArea_congr inside (hk (m + 1) (by omega))]
      have e2 : ∀ name, attrArea inside ls' m name = attrArea inside r.1 m name := fun name => attrArea_congr inside (hk m le_rfl) name
      rw [e1, e2, e2, e2]
      by_cases hpos : 0 < o.print.support.interfaceLayers
      · rw [attrArea_congr inside (hk (min (m + o.print.support.interfaceLayers) ((ls.length : Int) - 1)).toNat (by omega))]
        exact this
      · simp only [hpos, false_and] at this ⊢
        exact this
    · refine ih r.1 r.2 h hlen' (by omega) (fun i hi => ?_) (fun layer c hlay hc x => ?_) (by omega)
      · rw [hkeep i (by omega), hlow i (by omega)]
      · rw [h2 layer c hlay hc x]
        unfold continued
        rw [if_neg (by omega)]

/-- C65, C67: the support areas which the generator leaves, for all layers except the two on top (these are not changed by it). For layer `m`:
the whole support is the support detected for this layer and the support continued from the layer above, without the enlarged model; the interface
is the part of it which has no support `InterfaceLayers` layers above (everything for no interface layers), without the brim; the rest is the
remaining part without the brim. -/
theorem C67_areas {lib : ClipperLib} (hl : Exact inside lib) (hf : NeverFails lib) (o : Options) (ls ls' : List Layer)
    (he : o.print.support.enabled = true) (h : supportGenerator lib o ls = .ok ls')
    (hno : ∀ l ∈ ls, l.attr "fullSupport" = none ∧ l.attr "supportInterface" = none) (m : Nat) (hm : m + 2 < ls.length) (below : Layer)
    (hb : ls[m]? = some below) (x : X) :
    (x ∈ attrArea inside ls' m "fullSupport" ↔
      (x ∈ (if m + 3 = ls.length then attrArea inside ls (m + 1) "support" else attrArea inside ls' (m + 1) "fullSupport") ∨
        x ∈ attrArea inside ls m "support") ∧ x ∉ region inside (biggerLayer lib o below)) ∧
    (x ∈ attrArea inside ls' m "supportInterface" ↔ x ∈ attrArea inside ls' m "fullSupport" ∧
      ¬(0 < o.print.support.interfaceLayers ∧
        x ∈ attrArea inside ls' (min (m + o.print.support.interfaceLayers) ((ls.length : Int) - 1)).toNat "fullSupport") ∧
      x ∉ attrArea inside ls m "outerBrim") ∧
    (x ∈ attrArea inside ls' m "support" ↔ x ∈ attrArea inside ls' m "fullSupport" ∧
      (0 < o.print.support.interfaceLayers ∧
        x ∈ attrArea inside ls' (min (m + o.print.support.interfaceLayers) ((ls.length : Int) - 1)).toNat "fullSupport") ∧
      x ∉ attrArea inside ls m "outerBrim") := by
  unfold supportGenerator at h
  rw [if_pos he] at h
  have := generatorLoop_region inside hl hf o ls hno (ls.length - 2) ls ls' [] h rfl (by omega) (fun _ _ => rfl) (fun layer c hlay hc x => by
    unfold currentSupport at hc
    rw [if_pos rfl] at hc
    unfold continued
    rw [if_pos (by omega), attrArea_of inside hlay "support" hc]) m (by omega) below hb x
  unfold continued at this
  have e : (m + 1 + 2 = ls.length) = (m + 3 = ls.length) := by rw [Nat.add_assoc]
  simpa only [e] using this

/-- C65: the support of a layer stays outside of the (enlarged) model, interface and the remaining support are disjoint and parts of the
whole support, and support is only where it was detected in this layer or there is support in a layer above. -/
theorem C65_clear {lib : ClipperLib} (hl : Exact inside lib) (hf : NeverFails lib) (o : Options) (ls ls' : List Layer)
    (he : o.print.support.enabled = true) (h : supportGenerator lib o ls = .ok ls')
    (hno : ∀ l ∈ ls, l.attr "fullSupport" = none ∧ l.attr "supportInterface" = none) (m : Nat) (hm : m + 2 < ls.length) (below : Layer)
    (hb : ls[m]? = some below) (x : X) (hx : x ∈ attrArea inside ls' m "support" ∨ x ∈ attrArea inside ls' m "supportInterface") :
    x ∉ region inside (biggerLayer lib o below) ∧
    ¬(x ∈ attrArea inside ls' m "support" ∧ x ∈ attrArea inside ls' m "supportInterface") ∧
    x ∉ attrArea inside ls m "outerBrim" ∧
    ∃ k, m ≤ k ∧ k + 2 ≤ ls.length ∧ x ∈ attrArea inside ls k "support" := by
  have h0 := C67_areas inside hl hf o ls ls' he h hno m hm below hb x
  have hF : x ∈ attrArea inside ls' m "fullSupport" := by tauto
  refine ⟨by tauto, by tauto, by tauto, ?_⟩
  clear hx h0 hb
  obtain ⟨d, hd⟩ : ∃ d, m + 3 + d = ls.length := ⟨ls.length - (m + 3), by omega⟩
  induction d generalizing m with
  | zero =>
    obtain ⟨b, hb⟩ : ∃ b, ls[m]? = some b := ⟨_, List.getElem?_eq_getElem (by omega)⟩
    have h0 := (C67_areas inside hl hf o ls ls' he h hno m hm b hb x).1.1 hF
    rw [if_pos (by omega)] at h0
    rcases h0.1 with h1 | h1
    · exact ⟨m + 1, by omega, by omega, h1⟩
    · exact ⟨m, le_rfl, by omega, h1⟩
  | succ d ih =>
    obtain ⟨b, hb⟩ : ∃ b, ls[m]? = some b := ⟨_, List.getElem?_eq_getElem (by omega)⟩
    have h0 := (C67_areas inside hl hf o ls ls' he h hno m hm b hb x).1.1 hF
    rw [if_neg (by omega)] at h0
    rcases h0.1 with h1 | h1
    · obtain ⟨k, hk1, hk2, hk3⟩ := ih (m + 1) (by omega) h1 (by omega)
      exact ⟨k, by omega, hk2, hk3⟩
    · exact ⟨m, le_rfl, by omega, h1⟩

/-- C67: without interface layers all support becomes interface. -/
theorem C67_zero {lib : ClipperLib} (hl : Exact inside lib) (hf : NeverFails lib) (o : Options) (ls ls' : List Layer)
    (he : o.print.support.enabled = true) (h : supportGenerator lib o ls = .ok ls') (hz : o.print.support.interfaceLayers = 0)
    (hno : ∀ l ∈ ls, l.attr "fullSupport" = none ∧ l.attr "supportInterface" = none) (m : Nat) (hm : m + 2 < ls.length) (x : X) :
    x ∉ attrArea inside ls' m "support" := by
  obtain ⟨b, hb⟩ : ∃ b, ls[m]? = some b := ⟨_, List.getElem?_eq_getElem (by omega)⟩
  have h0 := C67_areas inside hl hf o ls ls' he h hno m hm b hb x
  rw [hz] at h0
  simp only [lt_self_iff_false, false_and, and_false, iff_false] at h0
  exact h0.2.2

/-! ## C86: what the detector finds -/

theorem detectSupport_congr (lib : ClipperLib) (tan : ℚ) (o : Options) {a a' b b' : Layer} (ha : a'.parts = a.parts)
    (hb : b'.parts = b.parts) : detectSupport lib tan o a' b' = detectSupport lib tan o a b := by
  unfold detectSupport
  rw [ha, hb]

theorem detectorLoop_get (lib : ClipperLib) (tan : ℚ) (o : Options) (g : Nat) (hg : o.print.support.topGapLayers = g) (n k : Nat)
    (ls ls' : List Layer) (h : detectorLoop lib tan o n k ls = .ok ls') (hn : k + n = ls.length) (j : Nat) :
    (j + g < k ∨ ls.length ≤ j + g + 1 → ls'[j]? = ls[j]?) ∧
    (k ≤ j + g → ∀ below above target, ls[j + g]? = some below → ls[j + g + 1]? = some above → ls[j]? = some target →
      ∃ support l', detectSupport lib tan o below above = .ok support ∧ ls'[j]? = some l' ∧
        l' = setParts target.extend "support" support) := by
  induction n generalizing k ls with
  | zero =>
    cases h
    refine ⟨fun _ => rfl, fun hk below above target hb ha ht => ?_⟩
    rw [List.getElem?_eq_none (by omega)] at hb
    cases hb
  | succ n ih =>
    unfold detectorLoop at h
    rw [hg] at h
    split at h
    · next hs =>
      obtain ⟨i1, i2⟩ := ih (k + 1) ls h (by omega)
      refine ⟨fun hj => i1 (by omega), fun hk below above target hb ha ht => ?_⟩
      by_cases he : j + g = k
      · rcases hs with hs | hs
        · rw [List.getElem?_eq_none (by omega)] at ha
          cases ha
        · omega
      · exact i2 (by omega) below above target hb ha ht
    · next hs =>
      simp only [bind_ok] at h
      obtain ⟨below, hb, above, ha, support, hd, target, ht, h⟩ := h
      have hb := index_nat.1 hb
      have ha : ls[k + 1]? = some above := by
        have := (index_ok ha).2
        have e : ((k : Int) + 1).toNat = k + 1 := by omega
        rwa [e] at this
      have et : ((k : Int) - g).toNat = k - g := by omega
      have ht : ls[k - g]? = some target := by
        have := (index_ok ht).2
        rwa [et] at this
      rw [et] at h
      obtain ⟨i1, i2⟩ := ih (k + 1) _ h (by simp; omega)
      rw [List.length_set] at i1
      have hlt : k < ls.length := by omega
      refine ⟨fun hj => ?_, fun hk below' above' target' hb' ha' ht' => ?_⟩
      · rw [i1 (by omega), List.getElem?_set_ne (by omega)]
      · by_cases he : j + g = k
        · have e : k - g = j := by omega
          rw [e] at ht i1
          rw [he] at hb' ha'
          rw [hb] at hb'
          rw [ha] at ha'
          rw [ht] at ht'
          cases hb'
          cases ha'
          cases ht'
          refine ⟨support, _, hd, ?_, rfl⟩
          rw [i1 (by omega), List.getElem?_set_self (by omega)]
        · have key : ∀ i, k - g < i → (ls.set (k - g) (setParts target.extend "support" support))[i]? = ls[i]? := fun i hi =>
            List.getElem?_set_ne (by omega)
          have key2 : ∀ (i : Nat) (l : Layer), ls[i]? = some l → ∃ l2, (ls.set (k - g) (setParts target.extend "support" support))[i]? = some l2 ∧
              l2.parts = l.parts := by
            intro i l hl
            by_cases hi : i = k - g
            · subst hi
              rw [ht] at hl
              cases hl
              exact ⟨_, List.getElem?_set_self (by omega), parts_setParts _ _ _⟩
            · exact ⟨l, by rw [List.getElem?_set_ne (by omega), hl], rfl⟩
          obtain ⟨b2, hb2, pb⟩ := key2 _ _ hb'
          obtain ⟨a2, ha2, pa⟩ := key2 _ _ ha'
          obtain ⟨s, l', r1, r2, r3⟩ := i2 (by omega) b2 a2 target' hb2 ha2 (by rw [key j (by omega), ht'])
          exact ⟨s, l', by rw [← r1, detectSupport_congr lib tan o pb pa], r2, r3⟩

/-- C86: with support enabled, layer `j` gets as support what is detected between the layers `j + TopGapLayers` and the one above; the layers for
which there are not so many layers above stay unchanged. -/
theorem C86_detected (lib : ClipperLib) (tan : ℚ) (o : Options) (g : Nat) (hg : o.print.support.topGapLayers = g)
    (he : o.print.support.enabled = true) (ls ls' : List Layer) (h : supportDetector lib tan o ls = .ok ls') (j : Nat) :
    (ls.length ≤ j + g + 1 → ls'[j]? = ls[j]?) ∧
    (∀ below above target, ls[j + g]? = some below → ls[j + g + 1]? = some above → ls[j]? = some target → target.attr "support" = none →
      ∃ support l', detectSupport lib tan o below above = .ok support ∧ ls'[j]? = some l' ∧ HasParts l' "support" support) := by
  unfold supportDetector at h
  rw [if_pos he] at h
  obtain ⟨i1, i2⟩ := detectorLoop_get lib tan o g hg ls.length 0 ls ls' h (by omega) j
  refine ⟨fun hj => i1 (Or.inr hj), fun below above target hb ha ht hno => ?_⟩
  obtain ⟨s, l', r1, r2, r3⟩ := i2 (by omega) below above target hb ha ht
  refine ⟨s, l', r1, r2, ?_⟩
  unfold HasParts
  rw [r3, attr_setParts (extended_extend _), attr_extend]
  by_cases hz : s = []
  · simp [hz, hno]
  · simp [hz]

/-- C86: a gap below -1 makes the detector panic for every model with at least two layers. -/
theorem C86_negative (lib : ClipperLib) (hf : NeverFails lib) (tan : ℚ) (o : Options) (ls : List Layer) (he : o.print.support.enabled = true)
    (hg : o.print.support.topGapLayers < -1) (hlen : 2 ≤ ls.length) : ∃ m, supportDetector lib tan o ls = .error (.panic m) := by
  unfold supportDetector
  rw [if_pos he]
  have key : ∀ n k (ls : List Layer), k + n = ls.length → k + 1 < ls.length → ∃ m, detectorLoop lib tan o n k ls = .error (.panic m) := by
    intro n
    induction n with
    | zero => intro k ls h1 h2; omega
    | succ n ih =>
      intro k ls h1 h2
      unfold detectorLoop
      rw [if_neg (by omega)]
      have i1 : index ls (k : Int) = .ok ls[k] := index_ofNat ls k (by omega)
      have i2 : index ls ((k : Int) + 1) = .ok ls[k + 1] := index_ofNat ls (k + 1) (by omega)
      obtain ⟨d, hd⟩ := runClipper_some hf .difference ls[k + 1].parts
        (toOneDimension (lib.insetLayer ls[k].parts (-supportDistance tan o) 1 ((supportDistance tan o).tdiv 2)))
      have hd : lib.difference ls[k + 1].parts
        (toOneDimension (lib.insetLayer ls[k].parts (-supportDistance tan o) 1 ((supportDistance tan o).tdiv 2))) = some d := hd
      have hds : ∃ s, detectSupport lib tan o ls[k] ls[k + 1] = .ok s := ⟨_, by
        simp only [detectSupport, hd, orErr]
        rfl⟩
      obtain ⟨s, hs⟩ := hds
      simp only [i1, i2, hs, bind, Except.bind]
      cases ht : index ls ((k : Int) - o.print.support.topGapLayers) with
      | error e =>
        unfold index at ht
        rw [if_pos (by omega)] at ht
        split at ht
        · cases ht
        · cases ht
          exact ⟨_, rfl⟩
      | ok t =>
        simp only
        have hlt := (index_ok ht).2
        have : ((k : Int) - o.print.support.topGapLayers).toNat < ls.length := by
          by_contra hc
          rw [List.getElem?_eq_none (by omega)] at hlt
          cases hlt
        exact ih (k + 1) _ (by simp; omega) (by simp; omega)
  exact key _ 0 ls (by omega) (by omega)

/-! ## Examples, and C65 for close parts -/

theorem pixelLib_neverFails : NeverFails pixelLib := fun _ _ _ => rfl

/-- Options for the examples. -/
def withSupport : Options := { print := { support := { enabled := true, topGapLayers := 0, interfaceLayers := 1 } } }

/-- Layers for the examples: two parts next to each other below an overhang. -/
def closeParts : List Layer := [⟨[pixelPart [0], pixelPart [1]], none⟩, ⟨[pixelPart [5]], none⟩, ⟨[pixelPart [0, 5]], none⟩]

def closeParts1 : List Layer := valueOf (supportDetector pixelLib 1 withSupport closeParts)
def closeParts2 : List Layer := valueOf (supportGenerator pixelLib withSupport closeParts1)

theorem closeParts1_ok : supportDetector pixelLib 1 withSupport closeParts = .ok closeParts1 :=
  valueOf_ok (List.length_pos_iff.1 (by decide +kernel))
theorem closeParts2_ok : supportGenerator pixelLib withSupport closeParts1 = .ok closeParts2 :=
  valueOf_ok (List.length_pos_iff.1 (by decide +kernel))

theorem mem_attrPixels (ls : List Layer) (k : Nat) (name : String) (p : IntPoint) (h : p ∈ attrPixels ls k name) :
    p ∈ attrArea pixels ls k name := by
  unfold attrPixels at h
  split at h
  · next l hl =>
    split at h
    · next r hr => exact ⟨l, r, hl, hr, (mem_pixelsOf _ _).2 h⟩
    · simp at h
  · simp at h

/-- C65 (violation): support is generated inside of the model if two parts of a layer are closer together than the distance by which they
are enlarged: the enlarged parts are subtracted with the even-odd rule, so that the area covered by both is not subtracted. -/
theorem C65_violated : ∃ (lib : ClipperLib) (tan : ℚ) (o : Options) (ls ls1 ls2 : List Layer) (l : Layer) (x : IntPoint),
    Exact pixels lib ∧ NeverFails lib ∧ supportDetector lib tan o ls = .ok ls1 ∧ supportGenerator lib o ls1 = .ok ls2 ∧
    ls[0]? = some l ∧ x ∈ region pixels l.parts ∧ x ∈ attrArea pixels ls2 0 "supportInterface" :=
  ⟨pixelLib, 1, withSupport, closeParts, closeParts1, closeParts2, _, ⟨0, 0⟩, pixelLib_exact, pixelLib_neverFails, closeParts1_ok,
    closeParts2_ok, rfl, (mem_pixelsOf _ _).2 (by decide +kernel), mem_attrPixels _ _ _ _ (by decide +kernel)⟩

/-- C65: if the enlarged parts do not overlap and contain the parts, the support stays outside of the model. -/
theorem C65_outside (lib : ClipperLib) (o : Options) (l : Layer) (hs : Separate inside (biggerLayer lib o l))
    (hg : ∀ p ∈ l.parts, ∀ x ∈ region inside [p], ∃ q ∈ biggerLayer lib o ⟨[p], none⟩, x ∈ region inside [q]) (x : X)
    (hx : x ∉ region inside (biggerLayer lib o l)) : x ∉ region inside l.parts := by
  intro hm
  apply hx
  rw [region_separate inside _ hs]
  have hin : ∀ ps : List LayerPart, x ∈ region inside ps → ∃ p ∈ ps, x ∈ region inside [p] := by
    intro ps
    induction ps with
    | nil => simp
    | cons p ps ih =>
      intro h
      by_cases hp : x ∈ region inside [p]
      · exact ⟨p, List.mem_cons_self, hp⟩
      · have e : p :: ps = [p] ++ ps := rfl
        rw [e, mem_region_append] at h
        obtain ⟨q, hq, hqx⟩ := ih (by tauto)
        exact ⟨q, List.mem_cons_of_mem _ hq, hqx⟩
  obtain ⟨p, hp, hpx⟩ := hin _ hm
  obtain ⟨q, hq, hqx⟩ := hg p hp x hpx
  refine ⟨q, ?_, hqx⟩
  unfold biggerLayer at hq ⊢
  rw [oneInset] at hq ⊢
  simp only [List.flatMap_cons, List.flatMap_nil, List.append_nil] at hq
  exact List.mem_flatMap.2 ⟨p, hp, hq⟩

example : (⟨5, 0⟩ : IntPoint) ∈ attrArea pixels closeParts2 0 "supportInterface" ∧ (⟨-1, 0⟩ : IntPoint) ∉ attrArea pixels closeParts2 0 "fullSupport" := by
  refine ⟨mem_attrPixels _ _ _ _ (by decide +kernel), ?_⟩
  have hno : ∀ l ∈ closeParts1, l.attr "fullSupport" = none ∧ l.attr "supportInterface" = none := by
    intro l hl
    have h := C61_detector _ _ _ _ _ closeParts1_ok
    obtain ⟨l0, hl0, hs⟩ : ∃ l0 ∈ closeParts, SameBut ["support"] l0 l := by
      obtain ⟨k, hk⟩ := List.mem_iff_getElem?.1 hl
      have hlt : k < closeParts.length := by
        rw [h.length_eq]
        by_contra hc
        rw [List.getElem?_eq_none (by omega)] at hk
        cases hk
      obtain ⟨l', hl', hs⟩ := sameLayers_get h (List.getElem?_eq_getElem hlt)
      rw [hk] at hl'
      cases hl'
      exact ⟨_, List.getElem_mem hlt, hs⟩
    rw [hs.2 _ (by decide), hs.2 _ (by decide)]
    simp only [closeParts, List.mem_cons, List.not_mem_nil, or_false] at hl0
    rcases hl0 with rfl | rfl | rfl <;> exact ⟨rfl, rfl⟩
  have hlen : closeParts1.length = 3 := by decide +kernel
  have hpar : closeParts1.map Layer.parts = closeParts.map Layer.parts := by decide +kernel
  obtain ⟨b, hb⟩ : ∃ b, closeParts1[0]? = some b := ⟨_, List.getElem?_eq_getElem (by omega)⟩
  intro hc
  have h0 := (C67_areas pixels pixelLib_exact pixelLib_neverFails withSupport closeParts1 closeParts2 rfl closeParts2_ok hno 0 (by omega) b hb
    ⟨-1, 0⟩).1.1 hc
  apply h0.2
  rw [mem_pixelsOf]
  have hbp : b.parts = [pixelPart [0], pixelPart [1]] := by
    have := congrArg (fun l => l[0]?) hpar
    simp only [List.getElem?_map, hb, closeParts] at this
    simpa using this
  unfold biggerLayer
  rw [hbp]
  decide +kernel

/-! Examples for the theorems in `Modifiers.lean`. -/

/-- Layers with an empty one in the middle. -/
def withHole : List Layer := [⟨[pixelPart [0]], none⟩, ⟨[], none⟩, ⟨[pixelPart [0]], none⟩]

example : ∃ ls1 ls2 ls3, perimeterModifier pixelLib {} withHole = .ok ls1 ∧ infillModifier pixelLib {} ls1 = .ok ls2 ∧
    internalInfillModifier pixelLib {} ls2 = .ok ls3 ∧ ls3[2]? = ls1[2]? := by
  have h1 : perimeterModifier pixelLib {} withHole = .ok _ := valueOf_ok (List.length_pos_iff.1 (by decide +kernel))
  have h2 : infillModifier pixelLib {} (valueOf (perimeterModifier pixelLib {} withHole)) = .ok _ :=
    valueOf_ok (List.length_pos_iff.1 (by decide +kernel))
  have h3 : internalInfillModifier pixelLib {} (valueOf (infillModifier pixelLib {} (valueOf (perimeterModifier pixelLib {} withHole)))) = .ok _ :=
    valueOf_ok (List.length_pos_iff.1 (by decide +kernel))
  exact ⟨_, _, _, h1, h2, h3, C64_stops pixelLib {} _ _ _ _ (by decide) h1 h2 h3 1 _ rfl rfl 2 (by omega)⟩

example : ∃ ls', (standardModifiers pixelLib 1 withSupport).foldlM (fun ls m => m ls) closeParts = .ok ls' ∧
    ls'.map Layer.parts = closeParts.map Layer.parts := by
  have h : (standardModifiers pixelLib 1 withSupport).foldlM (fun ls m => m ls) closeParts = .ok _ :=
    valueOf_ok (List.length_pos_iff.1 (by decide +kernel))
  exact ⟨_, h, C61_parts pixelLib 1 withSupport _ (fun _ h => h) _ _ h⟩

/-- A first layer with its perimeters. -/
def walled : Layer := (Layer.extend ⟨[pixelPart [0]], none⟩).set "perimeters" (.offsetResult [[[pixelPart [0]]]])

/-- Options with a brim. -/
def withBrim : Options := { print := { brimSkirt := { brimCount := 2, skirtCount := 2 } } }

example : ∃ ls', brimModifier pixelLib withBrim [walled] = .ok ls' ∧ ∃ l' brim, ls' = [l'] ∧ l'.brim = .ok brim ∧ brim.length = 1 := by
  have h : brimModifier pixelLib withBrim [walled] = .ok _ := valueOf_ok (List.length_pos_iff.1 (by decide +kernel))
  have ht : pixelLib.topLevelPolygons ([[[pixelPart [0]]]].flatMap fun part => part.filterMap List.head?) = some [[⟨0, 0⟩]] := by
    decide +kernel
  obtain ⟨l', brim, h1, h2, h3, _⟩ := C42_brim pixelLib withBrim [] _ walled [[[pixelPart [0]]]] [[⟨0, 0⟩]] h
    ((C68_perimeters _).1 _ (by rw [walled, attr_set_extend]; rfl)) (by simp) (by decide) ht (by simp) (by decide +kernel)
  exact ⟨_, h, l', brim, h1, h2, h3⟩

example : ∃ line, (skirtLines pixelLib withBrim [] [[[pixelPart [0]]]])[1]? = some line :=
  ⟨_, C42_skirt pixelLib withBrim [] [[[pixelPart [0]]]] (by decide +kernel) 1 (by decide)⟩

example : biggerLayer pixelLib withBrim ⟨[pixelPart [0]], none⟩ = [pixelPart [0, 1, -1]] := by
  rw [C82_gap pixelLib withBrim _ (by decide +kernel)]
  decide +kernel

example : ∃ m, perimeterModifier pixelLib { print := { insetCount := 0 } } [⟨[pixelPart [0]], none⟩] = .error (.panic m) :=
  C69_panics _ _ _ (by decide) ⟨_, List.mem_singleton.2 rfl, by simp⟩

end Verif
