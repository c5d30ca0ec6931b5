import Verif.Props.Columns

/-! # C107: the brim -/
namespace Verif
open Verif.Go Verif.Model Verif.Spec

theorem getLast_inset (lib : ClipperLib) (part : LayerPart) (offset count initial : Int) (hc : 1 ≤ count)
    (h : |initial| + count * |offset| ≤ 2 ^ 53) :
    (lib.inset part offset count initial).getLastD [] = lib.inset1 part ((initial - (count - 1) * offset : Int) : ℚ) := by
  have hlen := C39_count lib part offset count initial
  have hget := C39_distance lib part offset count initial h (count.toNat - 1) (by omega)
  rw [List.getLastD_eq_getLast?, List.getLast?_eq_getElem?, hlen, hget]
  have : ((count.toNat - 1 : Nat) : Int) = count - 1 := by omega
  rw [this]
  rfl

/-- C107: with a brim, exactly the first layer changes, and there only the brim and its outer dimension. The outer dimension is each outermost brim
line (`BrimCount` line widths around an outermost outline), enlarged by half of a line width. -/
theorem C107_outer (lib : ClipperLib) (o : Options) (ls ls' : List Layer) (l : Layer) (pe : OffsetResult) (ps : Paths)
    (h : brimModifier lib o (l :: ls) = .ok ls') (hpe : l.perimeters = .ok pe) (hne : pe ≠ []) (hc : 1 ≤ o.print.brimSkirt.brimCount)
    (ht : lib.topLevelPolygons (pe.flatMap fun part => part.filterMap List.head?) = some ps) (hps : ps ≠ [])
    (hno : l.attr "outerBrim" = none)
    (hb : |o.printer.extrusionWidth| + o.print.brimSkirt.brimCount * |o.printer.extrusionWidth| ≤ 2 ^ 53) :
    ∃ l', ls' = l' :: ls ∧ SameBut ["brim", "outerBrim"] l l' ∧
      HasParts l' "outerBrim" (ps.flatMap fun p =>
        (lib.inset1 ⟨p, []⟩ ((o.print.brimSkirt.brimCount * o.printer.extrusionWidth : Int) : ℚ)).flatMap fun line =>
          lib.inset1 line ((o.printer.extrusionWidth.tdiv 2 : Int) : ℚ)) := by
  have hsame := C61_brim lib o _ _ h
  simp only [brimModifier, if_neg (show o.print.brimSkirt.brimCount ≠ 0 by omega), bind_ok, pure, Except.pure, Except.ok.injEq] at h
  obtain ⟨l', hl, rfl⟩ := h
  refine ⟨l', rfl, (List.forall₂_cons.1 hsame).1, ?_⟩
  have eout : topLevelOutlines lib pe = ps.map fun p => ⟨p, []⟩ := by
    simp only [topLevelOutlines, outerPerimeters, ht, Option.getD_some]
  simp only [brimLayer, hpe, bind_ok, pure, Except.pure, Except.ok.injEq] at hl
  obtain ⟨_, rfl, hl⟩ := hl
  rw [if_neg hne, if_neg (by rw [eout]; simpa using hps)] at hl
  simp only [Except.ok.injEq] at hl
  have hw : |o.printer.extrusionWidth.tdiv 2| ≤ 2 ^ 53 := by
    have h1 := Int.natAbs_tdiv_le_natAbs o.printer.extrusionWidth 2
    rw [Int.abs_eq_natAbs] at hb ⊢
    have : 0 ≤ o.print.brimSkirt.brimCount * (o.printer.extrusionWidth.natAbs : Int) := Int.mul_nonneg (by omega) (by omega)
    omega
  have earea : outerBrim lib o (brimLines lib o (topLevelOutlines lib pe)) = ps.flatMap fun p =>
        (lib.inset1 ⟨p, []⟩ ((o.print.brimSkirt.brimCount * o.printer.extrusionWidth : Int) : ℚ)).flatMap fun line =>
          lib.inset1 line ((o.printer.extrusionWidth.tdiv 2 : Int) : ℚ) := by
    have e1 : outerBrimLines (brimLines lib o (topLevelOutlines lib pe)) = ps.flatMap fun p =>
        lib.inset1 ⟨p, []⟩ ((o.print.brimSkirt.brimCount * o.printer.extrusionWidth : Int) : ℚ) := by
      rw [eout, outerBrimLines, brimLines, ClipperLib.insetLayer, List.map_map, List.flatMap_map]
      congr 1
      funext p
      rw [Function.comp_apply, getLast_inset _ _ _ _ _ hc (by rw [abs_neg]; exact hb)]
      congr 2
      ring
    rw [outerBrim, oneInset, e1, List.flatMap_assoc, r64_intCast hw]
  rw [← earea]
  subst hl
  unfold HasParts setBrim
  generalize outerBrim lib o (brimLines lib o (topLevelOutlines lib pe)) = area
  have hx : IsExtended (if (brimLines lib o (topLevelOutlines lib pe)).length > 0
      then l.extend.set "brim" (.offsetResult (brimLines lib o (topLevelOutlines lib pe))) else l.extend) := by
    split
    · exact extended_set (extended_extend _) _ _
    · exact extended_extend _
  rw [attr_setParts hx]
  by_cases ha : area = []
  · right
    rw [if_neg (by simp [ha])]
    refine ⟨?_, ha⟩
    split
    · rw [attr_set_other _ _ (by decide), attr_extend, hno]
    · rw [attr_extend, hno]
  · left
    rw [if_pos ⟨rfl, ha⟩]

/-- C107: only the first piece of every perimeter counts: perimeters with the same first pieces have the same brim. -/
theorem C107_first (lib : ClipperLib) (o : Options) (pe pe' : OffsetResult)
    (h : pe.map (fun part => part.filterMap List.head?) = pe'.map fun part => part.filterMap List.head?) :
    brimLines lib o (topLevelOutlines lib pe) = brimLines lib o (topLevelOutlines lib pe') := by
  have : outerPerimeters pe = outerPerimeters pe' := by
    unfold outerPerimeters
    rw [List.flatMap_def, List.flatMap_def, h]
  unfold topLevelOutlines
  rw [this]

/-- C107: support is not printed on the brim, if the outer dimensions of the brims of the parts do not overlap. -/
theorem C107_clear {X : Type} (inside : List IntPoint → Set X) {lib : ClipperLib} (hl : Exact inside lib) (hf : NeverFails lib) (o : Options)
    (ls ls' : List Layer) (he : o.print.support.enabled = true) (h : supportGenerator lib o ls = .ok ls')
    (hno : ∀ l ∈ ls, l.attr "fullSupport" = none ∧ l.attr "supportInterface" = none) (hm : 2 < ls.length) (first : Layer)
    (hb : ls[0]? = some first) (outer : List LayerPart) (ho : first.attr "outerBrim" = some (.parts outer)) (hs : Separate inside outer) (x : X)
    (hx : x ∈ attrArea inside ls' 0 "support" ∨ x ∈ attrArea inside ls' 0 "supportInterface") : x ∉ cover inside outer := by
  have := (C65_clear inside hl hf o ls ls' he h hno 0 (by omega) first hb x hx).2.2.1
  rw [← region_separate inside _ hs]
  exact fun hc => this ⟨first, outer, hb, ho, hc⟩

/-! ## Violations -/

/-- Options for the violations. -/
def brimAndSupport : Options :=
  { print := { insetCount := 1, brimSkirt := { brimCount := 1 }, support := { enabled := true, topGapLayers := 0, interfaceLayers := 1 } } }

/-- Two columns with something on top between them. -/
def gate : List Layer :=
  [⟨[pixelPart [0], pixelPart [4]], none⟩, ⟨[pixelPart [0], pixelPart [4]], none⟩, ⟨[pixelPart [0], pixelPart [4]], none⟩, ⟨[pixelPart [0, 2, 4]], none⟩]

def gate1 : List Layer := valueOf ((standardModifiers pixelLib 1 brimAndSupport).foldlM (fun ls m => m ls) gate)

theorem gate1_ok : (standardModifiers pixelLib 1 brimAndSupport).foldlM (fun ls m => m ls) gate = .ok gate1 :=
  valueOf_ok (List.length_pos_iff.1 (by decide +kernel))

/-- The parts of an attribute. -/
def partsOf (ls : List Layer) (k : Nat) (name : String) : List LayerPart :=
  match ls[k]? with
  | some l =>
    match l.attr name with
    | some (.parts r) => r
    | _ => []
  | none => []

theorem partsOf_ne (ls : List Layer) (k : Nat) (name : String) (h : partsOf ls k name ≠ []) :
    ∃ l, ls[k]? = some l ∧ l.attr name = some (.parts (partsOf ls k name)) := by
  unfold partsOf at h ⊢
  split at h
  · next l hl =>
    refine ⟨l, hl, ?_⟩
    split at h
    · next r hr => simp only [hr]
    · simp at h
  · simp at h

/-- C107 (violation): support is printed on the brim where the brims of two parts overlap. -/
theorem C107_overlap : ∃ (lib : ClipperLib) (tan : ℚ) (o : Options) (ls ls' : List Layer) (l : Layer) (outer : List LayerPart) (x : IntPoint),
    Exact pixels lib ∧ NeverFails lib ∧ (standardModifiers lib tan o).foldlM (fun ls m => m ls) ls = .ok ls' ∧
    ls'[0]? = some l ∧ l.attr "outerBrim" = some (.parts outer) ∧ x ∈ cover pixels outer ∧
    (x ∈ attrArea pixels ls' 0 "support" ∨ x ∈ attrArea pixels ls' 0 "supportInterface") := by
  obtain ⟨l, h1, h2⟩ := partsOf_ne gate1 0 "outerBrim" (by decide +kernel)
  refine ⟨pixelLib, 1, brimAndSupport, gate, gate1, l, _, ⟨2, 0⟩, pixelLib_exact, pixelLib_neverFails, gate1_ok, h1, h2, ?_, ?_⟩
  · have : ∃ p ∈ partsOf gate1 0 "outerBrim", (⟨2, 0⟩ : IntPoint) ∈ pixelsOf [p] := by decide +kernel
    obtain ⟨p, hp, hx⟩ := this
    exact ⟨p, hp, (mem_pixelsOf _ _).2 hx⟩
  · have : (⟨2, 0⟩ : IntPoint) ∈ attrPixels gate1 0 "support" ∨ (⟨2, 0⟩ : IntPoint) ∈ attrPixels gate1 0 "supportInterface" := by decide +kernel
    exact this.imp (mem_attrPixels _ _ _ _) (mem_attrPixels _ _ _ _)

/-- A library which makes areas smaller by one pixel at both sides of every row for negative distances; the rest is a contour for each pixel. -/
def splitLib : ClipperLib :=
  { pixelLib with
    offset := fun cs d =>
      if d < 0 then pixelTree ((oddPixels cs).filter fun p => (⟨p.x + 1, p.y⟩ : IntPoint) ∈ oddPixels cs ∧ (⟨p.x - 1, p.y⟩ : IntPoint) ∈ oddPixels cs)
      else pixelLib.offset cs d }

/-- A part with two ends and a thin neck, three rows of pixels. -/
def dumbbell : LayerPart := ⟨[⟨0, 0⟩, ⟨1, 0⟩, ⟨2, 0⟩, ⟨1, 1⟩, ⟨0, 2⟩, ⟨1, 2⟩, ⟨2, 2⟩], []⟩

def dumbbell1 : List Layer := valueOf (perimeterModifier splitLib { print := { insetCount := 1, brimSkirt := { brimCount := 1 } } } [⟨[dumbbell], none⟩])
def dumbbell2 : List Layer := valueOf (brimModifier splitLib { print := { insetCount := 1, brimSkirt := { brimCount := 1 } } } dumbbell1)

/-- The brim of a layer. -/
def brimOf (ls : List Layer) : OffsetResult :=
  match ls[0]? with
  | some l =>
    match l.brim with
    | .ok r => r
    | _ => []
  | none => []

/-- The perimeters of a layer. -/
def wallsOf (ls : List Layer) : OffsetResult :=
  match ls[0]? with
  | some l =>
    match l.perimeters with
    | .ok r => r
    | _ => []
  | none => []

theorem brimOf_ne (ls : List Layer) (h : brimOf ls ≠ []) : ∃ l, ls[0]? = some l ∧ l.brim = .ok (brimOf ls) := by
  unfold brimOf at h ⊢
  split at h
  · next l hl =>
    refine ⟨l, hl, ?_⟩
    split at h
    · next r hr => simp only [hr]
    · simp at h
  · simp at h

theorem wallsOf_ne (ls : List Layer) (h : wallsOf ls ≠ []) : ∃ l, ls[0]? = some l ∧ l.perimeters = .ok (wallsOf ls) := by
  unfold wallsOf at h ⊢
  split at h
  · next l hl =>
    refine ⟨l, hl, ?_⟩
    split at h
    · next r hr => simp only [hr]
    · simp at h
  · simp at h

/-- C107 (violation): a part with a neck thinner than a line has two perimeters, but only the first of them gets a brim: the brim has one line, which
goes around the first piece and not around the second. -/
theorem C107_split : ∃ (lib : ClipperLib) (o : Options) (part : LayerPart) (ls1 ls2 : List Layer) (l1 l2 : Layer) (a b line : LayerPart) (x y : IntPoint),
    Exact pixels lib ∧ NeverFails lib ∧ perimeterModifier lib o [⟨[part], none⟩] = .ok ls1 ∧ brimModifier lib o ls1 = .ok ls2 ∧
    ls1[0]? = some l1 ∧ ls2[0]? = some l2 ∧ l1.perimeters = .ok [[[a, b]]] ∧ l2.brim = .ok [[[line]]] ∧
    x ∈ region pixels [a] ∧ y ∈ region pixels [b] ∧ x ∈ region pixels [line] ∧ y ∉ region pixels [line] := by
  obtain ⟨l1, h1, h2⟩ := wallsOf_ne dumbbell1 (by decide +kernel)
  obtain ⟨l2, h3, h4⟩ := brimOf_ne dumbbell2 (by decide +kernel)
  have e1 : wallsOf dumbbell1 = [[[⟨[⟨1, 0⟩], []⟩, ⟨[⟨1, 2⟩], []⟩]]] := by decide +kernel
  have e2 : brimOf dumbbell2 = [[[⟨[⟨1, 0⟩, ⟨2, 0⟩, ⟨0, 0⟩], []⟩]]] := by decide +kernel
  refine ⟨splitLib, { print := { insetCount := 1, brimSkirt := { brimCount := 1 } } }, dumbbell, dumbbell1, dumbbell2, l1, l2, _, _, _, ⟨1, 0⟩, ⟨1, 2⟩,
    pixelLib_exact, pixelLib_neverFails, valueOf_ok (List.length_pos_iff.1 (by decide +kernel)),
    valueOf_ok (List.length_pos_iff.1 (by decide +kernel)), h1, h3, h2.trans (congrArg _ e1), h4.trans (congrArg _ e2), ?_, ?_, ?_, ?_⟩
  · exact (mem_pixelsOf _ _).2 (by decide +kernel)
  · exact (mem_pixelsOf _ _).2 (by decide +kernel)
  · exact (mem_pixelsOf _ _).2 (by decide +kernel)
  · exact fun h => absurd ((mem_pixelsOf _ _).1 h) (by decide +kernel)

/-! ## Examples -/

example : ∃ ls' l', brimModifier pixelLib withBrim [walled] = .ok ls' ∧ ls' = [l'] ∧ HasParts l' "outerBrim"
    ((pixelLib.inset1 ⟨[⟨0, 0⟩], []⟩ ((withBrim.print.brimSkirt.brimCount * withBrim.printer.extrusionWidth : Int) : ℚ)).flatMap fun line =>
      pixelLib.inset1 line ((withBrim.printer.extrusionWidth.tdiv 2 : Int) : ℚ)) := by
  have h : brimModifier pixelLib withBrim [walled] = .ok _ := valueOf_ok (List.length_pos_iff.1 (by decide +kernel))
  have ht : pixelLib.topLevelPolygons ([[[pixelPart [0]]]].flatMap fun part => part.filterMap List.head?) = some [[⟨0, 0⟩]] := by
    decide +kernel
  obtain ⟨l', h1, _, h3⟩ := C107_outer pixelLib withBrim [] _ walled [[[pixelPart [0]]]] [[⟨0, 0⟩]] h rfl (by simp) (by decide) ht (by simp) rfl
    (by decide +kernel)
  exact ⟨_, l', h, h1, by simpa using h3⟩

example (lib : ClipperLib) (o : Options) (a b c : LayerPart) :
    brimLines lib o (topLevelOutlines lib [[[a, b]]]) = brimLines lib o (topLevelOutlines lib [[[a, c]]]) :=
  C107_first lib o _ _ rfl

/-- A column with something on top beside it. -/
def post : List Layer := [⟨[pixelPart [0]], none⟩, ⟨[pixelPart [0]], none⟩, ⟨[pixelPart [0]], none⟩, ⟨[pixelPart [0, 8]], none⟩]

def post1 : List Layer := valueOf (((standardModifiers pixelLib 1 brimAndSupport).take 5).foldlM (fun ls m => m ls) post)
def post2 : List Layer := valueOf (supportGenerator pixelLib brimAndSupport post1)

example : (⟨8, 0⟩ : IntPoint) ∉ cover pixels (partsOf post1 0 "outerBrim") := by
  obtain ⟨l, h1, h2⟩ := partsOf_ne post1 0 "outerBrim" (by decide +kernel)
  refine C107_clear pixels pixelLib_exact pixelLib_neverFails brimAndSupport post1 post2 rfl
    (valueOf_ok (List.length_pos_iff.1 (by decide +kernel))) ?_ (by decide +kernel) l h1 _ h2 ?_ _ ?_
  · have : ∀ l ∈ post1, (l.attr "fullSupport").isNone ∧ (l.attr "supportInterface").isNone := by decide +kernel
    simpa using this
  · obtain ⟨a, ha⟩ := List.length_eq_one_iff.1 (show (partsOf post1 0 "outerBrim").length = 1 by decide +kernel)
    rw [ha]
    exact List.pairwise_singleton _ _
  · have : (⟨8, 0⟩ : IntPoint) ∈ attrPixels post2 0 "support" ∨ (⟨8, 0⟩ : IntPoint) ∈ attrPixels post2 0 "supportInterface" := by decide +kernel
    exact this.imp (mem_attrPixels _ _ _ _) (mem_attrPixels _ _ _ _)

end Verif
