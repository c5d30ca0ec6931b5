import Verif.Spec.Independent
import Verif.Props.Manner
import Verif.Props.Outside

/-! # C134: which options the walls, the solid areas, the infill, the brim and the support depend on -/
namespace Verif
open Verif.Go Verif.Model Verif.Spec Verif.Spec.GCode

theorem Spec.Agree.refl (names : List String) (ls : List Layer) : Agree names ls ls := by
  induction ls with
  | nil => exact .nil
  | cons l ls ih => exact .cons ⟨rfl, fun _ _ => rfl⟩ ih

theorem Spec.Agree.and {a b : List String} {ls ls' : List Layer} (h : Agree a ls ls') (h' : Agree b ls ls') : Agree (a ++ b) ls ls' := by
  induction h with
  | nil => exact .nil
  | cons h1 _ ih =>
    cases h' with
    | cons h2 h' => exact .cons ⟨h1.1, fun n hn => (List.mem_append.1 hn).elim (h1.2 n) (h2.2 n)⟩ (ih h')

theorem Spec.Agree.mono {a b : List String} {ls ls' : List Layer} (h : Agree a ls ls') (hs : ∀ n ∈ b, n ∈ a) : Agree b ls ls' :=
  h.imp fun _ _ h => ⟨h.1, fun n hn => h.2 n (hs n hn)⟩

/-- Steps which change other attributes keep the agreement. -/
theorem Spec.Agree.keep {names a a' : List String} {ls ls' r r' : List Layer} (h : Agree names ls ls') (h1 : SameLayersBut a ls r) (h2 : SameLayersBut a' ls' r')
    (hd : ∀ n ∈ names, n ∉ a ∧ n ∉ a') : Agree names r r' := by
  induction h generalizing r r' with
  | nil => cases h1; cases h2; exact .nil
  | cons hl _ ih =>
    cases h1 with
    | cons k1 h1 =>
      cases h2 with
      | cons k2 h2 =>
        exact .cons ⟨k1.1.trans (hl.1.trans k2.1.symm), fun n hn => (k1.2 n (hd n hn).1).trans ((hl.2 n hn).trans (k2.2 n (hd n hn).2).symm)⟩ (ih h1 h2)

theorem Spec.Agree.index {names : List String} {ls ls' : List Layer} (h : Agree names ls ls') {k : Int} {l l' : Layer} (hl : index ls k = .ok l)
    (hl' : index ls' k = .ok l') : l.parts = l'.parts ∧ ∀ n ∈ names, l.attr n = l'.attr n := by
  have e := (index_ok hl).2
  have e' := (index_ok hl').2
  obtain ⟨h1, rfl⟩ := List.getElem?_eq_some_iff.1 e
  obtain ⟨h2, rfl⟩ := List.getElem?_eq_some_iff.1 e'
  exact List.Forall₂.get h h1 h2

theorem Spec.Agree.set {names : List String} {ls ls' : List Layer} (h : Agree names ls ls') (k : Nat) {l l' : Layer} (hp : l.parts = l'.parts)
    (ha : ∀ n ∈ names, l.attr n = l'.attr n) : Agree names (ls.set k l) (ls'.set k l') := by
  induction h generalizing k with
  | nil => exact .nil
  | cons hl ht ih =>
    cases k with
    | zero => exact .cons ⟨hp, ha⟩ ht
    | succ k => exact .cons hl (ih k)

section
variable {lib : ClipperLib} {o o' : Options}

/-- The walls depend on the number of insets and the width of the lines. -/
theorem agree_walls (h1 : o.print.insetCount = o'.print.insetCount) (h2 : o.printer.extrusionWidth = o'.printer.extrusionWidth) {ls r r' : List Layer}
    (h : perimeterModifier lib o ls = .ok r) (h' : perimeterModifier lib o' ls = .ok r') : Agree ["perimeters"] r r' := by
  replace h := mapM_ok.1 h
  replace h' := mapM_ok.1 h'
  induction h generalizing r' with
  | nil => cases h'; exact .nil
  | cons hl _ ih =>
    cases h' with
    | cons hl' h' =>
      refine .cons ?_ (ih h')
      simp only [perimeterLayer, bind_ok, pure, Except.pure, Except.ok.injEq] at hl hl'
      obtain ⟨ov, -, rfl⟩ := hl
      obtain ⟨ov', -, rfl⟩ := hl'
      refine ⟨rfl, fun n hn => ?_⟩
      obtain rfl := List.mem_singleton.1 hn
      rw [attr_set_other _ (n := "overlapPerimeters") _ (by decide), attr_set_other _ (n := "overlapPerimeters") _ (by decide), attr_set_extend, attr_set_extend]
      simp only [perimetersOf, h1, h2]

theorem perimeters_attr {l l' : Layer} (h : l.attr "perimeters" = l'.attr "perimeters") : l.perimeters = l'.perimeters := by
  unfold Layer.perimeters
  rw [h]

theorem partsAttribute_attr {l l' : Layer} {name : String} (h : l.attr name = l'.attr name) : l.partsAttribute name = l'.partsAttribute name := by
  unfold Layer.partsAttribute
  rw [h]

/-- The brim depends on the walls, the number of its lines and their width. -/
theorem agree_brim (h1 : o.print.brimSkirt.brimCount = o'.print.brimSkirt.brimCount) (h2 : o.printer.extrusionWidth = o'.printer.extrusionWidth)
    {ls ls' r r' : List Layer} (ha : Agree ["perimeters", "brim", "outerBrim"] ls ls') (h : brimModifier lib o ls = .ok r)
    (h' : brimModifier lib o' ls' = .ok r') : Agree ["perimeters", "brim", "outerBrim"] r r' := by
  rw [brimModifier_depends h1 h2] at h
  unfold brimModifier at h h'
  split at h
  · rw [if_pos (by assumption)] at h'
    cases h
    cases h'
    exact ha
  · rw [if_neg (by assumption)] at h'
    cases ha with
    | nil => cases h
    | cons hl ht =>
      simp only [bind_ok, pure, Except.pure, Except.ok.injEq] at h h'
      obtain ⟨l, hr, rfl⟩ := h
      obtain ⟨l', hr', rfl⟩ := h'
      refine .cons ?_ ht
      simp only [brimLayer, bind_ok] at hr hr'
      obtain ⟨ps, e, hr⟩ := hr
      obtain ⟨ps', e', hr'⟩ := hr'
      rw [perimeters_attr (hl.2 _ (by simp)), e'] at e
      cases e
      split at hr
      · rw [if_pos (by assumption)] at hr'
        cases hr
        cases hr'
        exact hl
      · rw [if_neg (by assumption)] at hr'
        split at hr
        · rw [if_pos (by assumption)] at hr'
          cases hr
          cases hr'
          exact hl
        · rw [if_neg (by assumption)] at hr'
          cases hr
          cases hr'
          unfold setBrim
          refine ⟨?_, fun n hn => ?_⟩
          · rw [parts_setParts, parts_setParts]
            split
            · exact hl.1
            · exact hl.1
          · split
            · rw [attr_setParts (extended_set (extended_extend _) _ _), attr_setParts (extended_set (extended_extend _) _ _), attr_set_extend, attr_set_extend,
                hl.2 n hn]
            · rw [attr_setParts (extended_extend _), attr_setParts (extended_extend _), attr_extend, attr_extend, hl.2 n hn]

theorem agree_detector {tan : ℚ} (hs : SameSupport o o') {names : List String} {ls ls' r r' : List Layer} (ha : Agree names ls ls')
    (h : supportDetector lib tan o ls = .ok r) (h' : supportDetector lib tan o' ls' = .ok r') : Agree names r r' := by
  rw [supportDetector_depends hs.enabled hs.topGap hs.spacing hs.thickness] at h
  have key : ∀ (n k : Nat) (ls ls' r r' : List Layer), Agree names ls ls' → detectorLoop lib tan o' n k ls = .ok r →
      detectorLoop lib tan o' n k ls' = .ok r' → Agree names r r' := by
    intro n
    induction n with
    | zero => intro k ls ls' r r' ha h h'; cases h; cases h'; exact ha
    | succ n ih =>
      intro k ls ls' r r' ha h h'
      unfold detectorLoop at h h'
      rw [← List.Forall₂.length_eq ha] at h'
      split at h
      · rw [if_pos (by assumption)] at h'
        exact ih _ _ _ _ _ ha h h'
      · rw [if_neg (by assumption)] at h'
        simp only [bind_ok] at h h'
        obtain ⟨below, hb, above, hab, support, hsup, target, ht, h⟩ := h
        obtain ⟨below', hb', above', hab', support', hsup', target', ht', h'⟩ := h'
        have e1 := (ha.index hb hb').1
        have e2 := (ha.index hab hab').1
        have e3 := ha.index ht ht'
        have e4 : detectSupport lib tan o' below above = detectSupport lib tan o' below' above' := by simp only [detectSupport, e1, e2]
        rw [e4, hsup'] at hsup
        cases hsup
        refine ih _ _ _ _ _ (ha.set _ ?_ fun m hm => ?_) h h'
        · rw [parts_setParts, parts_setParts]
          exact e3.1
        · rw [attr_setParts (extended_extend _), attr_setParts (extended_extend _), attr_extend, attr_extend, e3.2 m hm]
  unfold supportDetector at h h'
  split at h
  · rw [if_pos (by assumption), ← List.Forall₂.length_eq ha] at h'
    exact key _ _ _ _ _ _ ha h h'
  · rw [if_neg (by assumption)] at h'
    cases h
    cases h'
    exact ha

theorem supportInterface_agree {names : List String} (h1 : "fullSupport" ∈ names) (h2 : "outerBrim" ∈ names) {ls ls' : List Layer} (ha : Agree names ls ls')
    {k : Nat} {below below' : Layer} (hb : ∀ n ∈ names, below.attr n = below'.attr n) {actual : List LayerPart} {p p' : List LayerPart × List LayerPart}
    (h : supportInterface lib o' ls k below actual = .ok p) (h' : supportInterface lib o' ls' k below' actual = .ok p') : p = p' := by
  simp only [supportInterface] at h h'
  split at h
  · rw [if_pos (by assumption)] at h'
    exact Except.ok.inj (h.symm.trans h')
  · rw [if_neg (by assumption)] at h'
    simp only [bind_ok] at h h'
    obtain ⟨above, e1, sup, e2, int, e3, rest, e4, brim, e5, h⟩ := h
    obtain ⟨above', e1', sup', e2', int', e3', rest', e4', brim', e5', h'⟩ := h'
    rw [← List.Forall₂.length_eq ha] at e1'
    have hab := ha.index e1 e1'
    rw [partsAttribute_attr (hab.2 _ h1), e2'] at e2
    cases e2
    rw [e3'] at e3
    cases e3
    rw [e4'] at e4
    cases e4
    have e6 : below.brimOuterDimension = below'.brimOuterDimension := by
      unfold Layer.brimOuterDimension
      rw [hb _ h2]
    rw [e6, e5'] at e5
    cases e5
    exact Except.ok.inj (h.symm.trans h')

theorem attr_setSupport (l : Layer) (a i r : List LayerPart) (n : String) : (setSupport l a i r).attr n = if n = "support" then some (.parts r)
    else if n = "supportInterface" ∧ i ≠ [] then some (.parts i) else if n = "fullSupport" ∧ a ≠ [] then some (.parts a) else l.attr n := by
  unfold setSupport
  rw [attr_set (extended_setParts (extended_setParts (extended_extend _) _ _) _ _), attr_setParts (extended_setParts (extended_extend _) _ _),
    attr_setParts (extended_extend _), attr_extend]

theorem agree_generator (hs : SameSupport o o') {names : List String} (h1 : "fullSupport" ∈ names) (h2 : "outerBrim" ∈ names) (h3 : "support" ∈ names)
    {ls ls' r r' : List Layer} (ha : Agree names ls ls') (h : supportGenerator lib o ls = .ok r) (h' : supportGenerator lib o' ls' = .ok r') :
    Agree names r r' := by
  rw [supportGenerator_depends hs.enabled hs.interface hs.gap] at h
  have key : ∀ (n : Nat) (ls ls' r r' : List Layer) (last : List LayerPart), Agree names ls ls' → generatorLoop lib o' n ls last = .ok r →
      generatorLoop lib o' n ls' last = .ok r' → Agree names r r' := by
    intro n
    induction n with
    | zero => intro ls ls' r r' last ha h h'; cases h; cases h'; exact ha
    | succ n ih =>
      intro ls ls' r r' last ha h h'
      simp only [generatorLoop, bind_ok] at h h'
      obtain ⟨s, hst, h⟩ := h
      obtain ⟨s', hst', h'⟩ := h'
      have hstep : Agree names s.1 s'.1 ∧ s.2 = s'.2 := by
        simp only [generatorStep, bind_ok] at hst hst'
        obtain ⟨layer, e1, below, e2, current, e3, bs, e4, hst⟩ := hst
        obtain ⟨layer', e1', below', e2', current', e3', bs', e4', hst'⟩ := hst'
        have k1 := ha.index e1 e1'
        have k2 := ha.index e2 e2'
        have k3 : currentSupport layer last = currentSupport layer' last := by
          unfold currentSupport
          rw [partsAttribute_attr (k1.2 _ h3)]
        rw [k3, e3'] at e3
        cases e3
        rw [partsAttribute_attr (k2.2 _ h3), e4'] at e4
        cases e4
        split at hst
        · rw [if_pos (by assumption)] at hst'
          cases hst
          cases hst'
          exact ⟨ha, rfl⟩
        · rw [if_neg (by assumption)] at hst'
          simp only [bind_ok, pure, Except.pure, Except.ok.injEq] at hst hst'
          obtain ⟨result, f1, actual, f2, parts, f3, rfl⟩ := hst
          obtain ⟨result', f1', actual', f2', parts', f3', rfl⟩ := hst'
          rw [f1'] at f1
          cases f1
          have k4 : biggerLayer lib o' below = biggerLayer lib o' below' := by unfold biggerLayer; rw [k2.1]
          rw [k4, f2'] at f2
          cases f2
          obtain rfl := supportInterface_agree h1 h2 ha k2.2 f3 f3'
          refine ⟨ha.set _ ?_ fun m hm => ?_, rfl⟩
          · simp only [setSupport, parts_set, parts_setParts, parts_extend]
            exact k2.1
          · rw [attr_setSupport, attr_setSupport, k2.2 m hm]
      rw [← hstep.2] at h'
      exact ih _ _ _ _ _ hstep.1 h h'
  unfold supportGenerator at h h'
  split at h
  · rw [if_pos (by assumption), ← List.Forall₂.length_eq ha] at h'
    exact key _ _ _ _ _ _ ha h h'
  · rw [if_neg (by assumption)] at h'
    cases h
    cases h'
    exact ha

/-- **C134** Which options the parts of a print depend on. Let the same file be printed twice, with the same place, the same thickness of the layers and the
same options for the slicer, so that the layers have the same parts. All other options may be different. The walls are the same if number and width of the walls
are. The top and bottom areas are the same if also the overlap and the number of solid layers are. The internal infill areas are the same if in addition it is
switched on for both or for none. The brim is the same if walls and number of brim lines are. The support is the same if its options are and there is no brim or
the same one. -/
theorem C134_independent {ext ext' : Externals} {content t t' : Str} (hlib : ext.lib = ext'.lib) (hstl : ext.stl = ext'.stl) (hs : SameSlicing o o')
    (hc : o.printer.center = o'.printer.center) (h : gcodeOf ext o content = .ok t) (h' : gcodeOf ext' o' content = .ok t') :
    ∃ om sliced layers layers', optimize o ((ext.stl content).map stlTriangleToFace) = .ok om ∧ slice ext.lib o om = .ok sliced ∧
      (standardModifiers ext.lib ext.tan o).foldlM (fun ls m => m ls) sliced = .ok layers ∧
      (standardModifiers ext'.lib ext'.tan o').foldlM (fun ls m => m ls) sliced = .ok layers' ∧
      Agree [] layers layers' ∧
      (o.print.insetCount = o'.print.insetCount → o.printer.extrusionWidth = o'.printer.extrusionWidth → Agree ["perimeters"] layers layers') ∧
      (o.print.insetCount = o'.print.insetCount → SameSolid o o' → Agree ["overlapPerimeters", "bottom", "top"] layers layers') ∧
      (o.print.insetCount = o'.print.insetCount → SameSolid o o' → (o.print.infillPercent = 0 ↔ o'.print.infillPercent = 0) → Agree ["infill"] layers layers') ∧
      (o.print.insetCount = o'.print.insetCount → o.printer.extrusionWidth = o'.printer.extrusionWidth →
        o.print.brimSkirt.brimCount = o'.print.brimSkirt.brimCount → Agree ["brim"] layers layers') ∧
      (SameSupport o o' → ext.tan = ext'.tan → (o.print.brimSkirt.brimCount = 0 ∧ o'.print.brimSkirt.brimCount = 0 ∨
        o.print.insetCount = o'.print.insetCount ∧ o.printer.extrusionWidth = o'.printer.extrusionWidth ∧
          o.print.brimSkirt.brimCount = o'.print.brimSkirt.brimCount) → Agree ["support", "supportInterface", "fullSupport"] layers layers') := by
  obtain ⟨om, sliced, layers, pt, g0, a1, a2, a3, -⟩ := gcodeOf_steps h
  obtain ⟨om', sliced', layers', pt', g0', b1, b2, b3, -⟩ := gcodeOf_steps h'
  rw [← hstl, ← optimize_depends (by rw [hs.slicing]) hc, a1] at b1
  cases b1
  rw [← hlib, ← slice_depends hs, a2] at b2
  cases b2
  refine ⟨om, sliced, layers, layers', a1, a2, a3, b3, ?_⟩
  rw [← hlib] at b3
  simp only [standardModifiers, List.foldlM_cons, List.foldlM_nil, bind_ok, pure, Except.pure, Except.ok.injEq] at a3 b3
  obtain ⟨l1, p1, l2, p2, l3, p3, l4, p4, l5, p5, l6, p6, rfl⟩ := a3
  obtain ⟨k1, q1, k2, q2, k3, q3, k4, q4, k5, q5, k6, q6, rfl⟩ := b3
  have plain := sliced_plain a2
  have from1 : ∀ names, (∀ n ∈ names, n ∉ ["bottom", "top", "infill"]) → Agree names l1 k1 → Agree names l3 k3 := by
    intro names hn ha
    have h2 := ha.keep (C61_infill _ _ _ _ p2) (C61_infill _ _ _ _ q2) fun n hm => by have := hn n hm; simp at this ⊢; exact ⟨this.1, this.2.1⟩
    exact h2.keep (C61_internal _ _ _ _ p3) (C61_internal _ _ _ _ q3) fun n hm => by have := hn n hm; simp at this ⊢; exact this.2.2
  have from3 : ∀ names, (∀ n ∈ names, n ∉ ["brim", "outerBrim"]) → Agree names l3 k3 → Agree names l4 k4 := fun names hn ha =>
    ha.keep (C61_brim _ _ _ _ p4) (C61_brim _ _ _ _ q4) fun n hm => ⟨hn n hm, hn n hm⟩
  have from4 : ∀ names, (∀ n ∈ names, n ∉ ["fullSupport", "supportInterface", "support"]) → Agree names l4 k4 → Agree names l6 k6 := by
    intro names hn ha
    have h5 := ha.keep (C61_detector _ _ _ _ _ p5) (C61_detector _ _ _ _ _ q5) fun n hm => by have := hn n hm; simp at this ⊢; exact this.2.2
    exact h5.keep (C61_generator _ _ _ _ p6) (C61_generator _ _ _ _ q6) fun n hm => ⟨hn n hm, hn n hm⟩
  have untouched : ∀ names, (∀ n ∈ names, n ∉ ["perimeters", "overlapPerimeters"]) → Agree names l1 k1 := fun names hn =>
    (Agree.refl names sliced).keep (C61_perimeter _ _ _ _ p1) (C61_perimeter _ _ _ _ q1) fun n hm => ⟨hn n hm, hn n hm⟩
  have walls : o.print.insetCount = o'.print.insetCount → o.printer.extrusionWidth = o'.printer.extrusionWidth → Agree ["perimeters"] l1 k1 :=
    fun e1 e2 => agree_walls e1 e2 p1 q1
  have solid : o.print.insetCount = o'.print.insetCount → SameSolid o o' → l2 = k2 := by
    intro e1 e2
    rw [perimeterModifier_depends e1 e2.overlap e2.width, q1] at p1
    cases p1
    rw [infillModifier_depends e2, q2] at p2
    cases p2
    rfl
  have brim : o.print.insetCount = o'.print.insetCount → o.printer.extrusionWidth = o'.printer.extrusionWidth →
      o.print.brimSkirt.brimCount = o'.print.brimSkirt.brimCount → Agree ["brim", "outerBrim"] l4 k4 := by
    intro e1 e2 e3
    have h1 : Agree ["perimeters", "brim", "outerBrim"] l1 k1 := (walls e1 e2).and (untouched ["brim", "outerBrim"] (by decide))
    exact (agree_brim e3 e2 (from1 _ (by decide) h1) p4 q4).mono (by simp)
  refine ⟨?_, fun e1 e2 => ?_, fun e1 e2 => ?_, fun e1 e2 e3 => ?_, fun e1 e2 e3 => ?_, fun e1 e2 e3 => ?_⟩
  · exact from4 _ (by simp) (from3 _ (by simp) (from1 _ (by simp) (untouched _ (by simp))))
  · exact from4 _ (by decide) (from3 _ (by decide) (from1 _ (by decide) (walls e1 e2)))
  · have := solid e1 e2
    subst this
    have h2 := (Agree.refl ["overlapPerimeters", "bottom", "top"] l2).keep (C61_internal _ _ _ _ p3) (C61_internal _ _ _ _ q3) (by decide)
    exact from4 _ (by decide) (from3 _ (by decide) h2)
  · have := solid e1 e2
    subst this
    rw [internalInfillModifier_depends e3, q3] at p3
    cases p3
    exact from4 _ (by decide) (from3 _ (by decide) (Agree.refl _ _))
  · exact from4 _ (by decide) ((brim e1 e2 e3).mono (by simp))
  · have hb : Agree ["outerBrim"] l4 k4 := by
      rcases e3 with ⟨f1, f2⟩ | ⟨f1, f2, f3⟩
      · simp only [brimModifier, f1, f2, if_true, Except.ok.injEq] at p4 q4
        subst p4
        subst q4
        exact from1 _ (by decide) (untouched _ (by decide))
      · exact (brim f1 f2 f3).mono (by simp)
    have h4 : Agree ["support", "supportInterface", "fullSupport", "outerBrim"] l4 k4 :=
      (from3 ["support", "supportInterface", "fullSupport"] (by decide) (from1 _ (by decide) (untouched _ (by decide)))).and hb
    rw [← e2] at q5
    have h5 := agree_detector e1 h4 p5 q5
    exact (agree_generator e1 (by simp) (by simp) (by simp) h5 p6 q6).mono (by simp)

/-- **C134** The walls which are printed do not depend on the options for infill, top, bottom, brim, skirt, support, filament and speeds: each contour of the walls of
each layer is printed in both prints. -/
theorem C134_walls {ext ext' : Externals} {content t t' : Str} (hlib : ext.lib = ext'.lib) (hstl : ext.stl = ext'.stl) (hs : SameSlicing o o')
    (hc : o.printer.center = o'.printer.center) (h1 : o.print.insetCount = o'.print.insetCount) (h2 : o.printer.extrusionWidth = o'.printer.extrusionWidth)
    (ho : Extrudes o) (ho' : Extrudes o') (h : gcodeOf ext o content = .ok t) (h' : gcodeOf ext' o' content = .ok t') :
    ∃ om sliced layers, optimize o ((ext.stl content).map stlTriangleToFace) = .ok om ∧ slice ext.lib o om = .ok sliced ∧
      (standardModifiers ext.lib ext.tan o).foldlM (fun ls m => m ls) sliced = .ok layers ∧
      (layers = [] ∨ ∃ body m moves body' m' moves', t = startText o ++ body ++ endText o ∧ t' = startText o' ++ body' ++ endText o' ∧
        run body = some (m, moves) ∧ run body' = some (m', moves') ∧
        ∀ n l, layers[n]? = some l → ∃ walls, l.perimeters = .ok walls ∧ ∀ p ∈ walls.flatten.flatten, ∀ contour ∈ p.holes ++ [p.outline],
          PathPrinted o moves n false contour ∧ PathPrinted o' moves' n false contour) := by
  obtain ⟨om, sliced, layers, layers', a1, a2, a3, b3, -, key, -⟩ := C134_independent hlib hstl hs hc h h'
  have key := key h1 h2
  refine ⟨om, sliced, layers, a1, a2, a3, ?_⟩
  by_cases hne : layers = []
  · exact .inl hne
  have hne' : layers' ≠ [] := by
    intro e
    subst e
    cases key
    exact hne rfl
  obtain ⟨om1, sliced1, layers1, pt, g0, c1, c2, c3, -, c5⟩ := gcodeOf_steps h
  obtain ⟨om2, sliced2, layers2, pt', g0', d1, d2, d3, -, d5⟩ := gcodeOf_steps h'
  rw [a1] at c1
  cases c1
  rw [a2] at c2
  cases c2
  rw [a3] at c3
  cases c3
  rw [← hstl, ← optimize_depends (by rw [hs.slicing]) hc, a1] at d1
  cases d1
  rw [← hlib, ← slice_depends hs, a2] at d2
  cases d2
  rw [b3] at d3
  cases d3
  obtain ⟨body, m, moves, e1, e2, e3⟩ := C111_printed ho hne c5
  obtain ⟨body', m', moves', f1, f2, f3⟩ := C111_printed ho' hne' d5
  refine .inr ⟨body, m, moves, body', m', moves', e1, f1, e2, f2, fun n l hl => ?_⟩
  obtain ⟨hn, rfl⟩ := List.getElem?_eq_some_iff.1 hl
  have hn' : n < layers'.length := by rw [← List.Forall₂.length_eq key]; exact hn
  have ha := List.Forall₂.get key hn hn'
  obtain ⟨⟨walls, w1, w2⟩, -⟩ := e3 n _ hl
  obtain ⟨⟨walls', v1, v2⟩, -⟩ := f3 n layers'[n] (List.getElem?_eq_getElem hn')
  have e : layers[n].perimeters = layers'[n].perimeters := perimeters_attr (ha.2 _ (by simp))
  rw [← e, w1] at v1
  cases v1
  exact ⟨walls, w1, fun p hp c hc => ⟨w2 p hp c hc, v2 p hp c hc⟩⟩

end

/-- Non-vacuity of `C134_independent` and `C134_walls`: the tetrahedron can be printed with the default options, and with a brim, other infill and other supports. -/
example : ∃ t t', gcodeOf { cornerExt with lib := insideClipper } {} [] = .ok t ∧ gcodeOf { cornerExt with lib := insideClipper, tan := 3 }
    { print := { infillPercent := 50, numberTopLayers := 1, brimSkirt := { brimCount := 3, skirtCount := 0 }, support := { enabled := true, gap := 1 } } } [] = .ok t' ∧
    SameSlicing {} { print := { infillPercent := 50, numberTopLayers := 1, brimSkirt := { brimCount := 3, skirtCount := 0 }, support := { enabled := true, gap := 1 } } } := by
  have hm : cornerMesh = (cornerExt.stl []).map stlTriangleToFace := by decide +kernel
  have ho : OpenClipping insideClipper := by
    refine ⟨fun t s c => ⟨_, rfl⟩, ?_⟩
    intro s c tree h hs n hn
    simp only [insideClipper, if_true, Option.some.injEq] at h
    subst h
    obtain ⟨l, hl, rfl⟩ := List.mem_map.1 hn
    simp [PolyNode.contour, hs l hl]
  obtain ⟨t, ht⟩ := C90_gcode { cornerExt with lib := insideClipper } {} [] sensible_default (fun _ _ _ => rfl) ho cornerMesh hm (by decide) (by decide)
    (by unfold Separated; decide +kernel) corner_noGap (.inr rfl)
  obtain ⟨t', ht'⟩ := C90_gcode { cornerExt with lib := insideClipper, tan := 3 } { print := { infillPercent := 50, numberTopLayers := 1, brimSkirt := { brimCount := 3, skirtCount := 0 }, support := { enabled := true, gap := 1 } } } []
    ⟨by decide, by decide, by decide, by decide, by decide, by decide, by decide, by decide +kernel, by decide⟩ (fun _ _ _ => rfl) ho cornerMesh hm (by decide) (by decide)
    (by unfold Separated; decide +kernel) corner_noGap (.inl ⟨⟨0, 0, 1000⟩, by decide +kernel, ⟨0, 0, 0⟩, by decide +kernel, by decide⟩)
  exact ⟨t, t', ht, ht', rfl, rfl, rfl⟩

end Verif
