import Verif.Props.MotionLayers

/-! # C136: movements of the layers move the attributes made by the modifiers -/
namespace Verif
open Verif.Go Verif.Model Verif.Spec

section
variable (m : Motion)

theorem Spec.Motion.layer_attr (l : Layer) (name : String) : (m.layer l).attr name = (l.attr name).map m.attr := by
  unfold Layer.attr Motion.layer
  cases l.attrs <;> rfl

theorem Spec.Motion.extend (l : Layer) : (m.layer l).extend = m.layer l.extend := by
  unfold Layer.extend Motion.layer
  cases l.attrs <;> rfl

theorem Spec.Motion.set (l : Layer) (name : String) (v : Attr) : (m.layer l).set name (m.attr v) = m.layer (l.set name v) := by
  unfold Layer.set Motion.layer
  cases l.attrs with
  | none => rfl
  | some a =>
    simp only [Option.map_some, Layer.mk.injEq, Option.some.injEq, true_and]
    funext k
    simp only [AttrMap.insert]
    split <;> rfl

theorem Spec.Motion.setParts (l : Layer) (name : String) (ps : List LayerPart) :
    Model.setParts (m.layer l) name (ps.map m.part) = m.layer (Model.setParts l name ps) := by
  unfold Model.setParts
  rw [List.length_map]
  split
  · exact m.set l name (.parts ps)
  · rfl

theorem Spec.Motion.partsAttribute (l : Layer) (name : String) : (m.layer l).partsAttribute name = (l.partsAttribute name).map (List.map m.part) := by
  unfold Layer.partsAttribute
  rw [m.layer_attr]
  rcases l.attr name with _ | (_ | _ | _ | _) <;> rfl

theorem Spec.Motion.overlapPerimeters (l : Layer) : (m.layer l).overlapPerimeters = l.overlapPerimeters.map (List.map (List.map m.part)) := by
  unfold Layer.overlapPerimeters
  rw [m.layer_attr]
  rcases l.attr _ with _ | (_ | _ | _ | _) <;> rfl

theorem Spec.Motion.perimeters (l : Layer) : (m.layer l).perimeters = l.perimeters.map (List.map (List.map (List.map m.part))) := by
  unfold Layer.perimeters
  rw [m.layer_attr]
  rcases l.attr _ with _ | (_ | _ | _ | _) <;> rfl

theorem Spec.Motion.brim (l : Layer) : (m.layer l).brim = l.brim.map (List.map (List.map (List.map m.part))) := by
  unfold Layer.brim
  rw [m.layer_attr]
  rcases l.attr _ with _ | (_ | _ | _ | _) <;> rfl

theorem Spec.Motion.brimOuterDimension (l : Layer) : (m.layer l).brimOuterDimension = l.brimOuterDimension.map (List.map m.part) := by
  unfold Layer.brimOuterDimension
  rw [m.layer_attr]
  rcases l.attr _ with _ | (_ | _ | _ | _) <;> rfl

theorem orErr_map {α β : Type} (f : α → β) (msg : String) (x : Option α) : orErr msg (x.map f) = (orErr msg x).map f := by
  cases x <;> rfl

variable {lib : ClipperLib} (hlib : m.Respected lib)
include hlib

/-! ## Perimeters -/

theorem Spec.Motion.calculateOverlapPerimeter (p : LayerPart) (n : Int) (w : Micrometer) :
    Model.calculateOverlapPerimeter lib (m.part p) n w = (Model.calculateOverlapPerimeter lib p n w).map m.part := by
  unfold Model.calculateOverlapPerimeter
  split
  · exact m.inset1 hlib p _
  · rfl

theorem Spec.Motion.overlapOfPart (o : Options) (part : List (List LayerPart)) :
    Model.overlapOfPart lib o (part.map (List.map m.part)) = (Model.overlapOfPart lib o part).map (List.map m.part) := by
  unfold Model.overlapOfPart
  rw [List.length_map]
  refine res_bind _ (res_index _ part _) _ fun is _ => ?_
  simp only [pure, Except.pure, Except.map, List.flatMap_map, List.map_flatMap, m.calculateOverlapPerimeter hlib]

theorem Spec.Motion.perimeterLayer (o : Options) (l : Layer) : Model.perimeterLayer lib o (m.layer l) = (Model.perimeterLayer lib o l).map m.layer := by
  unfold Model.perimeterLayer perimetersOf
  show ((lib.insetLayer (l.parts.map m.part) _ _ _).mapM _ >>= _) = _
  rw [m.insetLayer hlib]
  refine res_bind _ (res_mapM _ _ _ fun p _ => m.overlapOfPart hlib o p) _ fun r _ => ?_
  simp only [pure, Except.pure, Except.map, ← m.set, ← m.extend]
  show Except.ok (((m.layer l).extend.set _ (.offsetResult (lib.insetLayer (l.parts.map m.part) _ _ _))).set _ _) = _
  rw [m.insetLayer hlib]
  rfl

theorem Spec.Motion.perimeterModifier (o : Options) (ls : List Layer) :
    Model.perimeterModifier lib o (ls.map m.layer) = (Model.perimeterModifier lib o ls).map (List.map m.layer) :=
  res_mapM _ _ _ fun l _ => m.perimeterLayer hlib o l

/-! ## Infill -/

theorem Spec.Motion.partDifference (p : LayerPart) (l : Layer) :
    Model.partDifference lib (m.part p) (m.layer l) = (Model.partDifference lib p l).map (List.map m.part) := by
  unfold Model.partDifference
  rw [← orErr_map, ← m.difference hlib]
  rfl

theorem Spec.Motion.unionIfNeeded (msg : String) (a b : List LayerPart) :
    Model.unionIfNeeded lib msg (a.map m.part) (b.map m.part) = (Model.unionIfNeeded lib msg a b).map (List.map m.part) := by
  unfold Model.unionIfNeeded
  rw [List.length_map]
  split
  · rfl
  · rw [← orErr_map, ← m.union hlib]

theorem Spec.Motion.bottomLoop (ls : List Layer) (nr : Nat) (p : LayerPart) (n : Nat) : ∀ (i : Nat) (acc : List LayerPart),
    Model.bottomLoop lib (ls.map m.layer) nr (m.part p) n i (acc.map m.part) = (Model.bottomLoop lib ls nr p n i acc).map (List.map m.part) := by
  induction n with
  | zero => intro i acc; rfl
  | succ n ih =>
    intro i acc
    rw [Model.bottomLoop, Model.bottomLoop]
    split
    · exact res_bind _ (m.unionIfNeeded hlib _ acc [p]) _ fun acc _ => ih _ acc
    · split
      · rfl
      · refine res_bind _ (res_index _ ls _) _ fun below _ => ?_
        refine res_bind _ (m.partDifference hlib p below) _ fun ps _ => ?_
        exact res_bind _ (m.unionIfNeeded hlib _ acc ps) _ fun acc _ => ih _ acc

theorem Spec.Motion.topLoop (ls : List Layer) (nr : Nat) (p : LayerPart) (n : Nat) : ∀ (i : Nat) (acc : List LayerPart),
    Model.topLoop lib (ls.map m.layer) nr (m.part p) n i (acc.map m.part) = (Model.topLoop lib ls nr p n i acc).map (List.map m.part) := by
  induction n with
  | zero => intro i acc; rfl
  | succ n ih =>
    intro i acc
    rw [Model.topLoop, Model.topLoop, List.length_map]
    split
    · exact res_bind _ (m.unionIfNeeded hlib _ acc [p]) _ fun acc _ => ih _ acc
    · split
      · rfl
      · refine res_bind _ (res_index _ ls _) _ fun above _ => ?_
        refine res_bind _ (m.partDifference hlib p above) _ fun ps _ => ?_
        exact res_bind _ (m.unionIfNeeded hlib _ acc ps) _ fun acc _ => ih _ acc

theorem Spec.Motion.addInfill (o : Options) (ov : Res (List LayerPart)) (ps infill : List LayerPart) :
    Model.addInfill lib o (ov.map (List.map m.part)) (ps.map m.part) (infill.map m.part) = (Model.addInfill lib o ov ps infill).map (List.map m.part) := by
  unfold Model.addInfill
  have e : ((ps.map m.part).flatMap fun part => Model.calculateOverlapPerimeter lib part (o.print.infillOverlapPercent + o.print.additionalInternalInfillOverlapPercent) o.printer.extrusionWidth) =
      (ps.flatMap fun part => Model.calculateOverlapPerimeter lib part (o.print.infillOverlapPercent + o.print.additionalInternalInfillOverlapPercent) o.printer.extrusionWidth).map m.part := by
    simp only [List.flatMap_map, List.map_flatMap, m.calculateOverlapPerimeter hlib]
  simp only [e, List.map_eq_nil_iff]
  split
  · rfl
  · refine res_bind (List.map m.part) rfl _ fun border _ => ?_
    rw [m.intersection hlib]
    refine res_bind _ (orErr_map (List.map m.part) _ _) _ fun clipped _ => ?_
    rw [m.union hlib]
    exact orErr_map (List.map m.part) _ _

/-- Both lists moved. -/
def Spec.Motion.both (p : List LayerPart × List LayerPart) : List LayerPart × List LayerPart := (p.1.map m.part, p.2.map m.part)

theorem Spec.Motion.infillPart (o : Options) (ls : List Layer) (nr : Nat) (ov : List (List LayerPart)) (k : Nat) (infill : List LayerPart × List LayerPart) (p : LayerPart) :
    Model.infillPart lib o (ls.map m.layer) nr (ov.map (List.map m.part)) k (m.both infill) (m.part p) =
      (Model.infillPart lib o ls nr ov k infill p).map m.both := by
  unfold Model.infillPart
  refine res_bind _ (m.bottomLoop hlib ls nr p _ 0 []) _ fun bottom _ => ?_
  refine res_bind _ (m.topLoop hlib ls nr p _ 0 []) _ fun top _ => ?_
  rw [res_index]
  refine res_bind _ (m.addInfill hlib o _ bottom infill.1) _ fun b _ => ?_
  exact res_bind _ (m.addInfill hlib o _ top infill.2) _ fun t _ => rfl

theorem Spec.Motion.infillParts (o : Options) (ls : List Layer) (nr : Nat) (ov : List (List LayerPart)) (ps : OffsetResult) :
    ∀ (k : Nat) (infill : List LayerPart × List LayerPart),
    Model.infillParts lib o (ls.map m.layer) nr (ov.map (List.map m.part)) k (ps.map (List.map (List.map m.part))) (m.both infill) =
      (Model.infillParts lib o ls nr ov k ps infill).map m.both := by
  induction ps with
  | nil => intro k infill; rfl
  | cons p ps ih =>
    intro k infill
    rw [List.map_cons, Model.infillParts, Model.infillParts, List.length_map]
    refine res_bind _ (res_index _ p _) _ fun inner _ => ?_
    refine res_bind m.both (res_foldlM m.part m.both (fun b a => m.infillPart hlib o ls nr ov k b a) inner infill) _ fun i _ => ?_
    exact ih _ i

theorem Spec.Motion.topWithoutBottom (bottom top : List LayerPart) :
    Model.topWithoutBottom lib (bottom.map m.part) (top.map m.part) = (Model.topWithoutBottom lib bottom top).map (List.map m.part) := by
  unfold Model.topWithoutBottom
  simp only [List.length_map, m.difference hlib]
  split
  · exact orErr_map (List.map m.part) _ _
  · rfl

theorem Spec.Motion.infillLayer (o : Options) (ls : List Layer) (nr : Nat) (l : Layer) :
    Model.infillLayer lib o (ls.map m.layer) nr (m.layer l) = (Model.infillLayer lib o ls nr l).map (Option.map m.layer) := by
  unfold Model.infillLayer
  refine res_bind _ (m.overlapPerimeters l) _ fun ov _ => ?_
  simp only [List.map_eq_nil_iff]
  split
  · rfl
  · refine res_bind _ (m.perimeters l) _ fun ps _ => ?_
    simp only [List.map_eq_nil_iff]
    split
    · rfl
    · refine res_bind _ (m.infillParts hlib o ls nr ov ps 0 ([], [])) _ fun infill _ => ?_
      refine res_bind _ (m.topWithoutBottom hlib infill.1 infill.2) _ fun top _ => ?_
      simp only [pure, Except.pure, Except.map, Option.map_some, ← m.setParts, ← m.extend]
      rfl

theorem Spec.Motion.infillLoop (o : Options) (n : Nat) : ∀ (nr : Nat) (ls : List Layer),
    Model.infillLoop lib o n nr (ls.map m.layer) = (Model.infillLoop lib o n nr ls).map (List.map m.layer) := by
  induction n with
  | zero => intro nr ls; rfl
  | succ n ih =>
    intro nr ls
    rw [Model.infillLoop, Model.infillLoop]
    refine res_bind _ (res_index _ ls _) _ fun l _ => ?_
    refine res_bind _ (m.infillLayer hlib o ls nr l) _ fun new _ => ?_
    cases new with
    | none => rfl
    | some new =>
      simp only [Option.map_some, ← List.map_set]
      exact ih _ _

theorem Spec.Motion.infillModifier (o : Options) (ls : List Layer) :
    Model.infillModifier lib o (ls.map m.layer) = (Model.infillModifier lib o ls).map (List.map m.layer) := by
  unfold Model.infillModifier
  rw [List.length_map]
  exact m.infillLoop hlib o _ _ _

theorem Spec.Motion.internalPart (o : Options) (bottom top part : List LayerPart) :
    Model.internalPart lib o (bottom.map m.part) (top.map m.part) (part.map m.part) = (Model.internalPart lib o bottom top part).map (List.map m.part) := by
  unfold Model.internalPart
  simp only [List.map_eq_nil_iff, ← List.map_append, m.difference hlib]
  split
  · rfl
  · split
    · rfl
    · exact orErr_map (List.map m.part) _ _

theorem Spec.Motion.internalLayer (o : Options) (l : Layer) :
    Model.internalLayer lib o (m.layer l) = (Model.internalLayer lib o l).map (Option.map m.layer) := by
  unfold Model.internalLayer
  refine res_bind _ (m.overlapPerimeters l) _ fun ov _ => ?_
  simp only [List.map_eq_nil_iff]
  split
  · rfl
  · refine res_bind _ (m.partsAttribute l _) _ fun bottom _ => ?_
    refine res_bind _ (m.partsAttribute l _) _ fun top _ => ?_
    refine res_bind _ (res_mapM _ _ _ fun p _ => m.internalPart hlib o bottom top p) _ fun is _ => ?_
    simp only [pure, Except.pure, Except.map, Option.map_some, ← List.map_flatten, List.length_map, Layer.setShared]
    split
    · exact congrArg _ (congrArg _ (m.set l _ (.parts is.flatten)))
    · rfl

theorem Spec.Motion.internalInfillModifier (o : Options) (ls : List Layer) :
    Model.internalInfillModifier lib o (ls.map m.layer) = (Model.internalInfillModifier lib o ls).map (List.map m.layer) := by
  induction ls with
  | nil => rfl
  | cons l ls ih =>
    rw [List.map_cons, Model.internalInfillModifier, Model.internalInfillModifier]
    refine res_bind _ (m.internalLayer hlib o l) _ fun new _ => ?_
    cases new with
    | none => rfl
    | some new =>
      exact res_bind _ ih _ fun rest _ => rfl

/-! ## Brim -/

theorem Spec.Motion.topLevelOutlines (ps : OffsetResult) :
    Model.topLevelOutlines lib (ps.map (List.map (List.map m.part))) = (Model.topLevelOutlines lib ps).map m.part := by
  unfold Model.topLevelOutlines
  have e : Model.outerPerimeters (ps.map (List.map (List.map m.part))) = (Model.outerPerimeters ps).map m.part := by
    simp only [Model.outerPerimeters, List.flatMap_map, List.map_flatMap, List.filterMap_map, List.map_filterMap]
    congr 1
    funext p
    congr 1
    funext q
    cases q <;> rfl
  rw [e, m.topLevelPolygons hlib]
  cases lib.topLevelPolygons (Model.outerPerimeters ps) with
  | none => rfl
  | some r =>
    simp only [Option.map_some, Option.getD_some, List.map_map]
    rfl

theorem Spec.Motion.brimLines (o : Options) (ps : List LayerPart) :
    Model.brimLines lib o (ps.map m.part) = (Model.brimLines lib o ps).map (List.map (List.map m.part)) := m.insetLayer hlib _ _ _ _

theorem Spec.Motion.outerBrim (o : Options) (b : OffsetResult) :
    Model.outerBrim lib o (b.map (List.map (List.map m.part))) = (Model.outerBrim lib o b).map m.part := by
  unfold Model.outerBrim
  have e : Model.outerBrimLines (b.map (List.map (List.map m.part))) = (Model.outerBrimLines b).map m.part := by
    simp only [Model.outerBrimLines, List.flatMap_map, List.map_flatMap]
    congr 1
    funext p
    simp only [List.getLastD_eq_getLast?, List.getLast?_map]
    cases p.getLast? <;> rfl
  rw [e, m.insetLayer hlib, toOneDimension_map]

omit hlib in
theorem Spec.Motion.setBrim (l : Layer) (b : OffsetResult) (outer : List LayerPart) :
    Model.setBrim (m.layer l) (b.map (List.map (List.map m.part))) (outer.map m.part) = m.layer (Model.setBrim l b outer) := by
  unfold Model.setBrim
  rw [← m.setParts, List.length_map, m.extend]
  split
  · rw [← m.set]
    rfl
  · rfl

theorem Spec.Motion.brimLayer (o : Options) (l : Layer) : Model.brimLayer lib o (m.layer l) = (Model.brimLayer lib o l).map m.layer := by
  unfold Model.brimLayer
  refine res_bind _ (m.perimeters l) _ fun ps _ => ?_
  simp only [List.map_eq_nil_iff, m.topLevelOutlines hlib, m.brimLines hlib, m.outerBrim hlib, m.setBrim]
  split
  · rfl
  · split
    · rfl
    · rfl

theorem Spec.Motion.brimModifier (o : Options) (ls : List Layer) :
    Model.brimModifier lib o (ls.map m.layer) = (Model.brimModifier lib o ls).map (List.map m.layer) := by
  unfold Model.brimModifier
  split
  · rfl
  · cases ls with
    | nil => rfl
    | cons l ls => exact res_bind _ (m.brimLayer hlib o l) _ fun l _ => rfl

/-! ## Support -/

theorem Spec.Motion.detectSupport (tan : ℚ) (o : Options) (below above : Layer) :
    Model.detectSupport lib tan o (m.layer below) (m.layer above) = (Model.detectSupport lib tan o below above).map (List.map m.part) := by
  unfold Model.detectSupport
  simp only [Motion.layer, m.insetLayer hlib, toOneDimension_map, m.difference hlib]
  exact res_bind _ (orErr_map (List.map m.part) _ _) _ fun support _ => by
    simp only [m.insetLayer hlib, toOneDimension_map, pure, Except.pure, Except.map]

theorem Spec.Motion.detectorLoop (tan : ℚ) (o : Options) (n : Nat) : ∀ (nr : Nat) (ls : List Layer),
    Model.detectorLoop lib tan o n nr (ls.map m.layer) = (Model.detectorLoop lib tan o n nr ls).map (List.map m.layer) := by
  induction n with
  | zero => intro nr ls; rfl
  | succ n ih =>
    intro nr ls
    rw [Model.detectorLoop, Model.detectorLoop, List.length_map]
    split
    · exact ih _ _
    · refine res_bind _ (res_index _ ls _) _ fun below _ => ?_
      refine res_bind _ (res_index _ ls _) _ fun above _ => ?_
      refine res_bind _ (m.detectSupport hlib tan o below above) _ fun support _ => ?_
      refine res_bind _ (res_index _ ls _) _ fun target _ => ?_
      rw [m.extend, m.setParts, ← List.map_set]
      exact ih _ _

theorem Spec.Motion.supportDetector (tan : ℚ) (o : Options) (ls : List Layer) :
    Model.supportDetector lib tan o (ls.map m.layer) = (Model.supportDetector lib tan o ls).map (List.map m.layer) := by
  unfold Model.supportDetector
  rw [List.length_map]
  split
  · exact m.detectorLoop hlib tan o _ _ _
  · rfl

theorem Spec.Motion.supportInterface (o : Options) (ls : List Layer) (nr : Nat) (below : Layer) (actual : List LayerPart) :
    Model.supportInterface lib o (ls.map m.layer) nr (m.layer below) (actual.map m.part) = (Model.supportInterface lib o ls nr below actual).map m.both := by
  unfold Model.supportInterface
  simp only [List.map_eq_nil_iff, List.length_map]
  split
  · rfl
  · refine res_bind _ (res_index _ ls _) _ fun above _ => ?_
    refine res_bind _ (m.partsAttribute above _) _ fun sa _ => ?_
    rw [m.difference hlib]
    refine res_bind _ (orErr_map (List.map m.part) _ _) _ fun interface _ => ?_
    rw [m.difference hlib]
    refine res_bind _ (orErr_map (List.map m.part) _ _) _ fun rest _ => ?_
    refine res_bind _ (m.brimOuterDimension below) _ fun ba _ => ?_
    simp only [List.map_eq_nil_iff, m.difference hlib]
    split
    · rfl
    · simp only [pure, Except.pure, Except.map, Motion.both]
      cases lib.difference interface ba <;> cases lib.difference rest ba <;> rfl

theorem Spec.Motion.biggerLayer (o : Options) (l : Layer) : Model.biggerLayer lib o (m.layer l) = (Model.biggerLayer lib o l).map m.part := by
  unfold Model.biggerLayer
  simp only [Motion.layer, m.insetLayer hlib, toOneDimension_map]

omit hlib in
theorem Spec.Motion.setSupport (l : Layer) (a i r : List LayerPart) :
    Model.setSupport (m.layer l) (a.map m.part) (i.map m.part) (r.map m.part) = m.layer (Model.setSupport l a i r) := by
  unfold Model.setSupport
  rw [m.extend, m.setParts, m.setParts, ← m.set]
  rfl

omit hlib in
theorem Spec.Motion.currentSupport (l : Layer) (last : List LayerPart) :
    Model.currentSupport (m.layer l) (last.map m.part) = (Model.currentSupport l last).map (List.map m.part) := by
  unfold Model.currentSupport
  simp only [List.map_eq_nil_iff]
  split
  · exact m.partsAttribute l _
  · rfl

theorem Spec.Motion.generatorStep (o : Options) (nr : Nat) (ls : List Layer) (last : List LayerPart) :
    Model.generatorStep lib o nr (ls.map m.layer) (last.map m.part) =
      (Model.generatorStep lib o nr ls last).map fun r => (r.1.map m.layer, r.2.map m.part) := by
  unfold Model.generatorStep
  refine res_bind _ (res_index _ ls _) _ fun layer _ => ?_
  refine res_bind _ (res_index _ ls _) _ fun below _ => ?_
  refine res_bind _ (m.currentSupport layer last) _ fun current _ => ?_
  refine res_bind _ (m.partsAttribute below _) _ fun bs _ => ?_
  simp only [List.length_map, m.union hlib, m.biggerLayer hlib]
  split
  · rfl
  · refine res_bind _ (orErr_map (List.map m.part) _ _) _ fun result _ => ?_
    rw [m.difference hlib]
    refine res_bind _ (orErr_map (List.map m.part) _ _) _ fun actual _ => ?_
    refine res_bind _ (m.supportInterface hlib o ls nr below actual) _ fun ps _ => ?_
    simp only [pure, Except.pure, Except.map, List.map_set, ← m.setSupport]
    rfl

theorem Spec.Motion.generatorLoop (o : Options) (nr : Nat) : ∀ (ls : List Layer) (last : List LayerPart),
    Model.generatorLoop lib o nr (ls.map m.layer) (last.map m.part) = (Model.generatorLoop lib o nr ls last).map (List.map m.layer) := by
  induction nr with
  | zero => intro ls last; rfl
  | succ nr ih =>
    intro ls last
    rw [Model.generatorLoop, Model.generatorLoop]
    exact res_bind _ (m.generatorStep hlib o _ ls last) _ fun r _ => ih _ _

theorem Spec.Motion.supportGenerator (o : Options) (ls : List Layer) :
    Model.supportGenerator lib o (ls.map m.layer) = (Model.supportGenerator lib o ls).map (List.map m.layer) := by
  unfold Model.supportGenerator
  rw [List.length_map]
  split
  · exact m.generatorLoop hlib o _ ls []
  · rfl

/-- All modifiers. -/
theorem Spec.Motion.modified (tan : ℚ) (o : Options) (ls : List Layer) :
    (standardModifiers lib tan o).foldlM (fun (a : List Layer) (f : List Layer → Res (List Layer)) => f a) (ls.map m.layer) =
      ((standardModifiers lib tan o).foldlM (fun (a : List Layer) (f : List Layer → Res (List Layer)) => f a) ls).map (List.map m.layer) := by
  simp only [standardModifiers, List.foldlM_cons, List.foldlM_nil]
  refine res_bind _ (m.perimeterModifier hlib o ls) _ fun ls _ => ?_
  refine res_bind _ (m.infillModifier hlib o ls) _ fun ls _ => ?_
  refine res_bind _ (m.internalInfillModifier hlib o ls) _ fun ls _ => ?_
  refine res_bind _ (m.brimModifier hlib o ls) _ fun ls _ => ?_
  refine res_bind _ (m.supportDetector hlib tan o ls) _ fun ls _ => ?_
  exact res_bind _ (m.supportGenerator hlib o ls) _ fun ls _ => rfl

end
end Verif
