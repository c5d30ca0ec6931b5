import Verif.Props.Modifiers
import Verif.Spec.Independent
import Verif.Model.Slicer
import Verif.Model.Optimizer

/-! # Which options the steps of the program depend on -/
namespace Verif
open Verif.Go Verif.Model Verif.Spec

section
variable {lib : ClipperLib} {o o' : Options}

theorem optimize_depends (h1 : o.slicing.meldDistance = o'.slicing.meldDistance) (h2 : o.printer.center = o'.printer.center) (m : Mesh) :
    optimize o m = optimize o' m := by
  unfold optimize
  rw [h1, h2]

theorem layerZ_depends (h : SameSlicing o o') : layerZ o = layerZ o' := by
  funext n
  unfold layerZ
  rw [h.initial, h.thickness]

theorem sliceLayers_depends (h : SameSlicing o o') (i : Nat) (points : Tri Vec3) (n : Nat) : ∀ (k : Int) (ls : List (Option SliceLayer)),
    sliceLayers o i points n k ls = sliceLayers o' i points n k ls := by
  induction n with
  | zero => intro k ls; rfl
  | succ n ih =>
    intro k ls
    simp only [sliceLayers, ih]
    unfold sliceAt
    rw [layerZ_depends h]

theorem sliceFaces_depends (h : SameSlicing o o') (fs : List (Tri Vec3)) : ∀ (i : Nat) (ls : List (Option SliceLayer)),
    sliceFaces o i fs ls = sliceFaces o' i fs ls := by
  induction fs with
  | nil => intro i ls; rfl
  | cons f fs ih =>
    intro i ls
    simp only [sliceFaces, ih]
    unfold sliceOneFace
    simp only [h.initial, h.thickness, sliceLayers_depends h]

theorem slice_depends (h : SameSlicing o o') (om : OptModel) : slice lib o om = slice lib o' om := by
  have e : finishLayer lib o om = finishLayer lib o' om := by
    funext l
    cases l with
    | none => rfl
    | some l => simp only [finishLayer, makePolygons, h.slicing]
  unfold slice sliceSegments layerCount
  simp only [h.initial, h.thickness, sliceFaces_depends h, e]

theorem perimeterModifier_depends (h1 : o.print.insetCount = o'.print.insetCount) (h2 : o.print.infillOverlapPercent = o'.print.infillOverlapPercent)
    (h3 : o.printer.extrusionWidth = o'.printer.extrusionWidth) (ls : List Layer) : perimeterModifier lib o ls = perimeterModifier lib o' ls := by
  have e : perimeterLayer lib o = perimeterLayer lib o' := by
    funext l
    have e1 : overlapOfPart lib o = overlapOfPart lib o' := by
      funext p
      simp only [overlapOfPart, h2, h3]
    simp only [perimeterLayer, perimetersOf, h1, h3, e1]
  unfold perimeterModifier
  rw [e]

theorem infillParts_depends (h : SameSolid o o') (layers : List Layer) (n : Nat) (ov : List (List LayerPart)) (ps : OffsetResult) :
    ∀ (k : Nat) (acc : List LayerPart × List LayerPart), infillParts lib o layers n ov k ps acc = infillParts lib o' layers n ov k ps acc := by
  induction ps with
  | nil => intro k acc; rfl
  | cons p ps ih =>
    intro k acc
    have e : infillPart lib o layers n ov k = infillPart lib o' layers n ov k := by
      funext a b
      have e1 : addInfill lib o = addInfill lib o' := by
        funext a b c
        simp only [addInfill, h.overlap, h.additional, h.width]
      simp only [infillPart, e1, h.bottom, h.top]
    simp only [infillParts, ih, e]

theorem infillModifier_depends (h : SameSolid o o') (ls : List Layer) : infillModifier lib o ls = infillModifier lib o' ls := by
  have key : ∀ (n k : Nat) (ls : List Layer), infillLoop lib o n k ls = infillLoop lib o' n k ls := by
    intro n
    induction n with
    | zero => intro k ls; rfl
    | succ n ih =>
      intro k ls
      simp only [infillLoop, ih, infillLayer, infillParts_depends h]
  exact key _ _ _

theorem internalInfillModifier_depends (h : o.print.infillPercent = 0 ↔ o'.print.infillPercent = 0) (ls : List Layer) :
    internalInfillModifier lib o ls = internalInfillModifier lib o' ls := by
  have e : internalLayer lib o = internalLayer lib o' := by
    funext l
    have e1 : internalPart lib o = internalPart lib o' := by
      funext a b c
      simp only [internalPart, h]
    simp only [internalLayer, e1]
  induction ls with
  | nil => rfl
  | cons l ls ih => simp only [internalInfillModifier, e, ih]

theorem brimModifier_depends (h1 : o.print.brimSkirt.brimCount = o'.print.brimSkirt.brimCount) (h2 : o.printer.extrusionWidth = o'.printer.extrusionWidth)
    (ls : List Layer) : brimModifier lib o ls = brimModifier lib o' ls := by
  unfold brimModifier
  simp only [brimLayer, brimLines, outerBrim, h1, h2]

theorem supportDetector_depends {tan : ℚ} (h1 : o.print.support.enabled = o'.print.support.enabled)
    (h2 : o.print.support.topGapLayers = o'.print.support.topGapLayers) (h3 : o.print.support.patternSpacing = o'.print.support.patternSpacing)
    (h4 : o.print.layerThickness = o'.print.layerThickness) (ls : List Layer) : supportDetector lib tan o ls = supportDetector lib tan o' ls := by
  have key : ∀ (n k : Nat) (ls : List Layer), detectorLoop lib tan o n k ls = detectorLoop lib tan o' n k ls := by
    intro n
    induction n with
    | zero => intro k ls; rfl
    | succ n ih =>
      intro k ls
      simp only [detectorLoop, ih, detectSupport, supportDistance, h2, h3, h4]
  unfold supportDetector
  rw [key, h1]

theorem supportGenerator_depends (h1 : o.print.support.enabled = o'.print.support.enabled)
    (h2 : o.print.support.interfaceLayers = o'.print.support.interfaceLayers) (h3 : o.print.support.gap = o'.print.support.gap) (ls : List Layer) :
    supportGenerator lib o ls = supportGenerator lib o' ls := by
  have key : ∀ (n : Nat) (ls : List Layer) (last : List LayerPart), generatorLoop lib o n ls last = generatorLoop lib o' n ls last := by
    intro n
    induction n with
    | zero => intro ls last; rfl
    | succ n ih =>
      intro ls last
      simp only [generatorLoop, ih, generatorStep, supportInterface, biggerLayer, h2, h3]
  unfold supportGenerator
  rw [key, h1]

end
end Verif
