import Verif.Model.Options
import Verif.Model.PartitionedLayer
import Mathlib.Data.List.Forall2

/-! # Specification: the options for the parts of a print -/
namespace Verif.Spec
open Verif.Go Verif.Model

/-- The options which matter for the slicer agree. -/
structure SameSlicing (o o' : Options) : Prop where
  slicing : o.slicing = o'.slicing
  initial : o.print.initialLayerThickness = o'.print.initialLayerThickness
  thickness : o.print.layerThickness = o'.print.layerThickness

/-- The options which matter for top and bottom agree. -/
structure SameSolid (o o' : Options) : Prop where
  overlap : o.print.infillOverlapPercent = o'.print.infillOverlapPercent
  additional : o.print.additionalInternalInfillOverlapPercent = o'.print.additionalInternalInfillOverlapPercent
  width : o.printer.extrusionWidth = o'.printer.extrusionWidth
  bottom : o.print.numberBottomLayers.toNat = o'.print.numberBottomLayers.toNat
  top : o.print.numberTopLayers.toNat = o'.print.numberTopLayers.toNat

/-- The options which matter for the support agree. -/
structure SameSupport (o o' : Options) : Prop where
  thickness : o.print.layerThickness = o'.print.layerThickness
  enabled : o.print.support.enabled = o'.print.support.enabled
  topGap : o.print.support.topGapLayers = o'.print.support.topGapLayers
  spacing : o.print.support.patternSpacing = o'.print.support.patternSpacing
  interface : o.print.support.interfaceLayers = o'.print.support.interfaceLayers
  gap : o.print.support.gap = o'.print.support.gap

/-- The layers have the same parts and the same values of the given attributes. -/
def Agree (names : List String) (ls ls' : List Layer) : Prop :=
  List.Forall₂ (fun l l' : Layer => l.parts = l'.parts ∧ ∀ n ∈ names, l.attr n = l'.attr n) ls ls'

end Verif.Spec
