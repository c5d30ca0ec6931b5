import Verif.Model.Machine
import Verif.Model.Modifiers

/-! # The modifiers with int64 arithmetic

The functions of `Verif.Model.Modifiers` which compute with the options, with the wrap-around of Go's `int64`. Indexes of loops over layers and parts stay
unbounded. `internalInfillModifier` has no arithmetic. -/
namespace Verif.Model
open Verif.Go

namespace ClipperLib

/-- Loop of `clip/clip.go:268-289` `Inset` with int64 arithmetic. -/
def insetLoopM (lib : ClipperLib) (part : LayerPart) (offset : Micrometer) : Nat → ℚ → List (List LayerPart)
  | 0, _ => []
  | n + 1, currentOffset =>
    lib.inset1 part currentOffset :: insetLoopM lib part offset n (r64 (currentOffset + r64 ((wrap (-offset) : Int) : ℚ)))

/-- `clip/clip.go:268-289` `Inset` with int64 arithmetic. -/
def insetM (lib : ClipperLib) (part : LayerPart) (offset : Micrometer) (insetCount : Int) (initialOffset : Micrometer) :
    List (List LayerPart) :=
  lib.insetLoopM part offset insetCount.toNat (r64 (initialOffset : ℚ))

/-- `clip/clip.go:259-266` `InsetLayer` with int64 arithmetic. -/
def insetLayerM (lib : ClipperLib) (layer : List LayerPart) (offset : Micrometer) (insetCount : Int) (initialOffset : Micrometer) :
    OffsetResult :=
  layer.map (fun part => lib.insetM part offset insetCount initialOffset)

end ClipperLib

/-- `modifier/perimeter.go:100-111` `calculateOverlapPerimeter` with int64 arithmetic. -/
def calculateOverlapPerimeterM (lib : ClipperLib) (part : LayerPart) (overlapPercent : Int) (extrusionWidth : Micrometer) : List LayerPart :=
  if perimeterOverlap overlapPercent extrusionWidth ≠ 0 then
    lib.inset1 part (r64 (((wrap (-perimeterOverlap overlapPercent extrusionWidth)).tdiv 2 : Int) : ℚ))
  else [part]

/-- The overlapping perimeter of one part in `modifier/perimeter.go:63-97` `perimeterModifier.Modify` with int64 arithmetic. -/
def overlapOfPartM (lib : ClipperLib) (o : Options) (part : List (List LayerPart)) : Res (List LayerPart) := do
  let innermost ← index part ((part.length : Int) - 1)
  return innermost.flatMap fun insetPart =>
    calculateOverlapPerimeterM lib insetPart o.print.infillOverlapPercent o.printer.extrusionWidth

/-- The perimeters of a layer in `modifier/perimeter.go:63-97` `perimeterModifier.Modify` with int64 arithmetic. -/
def perimetersOfM (lib : ClipperLib) (o : Options) (parts : List LayerPart) : OffsetResult :=
  lib.insetLayerM parts o.printer.extrusionWidth o.print.insetCount ((wrap (-o.printer.extrusionWidth)).tdiv 2)

/-- Loop body of `modifier/perimeter.go:63-97` `perimeterModifier.Modify` with int64 arithmetic. -/
def perimeterLayerM (lib : ClipperLib) (o : Options) (layer : Layer) : Res Layer := do
  let insetParts := perimetersOfM lib o layer.parts
  let overlap ← insetParts.mapM (overlapOfPartM lib o)
  return (layer.extend.set "perimeters" (.offsetResult insetParts)).set "overlapPerimeters" (.partLists overlap)

/-- `modifier/perimeter.go:63-97` `perimeterModifier.Modify` with int64 arithmetic. -/
def perimeterModifierM (lib : ClipperLib) (o : Options) (layers : List Layer) : Res (List Layer) := layers.mapM (perimeterLayerM lib o)

/-- The steps 2 and 3 for top or bottom in `modifier/infill.go:43-197` `infillModifier.Modify` with int64 arithmetic. -/
def addInfillM (lib : ClipperLib) (o : Options) (overlapping : Res (List LayerPart)) (infillParts infill : List LayerPart) :
    Res (List LayerPart) := do
  let overlap := infillParts.flatMap fun part =>
    calculateOverlapPerimeterM lib part (wrap (o.print.infillOverlapPercent + o.print.additionalInternalInfillOverlapPercent))
      o.printer.extrusionWidth
  if overlap = [] then return infill
  else
    let border ← overlapping
    let clipped ← orErr "error while intersecting infill areas by the overlapping border" (lib.intersection overlap border)
    orErr "error while calculating the union of new infill with already existing one" (lib.union infill clipped)

/-- The body for one inset part in `modifier/infill.go:43-197` `infillModifier.Modify` with int64 arithmetic. -/
def infillPartM (lib : ClipperLib) (o : Options) (layers : List Layer) (layerNr : Nat) (overlapping : List (List LayerPart)) (partNr : Nat)
    (infill : List LayerPart × List LayerPart) (insetPart : LayerPart) : Res (List LayerPart × List LayerPart) := do
  let bottomParts ← bottomLoop lib layers layerNr insetPart o.print.numberBottomLayers.toNat 0 []
  let topParts ← topLoop lib layers layerNr insetPart o.print.numberTopLayers.toNat 0 []
  let bottom ← addInfillM lib o (index overlapping partNr) bottomParts infill.1
  let top ← addInfillM lib o (index overlapping partNr) topParts infill.2
  return (bottom, top)

/-- The loop over the parts in `modifier/infill.go:43-197` `infillModifier.Modify` with int64 arithmetic. -/
def infillPartsM (lib : ClipperLib) (o : Options) (layers : List Layer) (layerNr : Nat) (overlapping : List (List LayerPart)) :
    Nat → OffsetResult → List LayerPart × List LayerPart → Res (List LayerPart × List LayerPart)
  | _, [], infill => .ok infill
  | partNr, part :: rest, infill => do
    let innermost ← index part ((part.length : Int) - 1)
    let infill ← innermost.foldlM (infillPartM lib o layers layerNr overlapping partNr) infill
    infillPartsM lib o layers layerNr overlapping (partNr + 1) rest infill

/-- Loop body of `modifier/infill.go:43-197` `infillModifier.Modify` with int64 arithmetic. -/
def infillLayerM (lib : ClipperLib) (o : Options) (layers : List Layer) (layerNr : Nat) (layer : Layer) : Res (Option Layer) := do
  let overlapping ← layer.overlapPerimeters
  if overlapping = [] then return none
  else
    let perimeters ← layer.perimeters
    if perimeters = [] then return none
    else
      let infill ← infillPartsM lib o layers layerNr overlapping 0 perimeters ([], [])
      let top ← topWithoutBottom lib infill.1 infill.2
      return some (setParts (setParts layer.extend "bottom" infill.1) "top" top)

/-- Loop over the layers of `modifier/infill.go:43-197` `infillModifier.Modify` with int64 arithmetic. -/
def infillLoopM (lib : ClipperLib) (o : Options) : (n : Nat) → (layerNr : Nat) → List Layer → Res (List Layer)
  | 0, _, layers => .ok layers
  | n + 1, layerNr, layers => do
    let layer ← index layers layerNr
    let new ← infillLayerM lib o layers layerNr layer
    match new with
    | none => .ok layers
    | some new => infillLoopM lib o n (layerNr + 1) (layers.set layerNr new)

/-- `modifier/infill.go:43-197` `infillModifier.Modify` with int64 arithmetic. -/
def infillModifierM (lib : ClipperLib) (o : Options) (layers : List Layer) : Res (List Layer) := infillLoopM lib o layers.length 0 layers

/-- The brim lines in `modifier/brim.go:73-146` `brimModifier.Modify` with int64 arithmetic. -/
def brimLinesM (lib : ClipperLib) (o : Options) (outer : List LayerPart) : OffsetResult :=
  lib.insetLayerM outer (wrap (-o.printer.extrusionWidth)) o.print.brimSkirt.brimCount o.printer.extrusionWidth

/-- The outer dimension of the brim in `modifier/brim.go:73-146` `brimModifier.Modify` with int64 arithmetic. -/
def outerBrimM (lib : ClipperLib) (o : Options) (brim : OffsetResult) : List LayerPart :=
  toOneDimension (lib.insetLayerM (outerBrimLines brim) (wrap (-o.printer.extrusionWidth)) 1 (o.printer.extrusionWidth.tdiv 2))

/-- `modifier/brim.go:73-146` `brimModifier.Modify` for the first layer with int64 arithmetic. -/
def brimLayerM (lib : ClipperLib) (o : Options) (layer : Layer) : Res Layer := do
  let perimeters ← layer.perimeters
  if perimeters = [] then return layer
  else if topLevelOutlines lib perimeters = [] then return layer
  else
    return setBrim layer (brimLinesM lib o (topLevelOutlines lib perimeters))
      (outerBrimM lib o (brimLinesM lib o (topLevelOutlines lib perimeters)))

/-- `modifier/brim.go:73-146` `brimModifier.Modify` with int64 arithmetic. -/
def brimModifierM (lib : ClipperLib) (o : Options) (layers : List Layer) : Res (List Layer) :=
  if o.print.brimSkirt.brimCount = 0 then .ok layers
  else
    match layers with
    | [] => .error (.panic "index out of range")
    | layer :: rest => do
      let layer ← brimLayerM lib o layer
      return layer :: rest

/-- The parts which need support in `modifier/support.go:74-112` `supportDetectorModifier.Modify` with int64 arithmetic. -/
def detectSupportM (lib : ClipperLib) (tan : ℚ) (o : Options) (below above : Layer) : Res (List LayerPart) := do
  let d := -supportDistance tan o
  let offsetLayer := toOneDimension (lib.insetLayerM below.parts d 1 ((wrap (-d)).tdiv 2))
  let support ← orErr "could not calculate the support parts" (lib.difference above.parts offsetLayer)
  let s := toMicrometer o.print.support.patternSpacing
  return toOneDimension (lib.insetLayerM support (wrap (wrap (-s) * 3)) 1 ((wrap (s * 3)).tdiv 2))

/-- Loop of `modifier/support.go:74-112` `supportDetectorModifier.Modify` with int64 arithmetic. -/
def detectorLoopM (lib : ClipperLib) (tan : ℚ) (o : Options) : (n : Nat) → (layerNr : Nat) → List Layer → Res (List Layer)
  | 0, _, layers => .ok layers
  | n + 1, layerNr, layers =>
    if (layerNr : Int) = (layers.length : Int) - 1 ∨ (layerNr : Int) < o.print.support.topGapLayers then
      detectorLoopM lib tan o n (layerNr + 1) layers
    else do
      let below ← index layers layerNr
      let above ← index layers ((layerNr : Int) + 1)
      let support ← detectSupportM lib tan o below above
      let target ← index layers (wrap ((layerNr : Int) - o.print.support.topGapLayers))
      detectorLoopM lib tan o n (layerNr + 1)
        (layers.set (wrap ((layerNr : Int) - o.print.support.topGapLayers)).toNat (setParts target.extend "support" support))

/-- `modifier/support.go:74-112` `supportDetectorModifier.Modify` with int64 arithmetic. -/
def supportDetectorM (lib : ClipperLib) (tan : ℚ) (o : Options) (layers : List Layer) : Res (List Layer) :=
  if o.print.support.enabled then detectorLoopM lib tan o layers.length 0 layers else .ok layers

/-- The interface parts and the remaining parts in `modifier/support.go:134-242` `supportGeneratorModifier.Modify` with int64 arithmetic. -/
def supportInterfaceM (lib : ClipperLib) (o : Options) (layers : List Layer) (layerNr : Nat) (below : Layer) (actual : List LayerPart) :
    Res (List LayerPart × List LayerPart) := do
  if actual = [] then return ([], [])
  else
    let nr := wrap (wrap ((layerNr : Int) + o.print.support.interfaceLayers) - 1)
    let above ← index layers (if nr ≥ layers.length then (layers.length : Int) - 1 else nr)
    let supportAbove ← above.partsAttribute "fullSupport"
    let interface ← orErr "error while calculating interface parts" (lib.difference actual supportAbove)
    let rest ← orErr "error while calculating the actual support without the interface parts" (lib.difference actual interface)
    let brimArea ← below.brimOuterDimension
    if brimArea = [] then return (interface, rest)
    else return ((lib.difference interface brimArea).getD [], (lib.difference rest brimArea).getD [])

/-- The area of the model which is kept free in `modifier/support.go:134-242` `supportGeneratorModifier.Modify` with int64 arithmetic. -/
def biggerLayerM (lib : ClipperLib) (o : Options) (layer : Layer) : List LayerPart :=
  toOneDimension (lib.insetLayerM layer.parts (wrap (-toMicrometer o.print.support.gap)) 1 ((toMicrometer o.print.support.gap).tdiv 2))

/-- The body of the loop in `modifier/support.go:134-242` `supportGeneratorModifier.Modify` with int64 arithmetic. -/
def generatorStepM (lib : ClipperLib) (o : Options) (layerNr : Nat) (layers : List Layer) (lastSupport : List LayerPart) :
    Res (List Layer × List LayerPart) := do
  let layer ← index layers layerNr
  let below ← index layers ((layerNr : Int) - 1)
  let current ← currentSupport layer lastSupport
  let belowSupport ← below.partsAttribute "support"
  if current.length = 0 ∧ belowSupport.length = 0 then return (layers, lastSupport)
  else
    let result ← orErr s!"could not union the supports for layer {layerNr} to generate support" (lib.union current belowSupport)
    let actual ← orErr s!"could not subtract the model from the supports for layer {layerNr}" (lib.difference result (biggerLayerM lib o below))
    let parts ← supportInterfaceM lib o layers layerNr below actual
    return (layers.set (layerNr - 1) (setSupport below actual parts.1 parts.2), actual)

/-- Loop of `modifier/support.go:134-242` `supportGeneratorModifier.Modify` with int64 arithmetic. -/
def generatorLoopM (lib : ClipperLib) (o : Options) : (layerNr : Nat) → List Layer → List LayerPart → Res (List Layer)
  | 0, layers, _ => .ok layers
  | layerNr + 1, layers, lastSupport => do
    let r ← generatorStepM lib o (layerNr + 1) layers lastSupport
    generatorLoopM lib o layerNr r.1 r.2

/-- `modifier/support.go:134-242` `supportGeneratorModifier.Modify` with int64 arithmetic. -/
def supportGeneratorM (lib : ClipperLib) (o : Options) (layers : List Layer) : Res (List Layer) :=
  if o.print.support.enabled then generatorLoopM lib o (layers.length - 2) layers [] else .ok layers

/-- The modifiers in the order of `goslice.go:31-123` `NewGoSlice` with int64 arithmetic. -/
def standardModifiersM (lib : ClipperLib) (tan : ℚ) (o : Options) : List (List Layer → Res (List Layer)) :=
  [perimeterModifierM lib o, infillModifierM lib o, internalInfillModifier lib o, brimModifierM lib o, supportDetectorM lib tan o,
   supportGeneratorM lib o]

end Verif.Model
