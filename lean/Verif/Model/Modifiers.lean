import Verif.Model.PartitionedLayer
import Verif.Model.Options

/-! # Model of the modifiers in `modifier`

A modifier changes the slice of layers in place; here it returns the new list. The layers changed before an error are not visible, as the
pipeline stops at the first error (C70). The attribute map of a layer is shared between the extended layers made from it, which
matters only for the internal infill (`Layer.setShared`). A nil slice is an empty list: this differs from Go only in `runClipper` for an empty
layer which is not nil, where Go asks the library for the difference of nothing and nothing. -/
namespace Verif.Model
open Verif.Go

/-- The value of an optional result of the clipper, or an error. -/
def orErr {α : Type} (msg : String) : Option α → Res α
  | some a => .ok a
  | none => .error (.err msg)

/-- The offset in `modifier/perimeter.go:100-111` `calculateOverlapPerimeter`; all values are float32. -/
def perimeterOverlap (overlapPercent : Int) (extrusionWidth : Micrometer) : Micrometer :=
  truncZ (r32 (r32 (r32 (extrusionWidth : ℚ) * r32 (100 - r32 (overlapPercent : ℚ))) / 100))

/-- `modifier/perimeter.go:100-111` `calculateOverlapPerimeter`. Its error is always nil, and index 0 exists for one inset. -/
def calculateOverlapPerimeter (lib : ClipperLib) (part : LayerPart) (overlapPercent : Int) (extrusionWidth : Micrometer) : List LayerPart :=
  if perimeterOverlap overlapPercent extrusionWidth ≠ 0 then
    lib.inset1 part (r64 (((-perimeterOverlap overlapPercent extrusionWidth).tdiv 2 : Int) : ℚ))
  else [part]

/-- The overlapping perimeter of one part in `modifier/perimeter.go:63-97` `perimeterModifier.Modify`; `part[len(part)-1]` panics if there are no insets. -/
def overlapOfPart (lib : ClipperLib) (o : Options) (part : List (List LayerPart)) : Res (List LayerPart) := do
  let innermost ← index part ((part.length : Int) - 1)
  return innermost.flatMap fun insetPart =>
    calculateOverlapPerimeter lib insetPart o.print.infillOverlapPercent o.printer.extrusionWidth

/-- The perimeters of a layer in `modifier/perimeter.go:63-97` `perimeterModifier.Modify`. -/
def perimetersOf (lib : ClipperLib) (o : Options) (parts : List LayerPart) : OffsetResult :=
  lib.insetLayer parts o.printer.extrusionWidth o.print.insetCount ((-o.printer.extrusionWidth).tdiv 2)

/-- Loop body of `modifier/perimeter.go:63-97` `perimeterModifier.Modify`. -/
def perimeterLayer (lib : ClipperLib) (o : Options) (layer : Layer) : Res Layer := do
  let insetParts := perimetersOf lib o layer.parts
  let overlap ← insetParts.mapM (overlapOfPart lib o)
  return (layer.extend.set "perimeters" (.offsetResult insetParts)).set "overlapPerimeters" (.partLists overlap)

/-- `modifier/perimeter.go:63-97` `perimeterModifier.Modify`. -/
def perimeterModifier (lib : ClipperLib) (o : Options) (layers : List Layer) : Res (List Layer) := layers.mapM (perimeterLayer lib o)

/-- `modifier/internal_infill.go:80-95` `partDifference`. -/
def partDifference (lib : ClipperLib) (part : LayerPart) (layerToRemove : Layer) : Res (List LayerPart) :=
  orErr "error while calculating difference of a part and a layer" (lib.difference [part] layerToRemove.parts)

/-- "union the parts if needed" in `modifier/infill.go:43-197` `infillModifier.Modify`. -/
def unionIfNeeded (lib : ClipperLib) (msg : String) (acc parts : List LayerPart) : Res (List LayerPart) :=
  if acc.length = 0 then .ok parts else orErr msg (lib.union acc parts)

/-- The loop over the layers below in `modifier/infill.go:43-197` `infillModifier.Modify`, with `n` iterations left. -/
def bottomLoop (lib : ClipperLib) (layers : List Layer) (layerNr : Nat) (insetPart : LayerPart) :
    (n : Nat) → (i : Nat) → List LayerPart → Res (List LayerPart)
  | 0, _, acc => .ok acc
  | n + 1, i, acc =>
    if layerNr = i then do
      let acc ← unionIfNeeded lib "could not union bottom parts" acc [insetPart]
      bottomLoop lib layers layerNr insetPart n (i + 1) acc
    else if i > layerNr then .ok acc
    else do
      let below ← index layers ((layerNr : Int) - 1 - i)
      let parts ← partDifference lib insetPart below
      let acc ← unionIfNeeded lib "could not union bottom parts" acc parts
      bottomLoop lib layers layerNr insetPart n (i + 1) acc

/-- The loop over the layers above in `modifier/infill.go:43-197` `infillModifier.Modify`, with `n` iterations left. -/
def topLoop (lib : ClipperLib) (layers : List Layer) (layerNr : Nat) (insetPart : LayerPart) :
    (n : Nat) → (i : Nat) → List LayerPart → Res (List LayerPart)
  | 0, _, acc => .ok acc
  | n + 1, i, acc =>
    if (layerNr + i : Int) = (layers.length : Int) - 1 then do
      let acc ← unionIfNeeded lib "could not union top parts" acc [insetPart]
      topLoop lib layers layerNr insetPart n (i + 1) acc
    else if layerNr + 1 + i ≥ layers.length then .ok acc
    else do
      let above ← index layers ((layerNr : Int) + 1 + i)
      let parts ← partDifference lib insetPart above
      let acc ← unionIfNeeded lib "could not union top parts" acc parts
      topLoop lib layers layerNr insetPart n (i + 1) acc

/-- The steps 2 and 3 for top or bottom in `modifier/infill.go:43-197` `infillModifier.Modify`: the area is enlarged, clipped by the overlapping perimeter and
added to the infill of the layer. -/
def addInfill (lib : ClipperLib) (o : Options) (overlapping : Res (List LayerPart)) (infillParts infill : List LayerPart) :
    Res (List LayerPart) := do
  let overlap := infillParts.flatMap fun part =>
    calculateOverlapPerimeter lib part (o.print.infillOverlapPercent + o.print.additionalInternalInfillOverlapPercent)
      o.printer.extrusionWidth
  if overlap = [] then return infill
  else
    let border ← overlapping
    let clipped ← orErr "error while intersecting infill areas by the overlapping border" (lib.intersection overlap border)
    orErr "error while calculating the union of new infill with already existing one" (lib.union infill clipped)

/-- The body for one inset part in `modifier/infill.go:43-197` `infillModifier.Modify`; the state is the pair of bottom and top infill. -/
def infillPart (lib : ClipperLib) (o : Options) (layers : List Layer) (layerNr : Nat) (overlapping : List (List LayerPart)) (partNr : Nat)
    (infill : List LayerPart × List LayerPart) (insetPart : LayerPart) : Res (List LayerPart × List LayerPart) := do
  let bottomParts ← bottomLoop lib layers layerNr insetPart o.print.numberBottomLayers.toNat 0 []
  let topParts ← topLoop lib layers layerNr insetPart o.print.numberTopLayers.toNat 0 []
  let bottom ← addInfill lib o (index overlapping partNr) bottomParts infill.1
  let top ← addInfill lib o (index overlapping partNr) topParts infill.2
  return (bottom, top)

/-- The loop over the parts in `modifier/infill.go:43-197` `infillModifier.Modify`, from `partNr` on. -/
def infillParts (lib : ClipperLib) (o : Options) (layers : List Layer) (layerNr : Nat) (overlapping : List (List LayerPart)) :
    Nat → OffsetResult → List LayerPart × List LayerPart → Res (List LayerPart × List LayerPart)
  | _, [], infill => .ok infill
  | partNr, part :: rest, infill => do
    let innermost ← index part ((part.length : Int) - 1)
    let infill ← innermost.foldlM (infillPart lib o layers layerNr overlapping partNr) infill
    infillParts lib o layers layerNr overlapping (partNr + 1) rest infill

/-- Set an attribute if the list is not empty. -/
def setParts (layer : Layer) (name : String) (parts : List LayerPart) : Layer :=
  if parts.length > 0 then layer.set name (.parts parts) else layer

/-- The top infill without the bottom infill in `modifier/infill.go:43-197` `infillModifier.Modify`. -/
def topWithoutBottom (lib : ClipperLib) (bottom top : List LayerPart) : Res (List LayerPart) :=
  if top.length > 0 ∧ bottom.length > 0 then
    orErr "error while calculating the difference of new top infill with the bottom infill to avoid duplicates" (lib.difference top bottom)
  else .ok top

/-- Loop body of `modifier/infill.go:43-197` `infillModifier.Modify`: the new layer, or `none` if the function returns without an error. -/
def infillLayer (lib : ClipperLib) (o : Options) (layers : List Layer) (layerNr : Nat) (layer : Layer) : Res (Option Layer) := do
  let overlapping ← layer.overlapPerimeters
  if overlapping = [] then return none
  else
    let perimeters ← layer.perimeters
    if perimeters = [] then return none
    else
      let infill ← infillParts lib o layers layerNr overlapping 0 perimeters ([], [])
      let top ← topWithoutBottom lib infill.1 infill.2
      return some (setParts (setParts layer.extend "bottom" infill.1) "top" top)

/-- Loop over the layers of `modifier/infill.go:43-197` `infillModifier.Modify`, with `n` layers left. -/
def infillLoop (lib : ClipperLib) (o : Options) : (n : Nat) → (layerNr : Nat) → List Layer → Res (List Layer)
  | 0, _, layers => .ok layers
  | n + 1, layerNr, layers => do
    let layer ← index layers layerNr
    let new ← infillLayer lib o layers layerNr layer
    match new with
    | none => .ok layers
    | some new => infillLoop lib o n (layerNr + 1) (layers.set layerNr new)

/-- `modifier/infill.go:43-197` `infillModifier.Modify`. -/
def infillModifier (lib : ClipperLib) (o : Options) (layers : List Layer) : Res (List Layer) := infillLoop lib o layers.length 0 layers

/-- The internal infill for one overlapping perimeter in `modifier/internal_infill.go:27-78` `internalInfillModifier.Modify`. -/
def internalPart (lib : ClipperLib) (o : Options) (bottom top overlappingPart : List LayerPart) : Res (List LayerPart) :=
  if o.print.infillPercent = 0 then .ok []
  else if overlappingPart = [] ∧ bottom = [] ∧ top = [] then .ok []
  else orErr "error while calculating the difference between the max overlap border and the bottom infill"
    (lib.difference overlappingPart (bottom ++ top))

/-- Loop body of `modifier/internal_infill.go:27-78` `internalInfillModifier.Modify`. The new layer is not stored; its attribute map is that of the old
one if there is one. -/
def internalLayer (lib : ClipperLib) (o : Options) (layer : Layer) : Res (Option Layer) := do
  let overlapping ← layer.overlapPerimeters
  if overlapping = [] then return none
  else
    let bottom ← layer.partsAttribute "bottom"
    let top ← layer.partsAttribute "top"
    let internal ← overlapping.mapM (internalPart lib o bottom top)
    return some (if internal.flatten.length > 0 then layer.setShared "infill" (.parts internal.flatten) else layer)

/-- Loop of `modifier/internal_infill.go:27-78` `internalInfillModifier.Modify`. -/
def internalInfillModifier (lib : ClipperLib) (o : Options) : List Layer → Res (List Layer)
  | [] => .ok []
  | layer :: rest => do
    let new ← internalLayer lib o layer
    match new with
    | none => .ok (layer :: rest)
    | some new => do
      let rest ← internalInfillModifier lib o rest
      return new :: rest

/-- The outer perimeters in `modifier/brim.go:73-146` `brimModifier.Modify`: the first part of every inset of every part. -/
def outerPerimeters (perimeters : OffsetResult) : List LayerPart :=
  perimeters.flatMap fun part => part.filterMap List.head?

/-- The outermost brim lines in `modifier/brim.go:73-146` `brimModifier.Modify`. -/
def outerBrimLines (brim : OffsetResult) : List LayerPart := brim.flatMap fun part => part.getLastD []

/-- The top level outlines in `modifier/brim.go:73-146` `brimModifier.Modify`. A failure of `TopLevelPolygons` is ignored by the code. -/
def topLevelOutlines (lib : ClipperLib) (perimeters : OffsetResult) : List LayerPart :=
  ((lib.topLevelPolygons (outerPerimeters perimeters)).getD []).map fun p => ⟨p, []⟩

/-- The brim lines in `modifier/brim.go:73-146` `brimModifier.Modify`. -/
def brimLines (lib : ClipperLib) (o : Options) (outer : List LayerPart) : OffsetResult :=
  lib.insetLayer outer (-o.printer.extrusionWidth) o.print.brimSkirt.brimCount o.printer.extrusionWidth

/-- The outer dimension of the brim in `modifier/brim.go:73-146` `brimModifier.Modify`. -/
def outerBrim (lib : ClipperLib) (o : Options) (brim : OffsetResult) : List LayerPart :=
  toOneDimension (lib.insetLayer (outerBrimLines brim) (-o.printer.extrusionWidth) 1 (o.printer.extrusionWidth.tdiv 2))

/-- The new attributes in `modifier/brim.go:73-146` `brimModifier.Modify`. -/
def setBrim (layer : Layer) (brim : OffsetResult) (outer : List LayerPart) : Layer :=
  setParts (if brim.length > 0 then layer.extend.set "brim" (.offsetResult brim) else layer.extend) "outerBrim" outer

/-- `modifier/brim.go:73-146` `brimModifier.Modify` for the first layer. -/
def brimLayer (lib : ClipperLib) (o : Options) (layer : Layer) : Res Layer := do
  let perimeters ← layer.perimeters
  if perimeters = [] then return layer
  else if topLevelOutlines lib perimeters = [] then return layer
  else
    return setBrim layer (brimLines lib o (topLevelOutlines lib perimeters))
      (outerBrim lib o (brimLines lib o (topLevelOutlines lib perimeters)))

/-- `modifier/brim.go:73-146` `brimModifier.Modify`; `layers[0]` panics if there are no layers. -/
def brimModifier (lib : ClipperLib) (o : Options) (layers : List Layer) : Res (List Layer) :=
  if o.print.brimSkirt.brimCount = 0 then .ok layers
  else
    match layers with
    | [] => .error (.panic "index out of range")
    | layer :: rest => do
      let layer ← brimLayer lib o layer
      return layer :: rest

/-- The rounded distance in `modifier/support.go:74-112` `supportDetectorModifier.Modify`; `tan` is the float64 value of the tangent of the angle. -/
def supportDistance (tan : ℚ) (o : Options) : Micrometer := roundAway (r64 (r64 (o.print.layerThickness : ℚ) * tan))

/-- The parts which need support above the layer `below` in `modifier/support.go:74-112` `supportDetectorModifier.Modify`. -/
def detectSupport (lib : ClipperLib) (tan : ℚ) (o : Options) (below above : Layer) : Res (List LayerPart) := do
  let d := supportDistance tan o
  let offsetLayer := toOneDimension (lib.insetLayer below.parts (-d) 1 (d.tdiv 2))
  let support ← orErr "could not calculate the support parts" (lib.difference above.parts offsetLayer)
  let s := toMicrometer o.print.support.patternSpacing
  return toOneDimension (lib.insetLayer support (-s * 3) 1 ((s * 3).tdiv 2))

/-- Loop of `modifier/support.go:74-112` `supportDetectorModifier.Modify`, with `n` layers left (support is enabled). -/
def detectorLoop (lib : ClipperLib) (tan : ℚ) (o : Options) : (n : Nat) → (layerNr : Nat) → List Layer → Res (List Layer)
  | 0, _, layers => .ok layers
  | n + 1, layerNr, layers =>
    if (layerNr : Int) = (layers.length : Int) - 1 ∨ (layerNr : Int) < o.print.support.topGapLayers then
      detectorLoop lib tan o n (layerNr + 1) layers
    else do
      let below ← index layers layerNr
      let above ← index layers ((layerNr : Int) + 1)
      let support ← detectSupport lib tan o below above
      let target ← index layers ((layerNr : Int) - o.print.support.topGapLayers)
      detectorLoop lib tan o n (layerNr + 1)
        (layers.set ((layerNr : Int) - o.print.support.topGapLayers).toNat (setParts target.extend "support" support))

/-- `modifier/support.go:74-112` `supportDetectorModifier.Modify`. -/
def supportDetector (lib : ClipperLib) (tan : ℚ) (o : Options) (layers : List Layer) : Res (List Layer) :=
  if o.print.support.enabled then detectorLoop lib tan o layers.length 0 layers else .ok layers

/-- The interface parts and the remaining parts in `modifier/support.go:134-242` `supportGeneratorModifier.Modify`, for the layer below `layerNr`. Failures of
the library for the brim are ignored by the code and give nil. -/
def supportInterface (lib : ClipperLib) (o : Options) (layers : List Layer) (layerNr : Nat) (below : Layer) (actual : List LayerPart) :
    Res (List LayerPart × List LayerPart) := do
  if actual = [] then return ([], [])
  else
    let nr := (layerNr : Int) + o.print.support.interfaceLayers - 1
    let above ← index layers (if nr ≥ layers.length then (layers.length : Int) - 1 else nr)
    let supportAbove ← above.partsAttribute "fullSupport"
    let interface ← orErr "error while calculating interface parts" (lib.difference actual supportAbove)
    let rest ← orErr "error while calculating the actual support without the interface parts" (lib.difference actual interface)
    let brimArea ← below.brimOuterDimension
    if brimArea = [] then return (interface, rest)
    else return ((lib.difference interface brimArea).getD [], (lib.difference rest brimArea).getD [])

/-- The area of the model which is kept free in `modifier/support.go:134-242` `supportGeneratorModifier.Modify`. -/
def biggerLayer (lib : ClipperLib) (o : Options) (layer : Layer) : List LayerPart :=
  toOneDimension (lib.insetLayer layer.parts (-toMicrometer o.print.support.gap) 1 ((toMicrometer o.print.support.gap).tdiv 2))

/-- The new attributes of the layer below in `modifier/support.go:134-242` `supportGeneratorModifier.Modify`. -/
def setSupport (below : Layer) (actual interface rest : List LayerPart) : Layer :=
  (setParts (setParts below.extend "fullSupport" actual) "supportInterface" interface).set "support" (.parts rest)

/-- The support to continue in `modifier/support.go:134-242` `supportGeneratorModifier.Modify`: the result of the last round or the attribute. -/
def currentSupport (layer : Layer) (lastSupport : List LayerPart) : Res (List LayerPart) :=
  if lastSupport = [] then layer.partsAttribute "support" else .ok lastSupport

/-- The body of the loop in `modifier/support.go:134-242` `supportGeneratorModifier.Modify` for `layerNr > 0`: the new layers and the new `lastSupport`. -/
def generatorStep (lib : ClipperLib) (o : Options) (layerNr : Nat) (layers : List Layer) (lastSupport : List LayerPart) :
    Res (List Layer × List LayerPart) := do
  let layer ← index layers layerNr
  let below ← index layers ((layerNr : Int) - 1)
  let current ← currentSupport layer lastSupport
  let belowSupport ← below.partsAttribute "support"
  if current.length = 0 ∧ belowSupport.length = 0 then return (layers, lastSupport)
  else
    let result ← orErr s!"could not union the supports for layer {layerNr} to generate support" (lib.union current belowSupport)
    let actual ← orErr s!"could not subtract the model from the supports for layer {layerNr}" (lib.difference result (biggerLayer lib o below))
    let parts ← supportInterface lib o layers layerNr below actual
    return (layers.set (layerNr - 1) (setSupport below actual parts.1 parts.2), actual)

/-- Loop of `modifier/support.go:134-242` `supportGeneratorModifier.Modify`, downwards from `layerNr`; it returns at layer 0. -/
def generatorLoop (lib : ClipperLib) (o : Options) : (layerNr : Nat) → List Layer → List LayerPart → Res (List Layer)
  | 0, layers, _ => .ok layers
  | layerNr + 1, layers, lastSupport => do
    let r ← generatorStep lib o (layerNr + 1) layers lastSupport
    generatorLoop lib o layerNr r.1 r.2

/-- `modifier/support.go:134-242` `supportGeneratorModifier.Modify`: starts at the second layer from the top. -/
def supportGenerator (lib : ClipperLib) (o : Options) (layers : List Layer) : Res (List Layer) :=
  if o.print.support.enabled then generatorLoop lib o (layers.length - 2) layers [] else .ok layers

/-- The modifiers in the order of `goslice.go:31-123` `NewGoSlice`. The constructors only store the options: `modifier/perimeter.go:18-25`, `modifier/infill.go:18-25`, `modifier/internal_infill.go:18-25`, `modifier/brim.go:27-34`, `modifier/support.go:65-72`, `modifier/support.go:125-132`; their `Init` does nothing. -/
def standardModifiers (lib : ClipperLib) (tan : ℚ) (o : Options) : List (List Layer → Res (List Layer)) :=
  [perimeterModifier lib o, infillModifier lib o, internalInfillModifier lib o, brimModifier lib o, supportDetector lib tan o,
   supportGenerator lib o]

end Verif.Model
