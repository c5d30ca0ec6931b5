import Verif.Model.Generator

/-! # Model of the renderers in `gcode/renderer` and of the renderer list in `goslice.go` -/
namespace Verif.Model
open Verif.Go

/-- `gcode/renderer/layer.go:14` `HotendTempCodes`. -/
def hotendTempCodes : List Str := ["M104".toList, "M109".toList]
/-- `gcode/renderer/layer.go:15` `BedTempCodes`. -/
def bedTempCodes : List Str := ["M140".toList, "M190".toList]
/-- `gcode/renderer/layer.go:16` `BedTempTemplate`. -/
def bedTempTemplate : Str := "{print_bed_temperature}".toList
/-- `gcode/renderer/layer.go:17` `HotendTempTemplate`. -/
def hotendTempTemplate : Str := "{print_temperature}".toList

/-- The replacement of the templates in `gcode/renderer/layer.go:25-97` `PreLayer.Render`. -/
def fillTemplates (o : Options) (instruction : Str) : Str :=
  let instruction := if contains instruction bedTempTemplate then
    replaceAll bedTempTemplate (formatInt o.filament.initialBedTemperature) instruction else instruction
  if contains instruction hotendTempTemplate then
    replaceAll hotendTempTemplate (formatInt o.filament.initialHotEndTemperature) instruction else instruction

/-- `DoesInstructionContainCodes` as a Boolean; it never fails (`hasCodes_ok` in `Props/Heaters.lean`). -/
def hasCodes (codes lines : List Str) : Bool :=
  match doesInstructionContainCodes codes lines with
  | .ok b => b
  | .error _ => false

/-- First block (layer 0) of `gcode/renderer/layer.go:25-97` `PreLayer.Render`. -/
def preLayerStart (o : Options) : List Call :=
  [.comment "Generated with GoSlice".toList, .comment "______________________".toList] ++
  (if o.printer.forceSafeStartStopGCode then
    (if o.printer.hasHeatedBed && !hasCodes bedTempCodes o.printer.startGCode then
      [.comment "SET BED TEMP".toList,
       .text ("M190 S".toList ++ formatInt o.filament.initialBedTemperature ++ " ; heat and wait for bed".toList)]
    else []) ++
    (if !hasCodes hotendTempCodes o.printer.startGCode then
      [.comment "SET HOTEND TEMP".toList,
       .text ("M109 S".toList ++ formatInt o.filament.initialHotEndTemperature ++ " ; wait for hot end temperature".toList)]
    else [])
  else []) ++
  [.comment "START GCODE".toList] ++
  o.printer.startGCode.map (fun instruction => .command (fillTemplates o instruction)) ++
  [.command "G92 E0 ; reset extrusion distance".toList]

/-- The settings at layer 0 in `gcode/renderer/layer.go:25-97` `PreLayer.Render`. -/
def preLayerSettings (o : Options) : List Call :=
  [.setExtrusion o.print.initialLayerThickness o.printer.extrusionWidth,
   .setExtrudeSpeed o.print.layerSpeed,
   .setMoveSpeed o.print.moveSpeed,
   .setRetractionSpeed o.filament.retractionSpeed,
   .setRetractionAmount o.filament.retractionLength,
   .setRetractionZHop o.filament.retractionZHop,
   .setExtrudeSpeedOverride o.print.initialLayerSpeed]

/-- Last part of `gcode/renderer/layer.go:25-97` `PreLayer.Render`, for all layers. -/
def preLayerCommon (o : Options) (layerNr : Nat) : List Call :=
  [.text (";LAYER:".toList ++ formatInt layerNr)] ++
  (if layerNr > 0 then [.disableExtrudeSpeedOverride, .setExtrudeSpeed o.print.layerSpeed] else []) ++
  (match o.filament.fanSpeed layerNr with
   | some fanSpeed =>
     if fanSpeed = 0 then [.command "M107 ; disable fan".toList]
     else [.text ("M106 S".toList ++ formatInt fanSpeed ++ "; change fan speed".toList)]
   | none => []) ++
  (if (layerNr : Int) = o.filament.initialTemperatureLayerCount then
    [.comment "SET_TEMP".toList,
     .text ("M140 S".toList ++ formatInt o.filament.bedTemperature),
     .text ("M104 S".toList ++ formatInt o.filament.hotEndTemperature)]
   else [])

/-- `gcode/renderer/layer.go:25-97` `PreLayer.Render`. -/
def preLayer (o : Options) : Scripts := fun layerNr _ _ _ =>
  { calls :=
      (if layerNr = 0 then preLayerStart o ++ preLayerSettings o
       else if layerNr = 1 then [.setExtrusion o.print.layerThickness o.printer.extrusionWidth]
       else []) ++ preLayerCommon o layerNr }

/-- The calls of `gcode/renderer/layer.go:104-127` `PostLayer.Render` at the last layer. -/
def postLayerEnd (o : Options) : List Call :=
  [.comment "END_GCODE".toList, .setExtrusion o.print.layerThickness o.printer.extrusionWidth] ++
  (if o.printer.forceSafeStartStopGCode then
    (if !hasCodes hotendTempCodes o.printer.endGCode then [.command "M104 S0 ; Set Hot-end to 0C (off)".toList] else []) ++
    (if o.printer.hasHeatedBed && !hasCodes bedTempCodes o.printer.endGCode then [.command "M140 S0 ; Set bed to 0C (off)".toList] else [])
   else []) ++
  o.printer.endGCode.map .command

/-- `gcode/renderer/layer.go:104-127` `PostLayer.Render`. -/
def postLayer (o : Options) : Scripts := fun layerNr maxLayer _ _ =>
  { calls := if (layerNr : Int) = maxLayer then postLayerEnd o else [] }

/-- The calls for one inset part in `gcode/renderer/perimeter.go:16-59` `Perimeter.Render`. -/
def insetPartCalls (o : Options) (layer : Layer) (z : Micrometer) (insetNr : Nat) (p : LayerPart) : List Call :=
  (if insetNr = 0 then [.comment "TYPE:WALL-OUTER".toList, .setExtrudeSpeed o.print.outerPerimeterSpeed]
   else [.comment "TYPE:WALL-INNER".toList, .setExtrudeSpeed o.print.layerSpeed]) ++
  p.holes.map (fun hole => .polygon (some layer.parts) hole z false) ++
  [.polygon (some layer.parts) p.outline z false]

/-- The inset number used in the loop of `gcode/renderer/perimeter.go:16-59` `Perimeter.Render` for a part with `n` insets. -/
def insetOrder (n insetNr : Nat) : Nat := if insetNr + 1 ≥ n then 0 else insetNr + 1

/-- The calls for one part in `gcode/renderer/perimeter.go:16-59` `Perimeter.Render`. -/
def perimeterPartCalls (o : Options) (layer : Layer) (z : Micrometer) (part : List (List LayerPart)) : List Call :=
  (List.range part.length).flatMap fun k =>
    (part.getD (insetOrder part.length k) []).flatMap (insetPartCalls o layer z (insetOrder part.length k))

/-- `gcode/renderer/perimeter.go:16-59` `Perimeter.Render`. -/
def perimeterRenderer (o : Options) : Scripts := fun _ _ layer z =>
  match layer.perimeters with
  | .error f => ⟨[], some f⟩
  | .ok ps => { calls := ps.flatMap (perimeterPartCalls o layer z) }

/-- `gcode/renderer/brim.go:15-35` `Brim.Render`: nothing for nil, else the outlines of all parts (in the order of `ForEach`, C40). -/
def brimRenderer : Scripts := fun _ _ layer z =>
  match layer.brim with
  | .error f => ⟨[], some f⟩
  | .ok [] => ⟨[], none⟩
  | .ok brim =>
    { calls := .comment "TYPE:SKIRT".toList ::
        forEach (fun calls part _ _ _ => (calls ++ [.polygon none part.outline z false], false)) brim [] }

/-- The distance of the first skirt line in `gcode/renderer/skirt.go:24-73` `Skirt.Render`. -/
def skirtDistance (o : Options) : Micrometer :=
  toMicrometer o.print.brimSkirt.skirtDistance + o.printer.extrusionWidth * o.print.brimSkirt.brimCount + o.printer.extrusionWidth

/-- The skirt lines in `gcode/renderer/skirt.go:24-73` `Skirt.Render`. -/
def skirtLines (lib : ClipperLib) (o : Options) (support : List LayerPart) (perimeters : OffsetResult) : List (List LayerPart) :=
  lib.inset ⟨lib.hullOf (support ++ toOneDimension perimeters), []⟩ (-o.printer.extrusionWidth) o.print.brimSkirt.skirtCount
    (skirtDistance o)

/-- `gcode/renderer/skirt.go:24-73` `Skirt.Render`. (The condition for nil also counts empty slices as nil.) -/
def skirtRenderer (lib : ClipperLib) (o : Options) : Scripts := fun layerNr _ layer z =>
  if o.print.brimSkirt.skirtCount = 0 then ⟨[], none⟩
  else if layerNr = 0 then
    match layer.perimeters with
    | .error f => ⟨[], some f⟩
    | .ok perimeters =>
      match layer.fullSupport with
      | .error f => ⟨[], some f⟩
      | .ok support =>
        if support = [] ∧ perimeters = [] then ⟨[], none⟩
        else
          { calls := .comment "TYPE:SKIRT".toList ::
              (skirtLines lib o support perimeters).flatMap fun wall => wall.map fun p => .polygon none p.outline z false }
  else ⟨[], none⟩

/-- An infill pattern: `clip/clip.go:13-17` `Pattern`. -/
abbrev Pattern := Nat → LayerPart → Res Paths

/-- Loop over the parts in `gcode/renderer/infill.go:32-63` `Infill.Render`. -/
def infillCalls (comments : List Str) (fill : Pattern) (layerNr : Nat) (layer : Layer) (z : Micrometer) : List LayerPart → Script
  | [] => ⟨[], none⟩
  | part :: rest =>
    match fill layerNr part with
    | .error f => ⟨comments.map .comment, some f⟩
    | .ok infill =>
      let s := infillCalls comments fill layerNr layer z rest
      ⟨comments.map .comment ++ infill.map (fun path => .polygon (some layer.parts) path z true) ++ s.calls, s.fault⟩

/-- `gcode/renderer/infill.go:32-63` `Infill.Render`; `none` is the nil pattern. -/
def infillRenderer (pattern : Option Pattern) (attrName : String) (comments : List Str) : Scripts := fun layerNr _ layer z =>
  match pattern with
  | none => ⟨[], none⟩
  | some fill =>
    match layer.partsAttribute attrName with
    | .error f => ⟨[], some f⟩
    | .ok infillParts => infillCalls comments fill layerNr layer z infillParts

/-- The patterns of the five infill renderers, as set up by `Init`. -/
structure Patterns where
  support : Option Pattern
  supportInterface : Option Pattern
  bottom : Option Pattern
  top : Option Pattern
  infill : Option Pattern

/-- The renderers which draw, in the order of `goslice.go:31-123` `NewGoSlice`. -/
def drawingRenderers (lib : ClipperLib) (o : Options) (pt : Patterns) : List Scripts :=
  [skirtRenderer lib o, brimRenderer, perimeterRenderer o,
   infillRenderer pt.support "support" ["TYPE:SUPPORT".toList],
   infillRenderer pt.supportInterface "supportInterface" ["TYPE:SUPPORT".toList],
   infillRenderer pt.bottom "bottom" ["TYPE:FILL".toList, "BOTTOM-FILL".toList],
   infillRenderer pt.top "top" ["TYPE:FILL".toList, "TOP-FILL".toList],
   infillRenderer pt.infill "infill" ["TYPE:FILL".toList, "INTERNAL-FILL".toList]]

/-- All renderers in the order of `goslice.go:31-123` `NewGoSlice`. `Init` of the renderers without a pattern does nothing. -/
def standardRenderers (lib : ClipperLib) (o : Options) (pt : Patterns) : List Scripts :=
  [preLayer o] ++ drawingRenderers lib o pt ++ [postLayer o]

end Verif.Model
