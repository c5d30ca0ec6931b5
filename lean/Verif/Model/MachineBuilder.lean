import Verif.Model.MachineModifiers
import Verif.Model.Renderers

/-! # `gcode` with int64 arithmetic

The functions of `Verif.Model.Builder`, `Verif.Model.Generator` and `Verif.Model.Renderers` which compute with integers, with the wrap-around of Go's `int64`
(and `int`, which has 64 bits too). The other renderers have no integer arithmetic. -/
namespace Verif.Model
open Verif.Go

namespace Builder

/-- `gcode/builder.go:93-131` `AddMoveSpeed` with int64 arithmetic. -/
def addMoveSpeedM (g : Builder) (p : Vec3) (extrusion : Millimeter) (speed : Int) : Builder :=
  let notFirstMove := g.notFirstMoveX || g.notFirstMoveY || g.notFirstMoveZ
  if notFirstMove ∧ g.currentPosition.x = p.x ∧ g.currentPosition.y = p.y ∧ g.currentPosition.z = p.z ∧ extrusion = 0 then g
  else
    let g := if extrusion ≠ 0 then { g with buf := g.buf ++ ['G', '1'] } else { g with buf := g.buf ++ ['G', '0'] }
    let g := if p.x ≠ g.currentPosition.x ∨ !g.notFirstMoveX then
      { g with buf := g.buf ++ ' ' :: 'X' :: formatFixed 2 (toMillimeter p.x), notFirstMoveX := true } else g
    let g := if p.y ≠ g.currentPosition.y ∨ !g.notFirstMoveY then
      { g with buf := g.buf ++ ' ' :: 'Y' :: formatFixed 2 (toMillimeter p.y), notFirstMoveY := true } else g
    let g := if p.z ≠ g.currentPosition.z ∨ !g.notFirstMoveZ then
      { g with buf := g.buf ++ ' ' :: 'Z' :: formatFixed 2 (toMillimeter p.z), notFirstMoveZ := true } else g
    let g := if g.currentSpeed ≠ speed then
      { g with buf := g.buf ++ ' ' :: 'F' :: formatInt (wrap (speed * 60)), currentSpeed := speed } else g
    let g := { g with extrusionAmount := r32 (g.extrusionAmount + extrusion) }
    let g := if extrusion ≠ 0 then { g with buf := g.buf ++ ' ' :: 'E' :: formatFixed 4 g.extrusionAmount } else g
    { g with buf := g.buf ++ ['\n'], currentPosition := p }

/-- `gcode/builder.go:133-147` `AddMove` with int64 arithmetic. -/
def addMoveM (g : Builder) (p : Vec3) (extrusion : Millimeter) : Builder :=
  let speed := if extrusion ≠ 0 then (if g.extrudeSpeedOverride ≤ 0 then g.extrudeSpeed else g.extrudeSpeedOverride) else g.moveSpeed
  g.addMoveSpeedM p extrusion speed

/-- The extruding moves of the loop in `gcode/builder.go:149-239` `AddPolygon` with int64 arithmetic. -/
def addLinesM (z : Micrometer) : Builder → Pt → Path → Builder
  | g, _, [] => g
  | g, prev, p :: rest =>
    addLinesM z (g.addMoveM ⟨p.x, p.y, z⟩ (r32 ((subM p prev).sizeMM * g.extrusionPerMM))) p rest

/-- The travel of `gcode/builder.go:149-239` `AddPolygon` to its first point with int64 arithmetic. -/
def addTravelM (g : Builder) (p0 : Pt) (z : Micrometer) (isCrossing : Bool) : Builder :=
  let zMove := if isCrossing ∧ g.zHopOnRetract > 0 then wrap (z + toMicrometer g.zHopOnRetract) else z
  let g := if isCrossing then
      let g := g.addMoveSpeedM g.currentPosition (-g.retractionAmount) g.retractionSpeed
      if g.zHopOnRetract > 0 then g.addMoveM ⟨g.currentPosition.x, g.currentPosition.y, zMove⟩ 0 else g
    else g
  let g := g.addMoveM ⟨p0.x, p0.y, zMove⟩ 0
  if isCrossing then
    let g := if g.zHopOnRetract > 0 then g.addMoveM ⟨p0.x, p0.y, z⟩ 0 else g
    g.addMoveSpeedM g.currentPosition g.retractionAmount g.retractionSpeed
  else g

/-- `gcode/builder.go:149-239` `AddPolygon` with int64 arithmetic. -/
def addPolygonM (crossing : List LayerPart → Path → Bool × Bool) (g : Builder) (currentLayer : Option (List LayerPart)) (polygon : Path)
    (z : Micrometer) (isOpen : Bool) : Res Builder :=
  if polygon.length = 0 then .ok g
  else
    match douglasPeuckerM polygon (-1) with
    | [] => .error (.panic "index out of range")
    | p0 :: rest => do
      let isCrossing ← g.crossingTest crossing currentLayer p0
      let g := addLinesM z (g.addTravelM p0 z isCrossing) p0 rest
      if isOpen then return g
      else
        let pointLast := (p0 :: rest).getLast (by simp)
        return g.addMoveM ⟨p0.x, p0.y, z⟩ (r32 ((subM p0 pointLast).sizeMM * g.extrusionPerMM))

/-- Execute a call of a method of `gcode/builder.go:15-32` `Builder` with int64 arithmetic. -/
def exec1M (crossing : List LayerPart → Path → Bool × Bool) (g : Builder) : Call → Res Builder
  | .setExtrusion t w => .ok (g.setExtrusion t w)
  | .setMoveSpeed v => .ok (g.setMoveSpeed v)
  | .setExtrudeSpeed v => .ok (g.setExtrudeSpeed v)
  | .setExtrudeSpeedOverride v => .ok (g.setExtrudeSpeedOverride v)
  | .disableExtrudeSpeedOverride => .ok g.disableExtrudeSpeedOverride
  | .setRetractionSpeed v => .ok (g.setRetractionSpeed v)
  | .setRetractionAmount v => .ok (g.setRetractionAmount v)
  | .setRetractionZHop v => .ok (g.setRetractionZHop v)
  | .command t => .ok (g.addCommand t)
  | .comment t => .ok (g.addComment t)
  | .text t => .ok (g.addText t)
  | .moveSpeed p e s => .ok (g.addMoveSpeedM p e s)
  | .move p e => .ok (g.addMoveM p e)
  | .polygon l p z o => g.addPolygonM crossing l p z o

end Builder

/-- Execute calls one after the other until the first error, with int64 arithmetic. -/
def execCallsM (crossing : List LayerPart → Path → Bool × Bool) : Builder → List Call → Builder × Option Fault
  | g, [] => (g, none)
  | g, c :: cs =>
    match g.exec1M crossing c with
    | .ok g => execCallsM crossing g cs
    | .error f => (g, some f)

/-- Execute a script with int64 arithmetic. -/
def Script.runM (crossing : List LayerPart → Path → Bool × Bool) (s : Script) (g : Builder) : Builder × Option Fault :=
  match execCallsM crossing g s.calls with
  | (g, some f) => (g, some f)
  | (g, none) => (g, s.fault)

/-- The renderer which executes scripts with int64 arithmetic. -/
def Scripts.rendererM (crossing : List LayerPart → Path → Bool × Bool) (s : Scripts) : Renderer Builder :=
  fun g layerNr maxLayer layer z => (s layerNr maxLayer layer z).runM crossing g

section
variable {W : Type}

/-- Inner loop of `gcode/generator.go:62-79` `Generate` with int64 arithmetic. -/
def renderLayerM (o : Options) (maxLayer : Int) (layerNr : Nat) (layer : Layer) : List (Renderer W) → W → W × Option Fault
  | [], w => (w, none)
  | r :: rs, w =>
    let z := wrap (o.print.initialLayerThickness + wrap ((layerNr : Int) * o.print.layerThickness))
    match r w layerNr maxLayer layer z with
    | (w, some f) => (w, some f)
    | (w, none) => renderLayerM o maxLayer layerNr layer rs w

/-- Outer loop of `gcode/generator.go:62-79` `Generate` with int64 arithmetic. -/
def renderLayersM (o : Options) (maxLayer : Int) (rs : List (Renderer W)) : Nat → List Layer → W → W × Option Fault
  | _, [], w => (w, none)
  | layerNr, layer :: layers, w =>
    match renderLayerM o maxLayer layerNr layer rs w with
    | (w, some f) => (w, some f)
    | (w, none) => renderLayersM o maxLayer rs (layerNr + 1) layers w

/-- `gcode/generator.go:62-79` `Generate` with int64 arithmetic. -/
def generateM (o : Options) (rs : List (Renderer W)) (reset : W → W) (text : W → Str) (layers : List Layer) (w : W) :
    W × Str × Option Fault :=
  let w := reset w
  let maxLayer : Int := layers.length - 1
  match renderLayersM o maxLayer rs 0 layers w with
  | (w, some f) => (w, [], some f)
  | (w, none) => (w, text w, none)

end

/-- `Generate` for a generator with renderers given by scripts, with int64 arithmetic. -/
def generateScriptsM (crossing : List LayerPart → Path → Bool × Bool) (o : Options) (rs : List Scripts) (layers : List Layer) (g : Builder) :
    Builder × Str × Option Fault :=
  generateM o (rs.map (Scripts.rendererM crossing)) (fun _ => newBuilder o.filament.filamentDiameter o.filament.extrusionMultiplier)
    Builder.buf layers g

/-- The distance of the first skirt line in `gcode/renderer/skirt.go:24-73` `Skirt.Render` with int64 arithmetic. -/
def skirtDistanceM (o : Options) : Micrometer :=
  wrap (wrap (toMicrometer o.print.brimSkirt.skirtDistance + wrap (o.printer.extrusionWidth * o.print.brimSkirt.brimCount)) + o.printer.extrusionWidth)

/-- The skirt lines in `gcode/renderer/skirt.go:24-73` `Skirt.Render` with int64 arithmetic. -/
def skirtLinesM (lib : ClipperLib) (o : Options) (support : List LayerPart) (perimeters : OffsetResult) : List (List LayerPart) :=
  lib.insetM ⟨lib.hullOf (support ++ toOneDimension perimeters), []⟩ (wrap (-o.printer.extrusionWidth)) o.print.brimSkirt.skirtCount
    (skirtDistanceM o)

/-- `gcode/renderer/skirt.go:24-73` `Skirt.Render` with int64 arithmetic. -/
def skirtRendererM (lib : ClipperLib) (o : Options) : Scripts := fun layerNr _ layer z =>
  if o.print.brimSkirt.skirtCount = 0 then ⟨[], none⟩
  else if layerNr = 0 then
    match layer.perimeters with
    | .error f => ⟨[], some f⟩
    | .ok perimeters =>
      match layer.fullSupport with
      | .error f => ⟨[], some f⟩
      | .ok support =>
        if support = [] ∧ perimeters = [] then ⟨[], none⟩
        else
          { calls := .comment "TYPE:SKIRT".toList ::
              (skirtLinesM lib o support perimeters).flatMap fun wall => wall.map fun p => .polygon none p.outline z false }
  else ⟨[], none⟩

/-- The renderers which draw, in the order of `goslice.go:31-123` `NewGoSlice`, with int64 arithmetic. -/
def drawingRenderersM (lib : ClipperLib) (o : Options) (pt : Patterns) : List Scripts :=
  [skirtRendererM lib o, brimRenderer, perimeterRenderer o,
   infillRenderer pt.support "support" ["TYPE:SUPPORT".toList],
   infillRenderer pt.supportInterface "supportInterface" ["TYPE:SUPPORT".toList],
   infillRenderer pt.bottom "bottom" ["TYPE:FILL".toList, "BOTTOM-FILL".toList],
   infillRenderer pt.top "top" ["TYPE:FILL".toList, "TOP-FILL".toList],
   infillRenderer pt.infill "infill" ["TYPE:FILL".toList, "INTERNAL-FILL".toList]]

/-- All renderers in the order of `goslice.go:31-123` `NewGoSlice`, with int64 arithmetic. -/
def standardRenderersM (lib : ClipperLib) (o : Options) (pt : Patterns) : List Scripts :=
  [preLayer o] ++ drawingRenderersM lib o pt ++ [postLayer o]

end Verif.Model
