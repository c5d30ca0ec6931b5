import Verif.Model.Builder

/-! # Calls of the public methods of `gcode/builder.go` as data -/
namespace Verif.Model
open Verif.Go

/-- A call of a public method of `gcode/builder.go:15-32` `Builder`. Commands and comments are those without arguments, `text` stands for those
with a constant format. -/
inductive Call where
  | setExtrusion (layerThickness lineWidth : Micrometer)
  | setMoveSpeed (v : Millimeter)
  | setExtrudeSpeed (v : Millimeter)
  | setExtrudeSpeedOverride (v : Millimeter)
  | disableExtrudeSpeedOverride
  | setRetractionSpeed (v : Millimeter)
  | setRetractionAmount (v : Millimeter)
  | setRetractionZHop (v : Millimeter)
  | command (t : Str)
  | comment (t : Str)
  | text (t : Str)
  | moveSpeed (p : Vec3) (extrusion : Millimeter) (speed : Int)
  | move (p : Vec3) (extrusion : Millimeter)
  | polygon (currentLayer : Option (List LayerPart)) (polygon : Path) (z : Micrometer) (isOpen : Bool)

namespace Builder

/-- Execute a call. -/
def exec1 (crossing : List LayerPart → Path → Bool × Bool) (g : Builder) : Call → Res Builder
  | .setExtrusion t w => .ok (g.setExtrusion t w)
  | .setMoveSpeed v => .ok (g.setMoveSpeed v)
  | .setExtrudeSpeed v => .ok (g.setExtrudeSpeed v)
  | .setExtrudeSpeedOverride v => .ok (g.setExtrudeSpeedOverride v)
  | .disableExtrudeSpeedOverride => .ok g.disableExtrudeSpeedOverride
  | .setRetractionSpeed v => .ok (g.setRetractionSpeed v)
  | .setRetractionAmount v => .ok (g.setRetractionAmount v)
  | .setRetractionZHop v => .ok (g.setRetractionZHop v)
  | .command t => .ok (g.addCommand t)
  | .comment t => .ok (g.addComment t)
  | .text t => .ok (g.addText t)
  | .moveSpeed p e s => .ok (g.addMoveSpeed p e s)
  | .move p e => .ok (g.addMove p e)
  | .polygon l p z o => g.addPolygon crossing l p z o

/-- Execute calls one after the other until the first error. -/
def exec (crossing : List LayerPart → Path → Bool × Bool) : Builder → List Call → Res Builder
  | g, [] => .ok g
  | g, c :: cs => do
    let g ← g.exec1 crossing c
    exec crossing g cs

end Builder
end Verif.Model
