import Verif.Model.Calls
import Verif.Model.Options
import Verif.Model.PartitionedLayer

/-! # Model of `gcode/generator.go` -/
namespace Verif.Model
open Verif.Go

/-- The method `Render` of `gcode/generator.go:11-18` `Renderer` for given options: it changes a world (the builder and whatever state the
renderers have) and may fail. Arguments: layer number, maximal layer number, layer, height. -/
abbrev Renderer (W : Type) := W → Nat → Int → Layer → Micrometer → W × Option Fault

section
variable {W : Type}

/-- Inner loop of `gcode/generator.go:62-79` `Generate`. -/
def renderLayer (o : Options) (maxLayer : Int) (layerNr : Nat) (layer : Layer) : List (Renderer W) → W → W × Option Fault
  | [], w => (w, none)
  | r :: rs, w =>
    let z := o.print.initialLayerThickness + (layerNr : Int) * o.print.layerThickness
    match r w layerNr maxLayer layer z with
    | (w, some f) => (w, some f)
    | (w, none) => renderLayer o maxLayer layerNr layer rs w

/-- Outer loop of `gcode/generator.go:62-79` `Generate`. -/
def renderLayers (o : Options) (maxLayer : Int) (rs : List (Renderer W)) : Nat → List Layer → W → W × Option Fault
  | _, [], w => (w, none)
  | layerNr, layer :: layers, w =>
    match renderLayer o maxLayer layerNr layer rs w with
    | (w, some f) => (w, some f)
    | (w, none) => renderLayers o maxLayer rs (layerNr + 1) layers w

/-- `gcode/generator.go:62-79` `Generate`. `reset` puts a new builder into the world (`init`), `text` is `builder.String()`. The result is the
new world, the returned text and the returned error (or panic, then there is no text). The log is in `Model/Log.lean`. -/
def generate (o : Options) (rs : List (Renderer W)) (reset : W → W) (text : W → Str) (layers : List Layer) (w : W) :
    W × Str × Option Fault :=
  let w := reset w
  let maxLayer : Int := layers.length - 1
  match renderLayers o maxLayer rs 0 layers w with
  | (w, some f) => (w, [], some f)
  | (w, none) => (w, text w, none)

end

/-- What a renderer does that never looks at the builder: it makes calls and may then stop with an error. -/
structure Script where
  calls : List Call
  fault : Option Fault := none

/-- Execute calls one after the other until the first error. -/
def execCalls (crossing : List LayerPart → Path → Bool × Bool) : Builder → List Call → Builder × Option Fault
  | g, [] => (g, none)
  | g, c :: cs =>
    match g.exec1 crossing c with
    | .ok g => execCalls crossing g cs
    | .error f => (g, some f)

/-- Execute a script. (The builder is dropped after an error, so it does not matter what a failed call has written.) -/
def Script.run (crossing : List LayerPart → Path → Bool × Bool) (s : Script) (g : Builder) : Builder × Option Fault :=
  match execCalls crossing g s.calls with
  | (g, some f) => (g, some f)
  | (g, none) => (g, s.fault)

/-- A renderer given by its scripts. -/
abbrev Scripts := Nat → Int → Layer → Micrometer → Script

/-- The renderer which executes scripts. -/
def Scripts.renderer (crossing : List LayerPart → Path → Bool × Bool) (s : Scripts) : Renderer Builder :=
  fun g layerNr maxLayer layer z => (s layerNr maxLayer layer z).run crossing g

/-- `Generate` for a generator with renderers given by scripts. The renderers are collected by `gcode/generator.go:37-41` `WithRenderer` in `gcode/generator.go:44-54` `NewGenerator`; `gcode/generator.go:56-58` `init` makes a new builder. -/
def generateScripts (crossing : List LayerPart → Path → Bool × Bool) (o : Options) (rs : List Scripts) (layers : List Layer) (g : Builder) :
    Builder × Str × Option Fault :=
  generate o (rs.map (Scripts.renderer crossing)) (fun _ => newBuilder o.filament.filamentDiameter o.filament.extrusionMultiplier)
    Builder.buf layers g

end Verif.Model
