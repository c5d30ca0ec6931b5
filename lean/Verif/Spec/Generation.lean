import Verif.Model.Generator

/-! # Specification: what the generator has to ask its renderers for -/
namespace Verif.Spec
open Verif.Go Verif.Model

/-- A call of a renderer: the number of the renderer and the arguments. -/
structure Event where
  renderer : Nat
  layerNr : Nat
  maxLayer : Int
  layer : Layer
  z : Int

/-- The height of a layer: the first layer has its own thickness. -/
def layerHeight (o : Options) (n : Nat) : Int := o.print.initialLayerThickness + n * o.print.layerThickness

/-- All renderers for layer `n`. -/
def layerEvents (o : Options) (maxLayer : Int) (renderers : Nat) (n : Nat) (l : Layer) : List Event :=
  (List.range renderers).map fun i => ⟨i, n, maxLayer, l, layerHeight o n⟩

/-- The calls that have to be made: layer by layer all renderers in order. -/
def allEvents (o : Options) (renderers : Nat) (layers : List Layer) : List Event :=
  layers.zipIdx.flatMap fun x => layerEvents o (layers.length - 1) renderers x.2 x.1

section
variable {W : Type}

/-- A renderer which additionally writes its calls to a log. -/
def logged (i : Nat) (r : Renderer W) : Renderer (W × List Event) := fun w n m l z =>
  (((r w.1 n m l z).1, w.2 ++ [⟨i, n, m, l, z⟩]), (r w.1 n m l z).2)

/-- All renderers with a log. -/
def loggedAll (rs : List (Renderer W)) : List (Renderer (W × List Event)) := rs.zipIdx.map fun x => logged x.2 x.1

/-- Make calls until the first failure. -/
def playback (rs : List (Renderer W)) : List Event → W → W × Option Fault
  | [], w => (w, none)
  | e :: es, w =>
    match rs[e.renderer]? with
    | none => playback rs es w
    | some r =>
      match r w e.layerNr e.maxLayer e.layer e.z with
      | (w, some f) => (w, some f)
      | (w, none) => playback rs es w

end

/-- The scripts for all layers and renderers, in order. -/
def allScripts (o : Options) (rs : List Scripts) (layers : List Layer) : List Script :=
  layers.zipIdx.flatMap fun x => rs.map fun r => r x.2 (layers.length - 1) x.1 (layerHeight o x.2)

end Verif.Spec
