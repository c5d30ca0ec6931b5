import Verif.Model.MachineBuilder
import Verif.Model.MachineLinear
import Verif.Model.MachineOptimizer

/-! # The whole program with int64 arithmetic -/
namespace Verif.Model
open Verif.Go

/-- The handlers of `goslice.go:31-123` `NewGoSlice` with int64 arithmetic. -/
def standardHandlersM (ext : Externals) (o : Options) : Handlers World Mesh OptModel (List Layer) where
  read := readModel ext.stl
  describe m := pureAct (describeMesh m)
  optimize m := pureAct (optimizeM o m)
  slice om := pureAct (sliceM ext.lib o om)
  modifiers := (standardModifiersM ext.lib ext.tan o).map fun m => { init := fun _ => pureAct (.ok ()), modify := fun ls => pureAct (m ls) }
  generatorInit om := fun w =>
    match initPatternsM ext.lib ext.trig o om with
    | .error e => (w, .error e)
    | .ok p => ({ w with patterns := p }, .ok ())
  generate ls := fun w =>
    match (generateScriptsM ext.lib.isCrossingPerimeter o (standardRenderersM ext.lib o w.patterns) ls
        (newBuilder o.filament.filamentDiameter o.filament.extrusionMultiplier)).2 with
    | (_, some e) => (w, .error e)
    | (t, none) => (w, .ok t)
  write := writeFile

/-- The whole program (`goslice.go:125-185` `Process` with the built in handlers) with int64 arithmetic. -/
def goSliceM (ext : Externals) (o : Options) : Act World Unit := process o.goSlice (standardHandlersM ext o)

end Verif.Model
