import Verif.Spec.Commands
import Verif.Spec.Frame

/-! # Specification: temperatures and fan speed in force while a layer is printed -/
namespace Verif.Spec
open Verif.Go Verif.Model Verif.Spec.GCode

/-- The fan speed after commands. -/
def fanTarget (cs : List Command) : Option ℚ := (cs.filterMap Command.fan?).getLast?

/-- The line moves the head. -/
def MovesHead (l : Str) : Prop := (split ' ' l).head? = some ['G', '0'] ∨ (split ' ' l).head? = some ['G', '1']

/-- From layer `InitialTemperatureLayerCount` on the normal temperature, before that the one from the start of the print. -/
def temperatureAt (o : Options) (n : Nat) (start : Option ℚ) (normal : Int) : Option ℚ :=
  if 0 ≤ o.filament.initialTemperatureLayerCount ∧ o.filament.initialTemperatureLayerCount ≤ n then some normal else start

/-- The last entry of the fan table for layers up to `n`; the speed from the start of the print if there is none. -/
def fanAt (o : Options) (start : Option ℚ) : Nat → Option ℚ
  | 0 => match o.filament.fanSpeed 0 with
    | some v => some (v : ℚ)
    | none => start
  | n + 1 => match o.filament.fanSpeed (n + 1) with
    | some v => some (v : ℚ)
    | none => fanAt o start n

end Verif.Spec
