import Verif.Spec.GCode
import Verif.Spec.Length
import Verif.Model.Options
import Mathlib.Analysis.Real.Pi.Bounds

/-! # Specification: how much filament a line needs -/
namespace Verif.Spec
open Verif.Model

/-- Cross section of the filament in mm². -/
noncomputable def crossSection (fd : Int) : ℝ := Real.pi * ((fd : ℝ) / 1000 / 2) ^ 2

/-- The volume of a straight line: length times thickness times width times multiplier, in mm³ (all sizes in µm, the multiplier in percent). -/
noncomputable def lineVolume (a b : Pt) (thickness width multiplier : Int) : ℝ :=
  euclid2 (b.x - a.x) (b.y - a.y) / 1000 * ((thickness : ℝ) / 1000) * ((width : ℝ) / 1000) * ((multiplier : ℝ) / 100)

/-- The settings which determine how much filament a line needs are in a sensible range. -/
structure Feeds (o : Options) : Prop where
  diameter : 1 ≤ o.filament.filamentDiameter ∧ o.filament.filamentDiameter ≤ 10 ^ 6
  multiplier : 1 ≤ o.filament.extrusionMultiplier
  first : 1 ≤ o.print.initialLayerThickness ∧ o.print.initialLayerThickness ≤ 2 ^ 53
  thickness : 1 ≤ o.print.layerThickness ∧ o.print.layerThickness ≤ 2 ^ 53
  width : 1 ≤ o.printer.extrusionWidth ∧ o.printer.extrusionWidth ≤ 2 ^ 53

/-- The amount of filament a machine has used: the value of the last E word, 0 before the first one. -/
def GCode.Machine.filament (m : GCode.Machine) : ℚ := m.e.getD 0

end Verif.Spec
