import Verif.Spec.Number
import Verif.Model.Options
import Mathlib.Data.Rat.Defs
import Mathlib.Algebra.Field.Rat
import Mathlib.Algebra.Order.Ring.Unbundled.Rat

/-! # Specification of the command line -/
namespace Verif.Spec
open Verif.Go Verif.Model

/-- An exponent of a decimal number with its value; it may be missing. -/
def ExpLit (s : Str) (e : Int) : Prop :=
  s = [] ∧ e = 0 ∨ ∃ c t u, s = c :: t ∧ (c = 'e' ∨ c = 'E') ∧
    ((t = u ∨ t = '+' :: u) ∧ UDec u e.natAbs ∧ 0 ≤ e ∨ t = '-' :: u ∧ UDec u e.natAbs ∧ e ≤ 0)

/-- A decimal number with its value: sign, digits with at most one point, exponent. -/
def DecLit (s : Str) (x : ℚ) : Prop :=
  ∃ (sign : Str) (σ : ℚ) (a b ex : Str) (n : Nat) (e : Int),
    (sign = [] ∧ σ = 1 ∨ sign = ['+'] ∧ σ = 1 ∨ sign = ['-'] ∧ σ = -1) ∧
    (s = sign ++ (a ++ ex) ∧ b = [] ∨ s = sign ++ (a ++ '.' :: (b ++ ex))) ∧
    UDec (a ++ b) n ∧ ExpLit ex e ∧ x = σ * n * 10 ^ (e - (b.length : Int))

/-- An exponent of a hexadecimal number: like that of a decimal number, with another letter. -/
def HexExp (s : Str) (e : Int) : Prop := ∃ c t, s = c :: t ∧ (c = 'p' ∨ c = 'P') ∧ ExpLit ('e' :: t) e

/-- A hexadecimal number with its value, without sign and prefix: digits with at most one point, exponent to the base 2. -/
def HexLit (s : Str) (x : ℚ) : Prop :=
  ∃ (a b ex : Str) (n : Nat) (e : Int), (s = a ++ ex ∧ b = [] ∨ s = a ++ '.' :: (b ++ ex)) ∧ a ++ b ≠ [] ∧ IsNumeral 16 (a ++ b) n ∧ HexExp ex e ∧
    x = n * 2 ^ (e - 4 * (b.length : Int))

/-- Each underscore is between two digits of the base `b`. -/
def BetweenDigits (b : Nat) (s : Str) : Prop :=
  ∀ l r, s = l ++ '_' :: r → (∃ c d, l.getLast? = some c ∧ numeral c = some d ∧ d < b) ∧ ∃ c d, r.head? = some c ∧ numeral c = some d ∧ d < b

/-- A number in Go syntax with its value: decimal, or hexadecimal with the prefix `0x`, with underscores between the digits. The prefix counts as a digit. -/
def FloatLit (s : Str) (x : ℚ) : Prop :=
  BetweenDigits 10 s ∧ DecLit (s.filter (· ≠ '_')) x ∨
  ∃ (sign : Str) (σ : ℚ) (p : Char) (t : Str) (y : ℚ), (sign = [] ∧ σ = 1 ∨ sign = ['+'] ∧ σ = 1 ∨ sign = ['-'] ∧ σ = -1) ∧ s = sign ++ '0' :: p :: t ∧ (p = 'x' ∨ p = 'X') ∧
    BetweenDigits 16 ('0' :: t) ∧ HexLit (t.filter (· ≠ '_')) y ∧ x = σ * y

/-- The value of an option, whatever its type. -/
inductive OptionValue where
  | bool (v : Bool)
  | int (v : Int)
  | string (v : Str)
  | length (v : Millimeter)
  | vec3 (v : Vec3)
  | fan (v : Int → Option Int)
  | hunk (v : List Str)

/-- The option which a flag is for. -/
def optionOf (o : Options) : String → Option OptionValue
  | "version" => some (.bool o.goSlice.printVersion)
  | "output" => some (.string o.goSlice.outputFilePath)
  | "meld-distance" => some (.int o.slicing.meldDistance)
  | "join-polygon-snap-distance" => some (.int o.slicing.joinPolygonSnapDistance)
  | "finish-polygon-snap-distance" => some (.int o.slicing.finishPolygonSnapDistance)
  | "initial-layer-speed" => some (.length o.print.initialLayerSpeed)
  | "layer-speed" => some (.length o.print.layerSpeed)
  | "outer-perimeter-speed" => some (.length o.print.outerPerimeterSpeed)
  | "move-speed" => some (.length o.print.moveSpeed)
  | "initial-layer-thickness" => some (.int o.print.initialLayerThickness)
  | "layer-thickness" => some (.int o.print.layerThickness)
  | "inset-count" => some (.int o.print.insetCount)
  | "infill-overlap-percent" => some (.int o.print.infillOverlapPercent)
  | "additional-internal-infill-overlap-percent" => some (.int o.print.additionalInternalInfillOverlapPercent)
  | "infill-percent" => some (.int o.print.infillPercent)
  | "infill-rotation-degree" => some (.int o.print.infillRotationDegree)
  | "infill-zig-zag" => some (.bool o.print.infillZigZag)
  | "number-bottom-layers" => some (.int o.print.numberBottomLayers)
  | "number-top-layers" => some (.int o.print.numberTopLayers)
  | "support-enabled" => some (.bool o.print.support.enabled)
  | "support-threshold-angle" => some (.int o.print.support.thresholdAngle)
  | "support-top-gap-layers" => some (.int o.print.support.topGapLayers)
  | "support-interface-layers" => some (.int o.print.support.interfaceLayers)
  | "support-pattern-spacing" => some (.length o.print.support.patternSpacing)
  | "support-gap" => some (.length o.print.support.gap)
  | "skirt-count" => some (.int o.print.brimSkirt.skirtCount)
  | "skirt-distance" => some (.length o.print.brimSkirt.skirtDistance)
  | "brim-count" => some (.int o.print.brimSkirt.brimCount)
  | "filament-diameter" => some (.int o.filament.filamentDiameter)
  | "initial-bed-temperature" => some (.int o.filament.initialBedTemperature)
  | "initial-hot-end-temperature" => some (.int o.filament.initialHotEndTemperature)
  | "bed-temperature" => some (.int o.filament.bedTemperature)
  | "hot-end-temperature" => some (.int o.filament.hotEndTemperature)
  | "initial-temperature-layer-count" => some (.int o.filament.initialTemperatureLayerCount)
  | "retraction-speed" => some (.length o.filament.retractionSpeed)
  | "retraction-length" => some (.length o.filament.retractionLength)
  | "retraction-z-hop" => some (.length o.filament.retractionZHop)
  | "fan-speed" => some (.fan o.filament.fanSpeed)
  | "extrusion-multiplier" => some (.int o.filament.extrusionMultiplier)
  | "extrusion-width" => some (.int o.printer.extrusionWidth)
  | "center" => some (.vec3 o.printer.center)
  | "force-safe-gcode" => some (.bool o.printer.forceSafeStartStopGCode)
  | "has-heated-bed" => some (.bool o.printer.hasHeatedBed)
  | "start-gcode" => some (.hunk o.printer.startGCode)
  | "end-gcode" => some (.hunk o.printer.endGCode)
  | _ => none

/-- The default value of each flag. (0.6 mm is rounded to the next float32.) -/
def defaultOf : String → Option OptionValue
  | "version" => some (.bool false)
  | "output" => some (.string [])
  | "meld-distance" => some (.int 30)
  | "join-polygon-snap-distance" => some (.int 160)
  | "finish-polygon-snap-distance" => some (.int 1000)
  | "initial-layer-speed" => some (.length 30)
  | "layer-speed" => some (.length 60)
  | "outer-perimeter-speed" => some (.length 40)
  | "move-speed" => some (.length 150)
  | "initial-layer-thickness" => some (.int 200)
  | "layer-thickness" => some (.int 200)
  | "inset-count" => some (.int 2)
  | "infill-overlap-percent" => some (.int 50)
  | "additional-internal-infill-overlap-percent" => some (.int 400)
  | "infill-percent" => some (.int 20)
  | "infill-rotation-degree" => some (.int 45)
  | "infill-zig-zag" => some (.bool false)
  | "number-bottom-layers" => some (.int 3)
  | "number-top-layers" => some (.int 4)
  | "support-enabled" => some (.bool false)
  | "support-threshold-angle" => some (.int 60)
  | "support-top-gap-layers" => some (.int 3)
  | "support-interface-layers" => some (.int 2)
  | "support-pattern-spacing" => some (.length (5 / 2))
  | "support-gap" => some (.length (r32 ((3 : ℚ) / 5)))
  | "skirt-count" => some (.int 2)
  | "skirt-distance" => some (.length 5)
  | "brim-count" => some (.int 0)
  | "filament-diameter" => some (.int 1750)
  | "initial-bed-temperature" => some (.int 60)
  | "initial-hot-end-temperature" => some (.int 205)
  | "bed-temperature" => some (.int 55)
  | "hot-end-temperature" => some (.int 200)
  | "initial-temperature-layer-count" => some (.int 3)
  | "retraction-speed" => some (.length 30)
  | "retraction-length" => some (.length 2)
  | "retraction-z-hop" => some (.length 0)
  | "fan-speed" => some (.fan fun n => if n = 2 then some 255 else none)
  | "extrusion-multiplier" => some (.int 100)
  | "extrusion-width" => some (.int 400)
  | "center" => some (.vec3 ⟨100000, 100000, 0⟩)
  | "force-safe-gcode" => some (.bool true)
  | "has-heated-bed" => some (.bool true)
  | "start-gcode" => some (.hunk [";SET BED TEMP".toList, "M190 S{print_bed_temperature} ; heat and wait for bed".toList, ";SET HOTEND TEMP".toList,
      "M109 S{print_temperature} ; wait for hot end temperature".toList, "M107 ; disable fan".toList, "G1 Z5 F5000 ; lift nozzle".toList])
  | "end-gcode" => some (.hunk ["M107 ; disable fan".toList, "G28 X0  ; home X axis to get head out of the way".toList, "M84 ;steppers off".toList])
  | _ => none

end Verif.Spec
