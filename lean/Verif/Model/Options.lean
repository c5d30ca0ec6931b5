import Verif.Model.Option
import Verif.Model.Micrometer

/-! # Model of the option structures of `data/option.go`

The fields have the values of `DefaultOptions` as defaults. -/
namespace Verif.Model
open Verif.Go

/-- `data/option.go:286-304` `SupportOptions`. Defaults from `data/option.go:390-471` `DefaultOptions`. -/
structure SupportOptions where
  enabled : Bool := false
  thresholdAngle : Int := 60
  topGapLayers : Int := 3
  interfaceLayers : Int := 2
  patternSpacing : Millimeter := 5 / 2
  gap : Millimeter := r32 ((3 : ℚ) / 5)

/-- `data/option.go:307-316` `BrimSkirtOptions`. Defaults from `data/option.go:390-471` `DefaultOptions`. -/
structure BrimSkirtOptions where
  skirtCount : Int := 2
  skirtDistance : Millimeter := 5
  brimCount : Int := 0

/-- `data/option.go:199-246` `PrintOptions`. Defaults from `data/option.go:390-471` `DefaultOptions`. -/
structure PrintOptions where
  initialLayerSpeed : Millimeter := 30
  layerSpeed : Millimeter := 60
  outerPerimeterSpeed : Millimeter := 40
  moveSpeed : Millimeter := 150
  initialLayerThickness : Micrometer := 200
  layerThickness : Micrometer := 200
  insetCount : Int := 2
  infillOverlapPercent : Int := 50
  additionalInternalInfillOverlapPercent : Int := 400
  infillPercent : Int := 20
  infillRotationDegree : Int := 45
  infillZigZag : Bool := false
  numberBottomLayers : Int := 3
  numberTopLayers : Int := 4
  support : SupportOptions := {}
  brimSkirt : BrimSkirtOptions := {}

/-- `data/option.go:249-283` `FilamentOptions`. The fan table is a map from layer number to speed. Defaults from `data/option.go:390-471` `DefaultOptions` and `data/option.go:84-89` `NewDefaultFanSpeedOptions`. -/
structure FilamentOptions where
  filamentDiameter : Micrometer := 1750
  initialBedTemperature : Int := 60
  initialHotEndTemperature : Int := 205
  bedTemperature : Int := 55
  hotEndTemperature : Int := 200
  initialTemperatureLayerCount : Int := 3
  retractionSpeed : Millimeter := 30
  retractionLength : Millimeter := 2
  retractionZHop : Millimeter := 0
  fanSpeed : Lut := fun n => if n = 2 then some 255 else none
  extrusionMultiplier : Int := 100

/-- `data/option.go:324-342` `PrinterOptions`. Defaults from `data/option.go:390-471` `DefaultOptions`; the texts are `data/option.go:134-136` `NewGCodeHunk` of rows. -/
structure PrinterOptions where
  extrusionWidth : Micrometer := 400
  center : Vec3 := ⟨100000, 100000, 0⟩
  forceSafeStartStopGCode : Bool := true
  hasHeatedBed : Bool := true
  startGCode : List Str :=
    [";SET BED TEMP".toList, "M190 S{print_bed_temperature} ; heat and wait for bed".toList, ";SET HOTEND TEMP".toList,
     "M109 S{print_temperature} ; wait for hot end temperature".toList, "M107 ; disable fan".toList, "G1 Z5 F5000 ; lift nozzle".toList]
  endGCode : List Str :=
    ["M107 ; disable fan".toList, "G28 X0  ; home X axis to get head out of the way".toList, "M84 ;steppers off".toList]

/-- `data/option.go:361-374` `SlicingOptions`. Defaults from `data/option.go:390-471` `DefaultOptions`. -/
structure SlicingOptions where
  meldDistance : Micrometer := 30
  joinPolygonSnapDistance : Micrometer := 160
  finishPolygonSnapDistance : Micrometer := 1000

/-- `data/option.go:345-358` `GoSliceOptions`, without the logger. Defaults from `data/option.go:390-471` `DefaultOptions`. -/
structure GoSliceOptions where
  printVersion : Bool := false
  inputFilePath : Str := []
  outputFilePath : Str := []

/-- `data/option.go:377-383` `Options`. `data/option.go:390-471` `DefaultOptions` is `{}`. -/
structure Options where
  slicing : SlicingOptions := {}
  printer : PrinterOptions := {}
  filament : FilamentOptions := {}
  print : PrintOptions := {}
  goSlice : GoSliceOptions := {}

end Verif.Model
