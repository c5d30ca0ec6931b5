import Verif.Spec.GCode
import Verif.Model.Options

/-! # Specification: the options which say how something is printed, not what -/
namespace Verif.Spec
open Verif.Go Verif.Model Verif.Spec.GCode

/-- The speeds, the temperatures, the fan, the additional commands before and after the print, and the options of the program itself. -/
structure Manner where
  initialLayerSpeed : ℚ
  layerSpeed : ℚ
  outerPerimeterSpeed : ℚ
  moveSpeed : ℚ
  retractionSpeed : ℚ
  initialBedTemperature : Int
  initialHotEndTemperature : Int
  bedTemperature : Int
  hotEndTemperature : Int
  initialTemperatureLayerCount : Int
  fanSpeed : Lut
  forceSafeStartStopGCode : Bool
  hasHeatedBed : Bool
  startGCode : List Str
  endGCode : List Str
  goSlice : GoSliceOptions

/-- The same options, only printed in another manner. -/
def inManner (o : Options) (m : Manner) : Options :=
  { o with
    print := { o.print with
      initialLayerSpeed := m.initialLayerSpeed, layerSpeed := m.layerSpeed, outerPerimeterSpeed := m.outerPerimeterSpeed, moveSpeed := m.moveSpeed }
    filament := { o.filament with
      retractionSpeed := m.retractionSpeed, initialBedTemperature := m.initialBedTemperature
      initialHotEndTemperature := m.initialHotEndTemperature, bedTemperature := m.bedTemperature, hotEndTemperature := m.hotEndTemperature
      initialTemperatureLayerCount := m.initialTemperatureLayerCount, fanSpeed := m.fanSpeed }
    printer := { o.printer with
      forceSafeStartStopGCode := m.forceSafeStartStopGCode, hasHeatedBed := m.hasHeatedBed, startGCode := m.startGCode, endGCode := m.endGCode }
    goSlice := m.goSlice }

/-- A move without its feed rate. -/
def withoutFeed (mv : Move) : Move := { mv with after := { mv.after with f := none } }

end Verif.Spec
