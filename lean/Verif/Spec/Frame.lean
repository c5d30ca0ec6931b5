import Verif.Model.Renderers

/-! # Specification of the text before and after the layers of a print -/
namespace Verif.Spec
open Verif.Go Verif.Model

/-- What is written for a custom line: it is used as a format (C27: without percent sign it is the line itself and a newline). -/
def customLine (l : Str) : Str := sprintf0 (l.length + 2) (l ++ ['\n'])

/-- The text before the first layer: two comments, the heating commands (only if they are demanded and the custom lines contain none), the custom lines, and the reset of the
E axis. -/
def startText (o : Options) : Str :=
  ";Generated with GoSlice\n;______________________\n".toList ++
  (if o.printer.forceSafeStartStopGCode && o.printer.hasHeatedBed && !hasCodes bedTempCodes o.printer.startGCode then
    ";SET BED TEMP\nM190 S".toList ++ formatInt o.filament.initialBedTemperature ++ " ; heat and wait for bed\n".toList else []) ++
  (if o.printer.forceSafeStartStopGCode && !hasCodes hotendTempCodes o.printer.startGCode then
    ";SET HOTEND TEMP\nM109 S".toList ++ formatInt o.filament.initialHotEndTemperature ++ " ; wait for hot end temperature\n".toList else []) ++
  ";START GCODE\n".toList ++ o.printer.startGCode.flatMap (fun l => customLine (fillTemplates o l)) ++ "G92 E0 ; reset extrusion distance\n".toList

/-- The text after the last layer: a comment, the heaters are switched off (only if it is demanded and the custom lines do not set them), and the custom lines. -/
def endText (o : Options) : Str :=
  ";END_GCODE\n".toList ++
  (if o.printer.forceSafeStartStopGCode && !hasCodes hotendTempCodes o.printer.endGCode then "M104 S0 ; Set Hot-end to 0C (off)\n".toList else []) ++
  (if o.printer.forceSafeStartStopGCode && o.printer.hasHeatedBed && !hasCodes bedTempCodes o.printer.endGCode then
    "M140 S0 ; Set bed to 0C (off)\n".toList else []) ++
  o.printer.endGCode.flatMap customLine

end Verif.Spec
