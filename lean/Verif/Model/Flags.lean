import Verif.Model.Options
import Verif.Model.Process

/-! # Model of `ParseFlags` in `data/option.go` and of `cmd/goslice/main.go`

The package pflag is modelled as far as the code depends on it: it splits the command line into settings (name of a flag and text of its
value) and other arguments, calls `Set` for each setting in order, and ends the program with status 2 at the first problem. How it
splits the command line is in `Model/Args.lean`. -/
namespace Verif.Model
open Verif.Go

/-- An optional sign: whether it is `-`, and the rest. -/
def readSign : Str → Bool × Str
  | '-' :: s => (true, s)
  | '+' :: s => (false, s)
  | s => (false, s)

/-- The digits at the beginning. -/
def leadingDigits (s : Str) : Str × Str := s.span Char.isDigit

/-- The exponent in `strconv.ParseFloat`: 0 if there is none, `none` for a syntax error. The limit for exponents is modelled in `expVal`. -/
def readExponent : Str → Option Int
  | [] => some 0
  | c :: s =>
    if c = 'e' ∨ c = 'E' then
      let r := readSign s
      if r.2 = [] ∨ !r.2.all Char.isDigit then none
      else some (if r.1 then -(digitsVal r.2 : Int) else digitsVal r.2)
    else none

/-- The digits after a point, if there is one. -/
def readFraction : Str → Str × Str
  | '.' :: s => leadingDigits s
  | s => ([], s)

/-- Decimal numbers in `strconv.ParseFloat`: the exact value, `none` for a syntax error. -/
def readDecimal (s : Str) : Option ℚ :=
  let sign := readSign s
  let int := leadingDigits sign.2
  let frac := readFraction int.2
  if int.1 = [] ∧ frac.1 = [] then none
  else (readExponent frac.2).map fun e =>
    (if sign.1 then -1 else 1) * (digitsVal (int.1 ++ frac.1) : ℚ) * 10 ^ (e - (frac.1.length : Int))

/-- A hexadecimal digit. -/
def isHexDigit (c : Char) : Bool := ('0' ≤ c ∧ c ≤ '9') ∨ ('a' ≤ c ∧ c ≤ 'f') ∨ ('A' ≤ c ∧ c ≤ 'F')

/-- The hexadecimal digits at the beginning. -/
def leadingHex (s : Str) : Str × Str := s.span isHexDigit

/-- The value of hexadecimal digits. -/
def hexVal (s : Str) : Nat := s.foldl (fun n c => n * 16 + (digitVal c).getD 0) 0

/-- The exponent of a hexadecimal number in `strconv.ParseFloat`; it has to be there. After the letter it is like that of a decimal number. -/
def readHexExponent : Str → Option Int
  | [] => none
  | c :: s => if c = 'p' ∨ c = 'P' then readExponent ('e' :: s) else none

/-- The hexadecimal digits after a point, if there is one. -/
def readHexFraction : Str → Str × Str
  | '.' :: s => leadingHex s
  | s => ([], s)

/-- Hexadecimal numbers in `strconv.ParseFloat`, after the prefix: the exact value, `none` for a syntax error. -/
def readHex (s : Str) : Option ℚ :=
  let int := leadingHex s
  let frac := readHexFraction int.2
  if int.1 = [] ∧ frac.1 = [] then none
  else (readHexExponent frac.2).map fun e => (hexVal (int.1 ++ frac.1) : ℚ) * 2 ^ (e - 4 * (frac.1.length : Int))

/-- The numbers in `strconv.ParseFloat`: the exact value, `none` for a syntax error. Go skips underscores while it reads, and checks them with `underscoreOK` at the end;
here they are checked first and then removed. A text which Go refuses because of the place of an underscore in the exponent is refused by the check. -/
def readFloat (s : Str) : Option ℚ :=
  let sign := readSign s
  if '_' ∈ s ∧ !underscoreOK sign.2 then none
  else
    match sign.2 with
    | '0' :: c :: d :: t =>
      if c = 'x' ∨ c = 'X' then (readHex ((d :: t).filter (· ≠ '_'))).map fun x => (if sign.1 then -1 else 1) * x
      else readDecimal (s.filter (· ≠ '_'))
    | _ => readDecimal (s.filter (· ≠ '_'))

/-- `strconv.ParseFloat(s, 32)`: value and error. The texts for infinity and NaN, which Go accepts, are a syntax error here (see `parseFloat32Full`). The infinite
value in case of a range error is not modelled (0 here). -/
def parseFloat32 (s : Str) : ℚ × Option NumError :=
  match readFloat s with
  | none => (0, some .syntaxError)
  | some x => if |r32 x| < 2 ^ 128 then (r32 x, none) else (0, some .range)

/-- `data/option.go:32-34` `Millimeter.String`. -/
def millimeterString (m : Millimeter) : Str := formatFixed 3 m

/-- `data/option.go:36-40` `Millimeter.Set`: the new value and the error. -/
def millimeterSet (s : Str) : Millimeter × Option NumError := parseFloat32 s

/-- `strconv.ParseBool`. -/
def parseBool (s : Str) : Bool × Option NumError :=
  if s ∈ ["1", "t", "T", "TRUE", "true", "True"].map String.toList then (true, none)
  else if s ∈ ["0", "f", "F", "FALSE", "false", "False"].map String.toList then (false, none)
  else (false, some .syntaxError)

/-- The types of options. -/
inductive Kind where
  | bool
  | int
  | string
  | micrometer
  | millimeter
  | vec3
  | fan
  | hunk
deriving DecidableEq

/-- The values of options. -/
def Kind.Val : Kind → Type
  | .bool => Bool
  | .int => Int
  | .string => Str
  | .micrometer => Micrometer
  | .millimeter => Millimeter
  | .vec3 => Vec3
  | .fan => Lut
  | .hunk => List Str

/-- The method `Set` of an option with the old value `v`: the new value and whether there is an error. For the types bool, int and string it is
that of pflag (`strconv.ParseBool`, `strconv.ParseInt` with base 0, no conversion). -/
def Kind.set : (k : Kind) → k.Val → Str → k.Val × Bool
  | .bool, _, s => ((parseBool s).1, (parseBool s).2.isSome)
  | .int, _, s => ((parseInt true s).1, (parseInt true s).2.isSome)
  | .string, _, s => (s, false)
  | .micrometer, _, s => ((micrometerSet s).1, (micrometerSet s).2.isSome)
  | .millimeter, _, s => ((millimeterSet s).1, (millimeterSet s).2.isSome)
  | .vec3, v, s => vec3Set v s
  | .fan, f, s => fanSet f s
  | .hunk, l, s => hunkSet l s

/-- The variables changed by flags in `data/option.go:475-557` `ParseFlags`. -/
structure FlagState where
  options : Options
  center : Vec3

/-- A flag: name, type and the variable it is bound to. -/
structure Flag where
  name : String
  kind : Kind
  get : FlagState → kind.Val
  put : FlagState → kind.Val → FlagState

section
/-- Change the slicing options. -/
def FlagState.slicing (s : FlagState) (f : SlicingOptions → SlicingOptions) : FlagState :=
  { s with options := { s.options with slicing := f s.options.slicing } }
/-- Change the print options. -/
def FlagState.print (s : FlagState) (f : PrintOptions → PrintOptions) : FlagState :=
  { s with options := { s.options with print := f s.options.print } }
/-- Change the support options. -/
def FlagState.support (s : FlagState) (f : SupportOptions → SupportOptions) : FlagState :=
  s.print fun p => { p with support := f p.support }
/-- Change the options for brim and skirt. -/
def FlagState.brimSkirt (s : FlagState) (f : BrimSkirtOptions → BrimSkirtOptions) : FlagState :=
  s.print fun p => { p with brimSkirt := f p.brimSkirt }
/-- Change the filament options. -/
def FlagState.filament (s : FlagState) (f : FilamentOptions → FilamentOptions) : FlagState :=
  { s with options := { s.options with filament := f s.options.filament } }
/-- Change the printer options. -/
def FlagState.printer (s : FlagState) (f : PrinterOptions → PrinterOptions) : FlagState :=
  { s with options := { s.options with printer := f s.options.printer } }
/-- Change the options of GoSlice itself. -/
def FlagState.goSlice (s : FlagState) (f : GoSliceOptions → GoSliceOptions) : FlagState :=
  { s with options := { s.options with goSlice := f s.options.goSlice } }
end

/-- The flags registered in `data/option.go:475-557` `ParseFlags`, in order. -/
def flags : List Flag :=
  [ ⟨"version", .bool, fun s => s.options.goSlice.printVersion, fun s v => s.goSlice fun p => { p with printVersion := v }⟩,
    ⟨"output", .string, fun s => s.options.goSlice.outputFilePath, fun s v => s.goSlice fun p => { p with outputFilePath := v }⟩,
    ⟨"meld-distance", .micrometer, fun s => s.options.slicing.meldDistance, fun s v => s.slicing fun p => { p with meldDistance := v }⟩,
    ⟨"join-polygon-snap-distance", .micrometer, fun s => s.options.slicing.joinPolygonSnapDistance,
      fun s v => s.slicing fun p => { p with joinPolygonSnapDistance := v }⟩,
    ⟨"finish-polygon-snap-distance", .micrometer, fun s => s.options.slicing.finishPolygonSnapDistance,
      fun s v => s.slicing fun p => { p with finishPolygonSnapDistance := v }⟩,
    ⟨"initial-layer-speed", .millimeter, fun s => s.options.print.initialLayerSpeed, fun s v => s.print fun p => { p with initialLayerSpeed := v }⟩,
    ⟨"layer-speed", .millimeter, fun s => s.options.print.layerSpeed, fun s v => s.print fun p => { p with layerSpeed := v }⟩,
    ⟨"outer-perimeter-speed", .millimeter, fun s => s.options.print.outerPerimeterSpeed,
      fun s v => s.print fun p => { p with outerPerimeterSpeed := v }⟩,
    ⟨"move-speed", .millimeter, fun s => s.options.print.moveSpeed, fun s v => s.print fun p => { p with moveSpeed := v }⟩,
    ⟨"initial-layer-thickness", .micrometer, fun s => s.options.print.initialLayerThickness,
      fun s v => s.print fun p => { p with initialLayerThickness := v }⟩,
    ⟨"layer-thickness", .micrometer, fun s => s.options.print.layerThickness, fun s v => s.print fun p => { p with layerThickness := v }⟩,
    ⟨"inset-count", .int, fun s => s.options.print.insetCount, fun s v => s.print fun p => { p with insetCount := v }⟩,
    ⟨"infill-overlap-percent", .int, fun s => s.options.print.infillOverlapPercent,
      fun s v => s.print fun p => { p with infillOverlapPercent := v }⟩,
    ⟨"additional-internal-infill-overlap-percent", .int, fun s => s.options.print.additionalInternalInfillOverlapPercent,
      fun s v => s.print fun p => { p with additionalInternalInfillOverlapPercent := v }⟩,
    ⟨"infill-percent", .int, fun s => s.options.print.infillPercent, fun s v => s.print fun p => { p with infillPercent := v }⟩,
    ⟨"infill-rotation-degree", .int, fun s => s.options.print.infillRotationDegree,
      fun s v => s.print fun p => { p with infillRotationDegree := v }⟩,
    ⟨"infill-zig-zag", .bool, fun s => s.options.print.infillZigZag, fun s v => s.print fun p => { p with infillZigZag := v }⟩,
    ⟨"number-bottom-layers", .int, fun s => s.options.print.numberBottomLayers, fun s v => s.print fun p => { p with numberBottomLayers := v }⟩,
    ⟨"number-top-layers", .int, fun s => s.options.print.numberTopLayers, fun s v => s.print fun p => { p with numberTopLayers := v }⟩,
    ⟨"support-enabled", .bool, fun s => s.options.print.support.enabled, fun s v => s.support fun p => { p with enabled := v }⟩,
    ⟨"support-threshold-angle", .int, fun s => s.options.print.support.thresholdAngle,
      fun s v => s.support fun p => { p with thresholdAngle := v }⟩,
    ⟨"support-top-gap-layers", .int, fun s => s.options.print.support.topGapLayers, fun s v => s.support fun p => { p with topGapLayers := v }⟩,
    ⟨"support-interface-layers", .int, fun s => s.options.print.support.interfaceLayers,
      fun s v => s.support fun p => { p with interfaceLayers := v }⟩,
    ⟨"support-pattern-spacing", .millimeter, fun s => s.options.print.support.patternSpacing,
      fun s v => s.support fun p => { p with patternSpacing := v }⟩,
    ⟨"support-gap", .millimeter, fun s => s.options.print.support.gap, fun s v => s.support fun p => { p with gap := v }⟩,
    ⟨"skirt-count", .int, fun s => s.options.print.brimSkirt.skirtCount, fun s v => s.brimSkirt fun p => { p with skirtCount := v }⟩,
    ⟨"skirt-distance", .millimeter, fun s => s.options.print.brimSkirt.skirtDistance,
      fun s v => s.brimSkirt fun p => { p with skirtDistance := v }⟩,
    ⟨"brim-count", .int, fun s => s.options.print.brimSkirt.brimCount, fun s v => s.brimSkirt fun p => { p with brimCount := v }⟩,
    ⟨"filament-diameter", .micrometer, fun s => s.options.filament.filamentDiameter,
      fun s v => s.filament fun p => { p with filamentDiameter := v }⟩,
    ⟨"initial-bed-temperature", .int, fun s => s.options.filament.initialBedTemperature,
      fun s v => s.filament fun p => { p with initialBedTemperature := v }⟩,
    ⟨"initial-hot-end-temperature", .int, fun s => s.options.filament.initialHotEndTemperature,
      fun s v => s.filament fun p => { p with initialHotEndTemperature := v }⟩,
    ⟨"bed-temperature", .int, fun s => s.options.filament.bedTemperature, fun s v => s.filament fun p => { p with bedTemperature := v }⟩,
    ⟨"hot-end-temperature", .int, fun s => s.options.filament.hotEndTemperature, fun s v => s.filament fun p => { p with hotEndTemperature := v }⟩,
    ⟨"initial-temperature-layer-count", .int, fun s => s.options.filament.initialTemperatureLayerCount,
      fun s v => s.filament fun p => { p with initialTemperatureLayerCount := v }⟩,
    ⟨"retraction-speed", .millimeter, fun s => s.options.filament.retractionSpeed, fun s v => s.filament fun p => { p with retractionSpeed := v }⟩,
    ⟨"retraction-length", .millimeter, fun s => s.options.filament.retractionLength,
      fun s v => s.filament fun p => { p with retractionLength := v }⟩,
    ⟨"retraction-z-hop", .millimeter, fun s => s.options.filament.retractionZHop, fun s v => s.filament fun p => { p with retractionZHop := v }⟩,
    ⟨"fan-speed", .fan, fun s => s.options.filament.fanSpeed, fun s v => s.filament fun p => { p with fanSpeed := v }⟩,
    ⟨"extrusion-multiplier", .int, fun s => s.options.filament.extrusionMultiplier,
      fun s v => s.filament fun p => { p with extrusionMultiplier := v }⟩,
    ⟨"extrusion-width", .micrometer, fun s => s.options.printer.extrusionWidth, fun s v => s.printer fun p => { p with extrusionWidth := v }⟩,
    ⟨"center", .vec3, fun s => s.center, fun s v => { s with center := v }⟩,
    ⟨"force-safe-gcode", .bool, fun s => s.options.printer.forceSafeStartStopGCode,
      fun s v => s.printer fun p => { p with forceSafeStartStopGCode := v }⟩,
    ⟨"has-heated-bed", .bool, fun s => s.options.printer.hasHeatedBed, fun s v => s.printer fun p => { p with hasHeatedBed := v }⟩,
    ⟨"start-gcode", .hunk, fun s => s.options.printer.startGCode, fun s v => s.printer fun p => { p with startGCode := v }⟩,
    ⟨"end-gcode", .hunk, fun s => s.options.printer.endGCode, fun s v => s.printer fun p => { p with endGCode := v }⟩ ]

/-- `Set` of the variable a flag is bound to: the new variables and whether there is an error. -/
def Flag.set (f : Flag) (s : FlagState) (text : Str) : FlagState × Bool :=
  ((f.put s (f.kind.set (f.get s) text).1), (f.kind.set (f.get s) text).2)

/-- A command line as split by pflag: the settings in order, the other arguments, and whether something else is wrong with it (bad syntax, a missing value or the
request for help, found after the given settings). -/
structure CommandLine where
  settings : List (Str × Str) := []
  args : List Str := []
  broken : Bool := false

/-- The settings made by `flag.Parse`; `none` if pflag ends the program. -/
def applySettings : List (Str × Str) → FlagState → Option FlagState
  | [], s => some s
  | (name, text) :: rest, s =>
    match flags.find? (fun f => f.name.toList = name) with
    | none => none
    | some f => if (f.set s text).2 then none else applySettings rest (f.set s text).1

/-- `data/option.go:475-557` `ParseFlags`; `none` if pflag ends the program (status 2). -/
def parseFlags (cl : CommandLine) : Option Options :=
  let options : Options := {}
  match applySettings cl.settings ⟨options, ⟨options.printer.center.x, options.printer.center.y, options.printer.center.z⟩⟩ with
  | none => none
  | some s =>
    if cl.broken then none
    else
      let options := { s.options with printer := { s.options.printer with center := s.center } }
      some (match cl.args with
        | [] => options
        | path :: _ => { options with goSlice := { options.goSlice with inputFilePath := path } })

/-- `cmd/goslice/main.go:16-37` `main`: the world at the end and the exit status. The Go runtime ends a program which panics with status 2. The texts
printed are in `Model/Log.lean`. -/
def main (ext : Externals) (cl : CommandLine) (w : World) : World × Nat :=
  match parseFlags cl with
  | none => (w, 2)
  | some o =>
    if o.goSlice.printVersion then (w, 0)
    else if o.goSlice.inputFilePath = [] then (w, 1)
    else
      match goSlice ext o w with
      | (w, .ok _) => (w, 0)
      | (w, .error _) => (w, 2)

end Verif.Model
