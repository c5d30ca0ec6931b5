import Verif.Model.Linear
import Verif.Model.Renderers

/-! # Model of the infill patterns set up in `goslice.go` -/
namespace Verif.Model
open Verif.Go

/-- The pattern for top and bottom layers in `goslice.go:31-123` `NewGoSlice`. -/
def topBottomPattern (o : Options) (min max : Pt) : Linear :=
  ⟨o.printer.extrusionWidth, o.printer.extrusionWidth, o.print.infillRotationDegree, min, max, true, false⟩

/-- `patternSpacing` in `goslice.go:31-123` `NewGoSlice`. -/
def patternSpacing (o : Options) : Micrometer := toMicrometer o.print.support.patternSpacing

/-- The pattern for support in `goslice.go:31-123` `NewGoSlice`. The points which are changed there are copies (C03). The constructor
`NewLinearPattern` takes the width first, the structure has the distance first. -/
def supportPattern (o : Options) (min max : Pt) : Linear :=
  ⟨patternSpacing o, o.printer.extrusionWidth, 90, ⟨min.x - patternSpacing o, min.y - patternSpacing o⟩,
    ⟨max.x + patternSpacing o, max.y + patternSpacing o⟩, false, true⟩

/-- The pattern for support interfaces in `goslice.go:31-123` `NewGoSlice`. -/
def interfacePattern (o : Options) (min max : Pt) : Linear :=
  ⟨o.printer.extrusionWidth, o.printer.extrusionWidth, 0, ⟨min.x - patternSpacing o, min.y - patternSpacing o⟩,
    ⟨max.x + patternSpacing o, max.y + patternSpacing o⟩, false, true⟩

/-- The distance of the lines of the internal infill in `goslice.go:31-123` `NewGoSlice`. Panics for the width 0. A float division by 0 gives an
infinite value, whose conversion to an integer depends on the platform; the value for amd64 is used. -/
def infillDistance (width infillPercent : Int) : Res Micrometer := do
  let mm10 := toMicrometer 10
  let linesPer10mm ← quo mm10 width
  let linesForPercent := r64 (r64 (r64 (linesPer10mm : ℚ) * r64 (infillPercent : ℚ)) / 100)
  if linesForPercent = 0 then return minMicrometer
  else return truncZ (r64 (r64 (mm10 : ℚ) / linesForPercent))

/-- The pattern for the internal infill in `goslice.go:31-123` `NewGoSlice`; `none` (nil) for 0 percent. -/
def internalPattern (o : Options) (min max : Pt) : Res (Option Linear) :=
  if o.print.infillPercent ≠ 0 then do
    let lineWidth ← infillDistance o.printer.extrusionWidth o.print.infillPercent
    return some ⟨lineWidth, o.printer.extrusionWidth, o.print.infillRotationDegree, min, max, true, o.print.infillZigZag⟩
  else return none

/-- The patterns of the five infill renderers, set up by `Init` (`gcode/renderer/infill.go:28-30` `Init`) with the limits of the model. -/
def standardPatterns (lib : ClipperLib) (trig : ℚ → ℚ × ℚ) (o : Options) (min max : Pt) : Res Patterns := do
  let internal ← internalPattern o min max
  return { support := some ((supportPattern o min max).fill lib trig)
           supportInterface := some ((interfacePattern o min max).fill lib trig)
           bottom := some ((topBottomPattern o min max).fill lib trig)
           top := some ((topBottomPattern o min max).fill lib trig)
           infill := internal.map fun p => p.fill lib trig }

end Verif.Model
