import Verif.Model.MachineSlicer
import Verif.Model.Process

/-! # `clip/linear.go` and the infill patterns with int64 arithmetic

The functions of `Verif.Model.Linear` and `Verif.Model.Patterns` with the wrap-around of Go's `int64`. -/
namespace Verif.Model
open Verif.Go

namespace Linear

/-- The loop `for x := min.X(); x <= max.X(); x += p.lineDistance` in `clip/linear.go:179-248` `getInfill` with int64 arithmetic. -/
def scanLoopM (distance top bottom maxX : Micrometer) : Nat → Micrometer → Option (List (List IntPoint))
  | 0, x => if x ≤ maxX then none else some []
  | fuel + 1, x =>
    if x ≤ maxX then
      (scanLoopM distance top bottom maxX fuel (wrap (x + distance))).map fun lines => [⟨x, top⟩, ⟨x, bottom⟩] :: lines
    else some []

/-- The lines generated by `clip/linear.go:179-248` `getInfill` with int64 arithmetic. The number of iterations allowed is that of the unbounded version. -/
def scanLinesM (distance : Micrometer) (min max : Pt) : Option (List (List IntPoint)) :=
  scanLoopM distance max.y min.y max.x (max.x - min.x + 1).toNat min.x

/-- The shortening of one line in `clip/linear.go:179-248` `getInfill` with int64 arithmetic. -/
def shortenM (smallerLines : Micrometer) (p1 p2 : IntPoint) : List IntPoint :=
  if wrap (p1.y - smallerLines.tdiv 2) > p2.y then [⟨p1.x, wrap (p1.y - smallerLines.tdiv 2)⟩, ⟨p2.x, wrap (p2.y + smallerLines.tdiv 2)⟩]
  else [p1, p2]

/-- Loop body over the resulting lines in `clip/linear.go:179-248` `getInfill` with int64 arithmetic. -/
def infillLineM (smallerLines : Micrometer) (c : PolyNode) : Res (List IntPoint) :=
  if smallerLines ≠ 0 then do
    let p1 ← index c.contour 0
    let p2 ← index c.contour 1
    return shortenM smallerLines p1 p2
  else return c.contour

/-- `clip/linear.go:179-248` `getInfill` with int64 arithmetic. -/
def getInfillM (lib : ClipperLib) (distance : Micrometer) (min max : Pt) (outline : List IntPoint) (holes : List (List IntPoint))
    (smallerLines : Micrometer) : Res (List (List IntPoint)) :=
  match scanLinesM distance min max with
  | none => .error (.panic "endless loop")
  | some verticalLines =>
    match lib.executeOpen .intersection verticalLines (outline :: holes) with
    | none => .error (.err "getLinearFill failed")
    | some tree => tree.mapM (infillLineM smallerLines)

/-- Loop in `clip/linear.go:89-176` `sortInfill` which finds the next line, with int64 arithmetic. -/
def nearestLoopM (point : Pt) (lastPoint : Int) (isUsed : List Bool) : Nat → Paths → Int × Micrometer → Res (Int × Micrometer)
  | _, [], best => .ok best
  | i, line :: lines, best => do
    let used ← index isUsed i
    if used then nearestLoopM point lastPoint isUsed (i + 1) lines best
    else
      let point2 ← index line lastPoint
      let differenceVec := subM point point2
      if best.2 = -1 ∨ shorterThanOrEqualM differenceVec best.2 then
        nearestLoopM point lastPoint isUsed (i + 1) lines (i, sizeM differenceVec)
      else nearestLoopM point lastPoint isUsed (i + 1) lines best

/-- The extra line for zig zag infill in `clip/linear.go:89-176` `sortInfill` with int64 arithmetic. -/
def connectionM (cross : Path → Bool × Bool) (limit : Micrometer) (p1 p2 : Pt) : Res Paths :=
  if shorterThanOrEqualM (subM p1 p2) limit then
    let r := cross [p1, p2]
    if !r.2 then
      .error (.panic "could not calculate the difference between the current layer and the non-extrusion-move")
    else if !r.1 then .ok [[p1, p2]] else .ok []
  else .ok []

/-- The body of the main loop of `clip/linear.go:89-176` `sortInfill` with int64 arithmetic. -/
def sortStepM (cross : Path → Bool × Bool) (zigZag : Bool) (limit : Micrometer) (unsorted : Paths) (s : SortState) : Res SortState := do
  let lastLine ← index unsorted s.lastIndex
  let point ← index lastLine s.lastPoint
  let best ← nearestLoopM point s.lastPoint s.isUsed 0 unsorted (-1, -1)
  if best.1 > -1 then
    let line ← index unsorted best.1
    let head ← index s.sorted ((s.sorted.length : Int) - 1)
    let extra ← (if zigZag then do
        let p1 ← index head 1
        let p2 ← index line (1 - s.lastPoint)
        connectionM cross limit p1 p2
      else pure [])
    let line ← (if 1 - s.lastPoint = 1 then do
        let a ← index line 1
        let b ← index line 0
        pure [a, b]
      else pure line)
    return { sorted := s.sorted ++ extra ++ [line]
             isUsed := s.isUsed.set best.1.toNat true
             lastIndex := best.1
             lastPoint := 1 - s.lastPoint }
  else throw (.panic "there should always be a bestIndex > -1")

/-- The main loop of `clip/linear.go:89-176` `sortInfill` with int64 arithmetic. -/
def sortLoopM (cross : Path → Bool × Bool) (zigZag : Bool) (limit : Micrometer) (unsorted : Paths) : Nat → SortState → Res SortState
  | 0, s => .ok s
  | n + 1, s => do
    let s ← sortStepM cross zigZag limit unsorted s
    sortLoopM cross zigZag limit unsorted n s

/-- `clip/linear.go:89-176` `sortInfill` with int64 arithmetic. -/
def sortInfillM (p : Linear) (cross : Path → Bool × Bool) (unsorted : Paths) : Res Paths :=
  match unsorted with
  | [] => .ok []
  | first :: _ => do
    let s ← sortLoopM cross p.zigZag (wrap (p.lineWidth + wrap (p.lineDistance * 2))) unsorted (unsorted.length - 1)
      ⟨[first], true :: List.replicate (unsorted.length - 1) false, 0, 0⟩
    return s.sorted

/-- `clip/linear.go:38-86` `Fill` with int64 arithmetic; the rotation uses floating point numbers. -/
def fillM (p : Linear) (lib : ClipperLib) (trig : ℚ → ℚ × ℚ) (layerNr : Nat) (part : LayerPart) : Res Paths := do
  let rot := p.rotation layerNr
  let outline := pathRotate rot (trig rot).1 (trig rot).2 part.outline
  let holes := pathsRotate rot (trig rot).1 (trig rot).2 part.holes
  let bounds := pathBounds (pathRotate rot (trig rot).1 (trig rot).2 [p.min, ⟨p.max.x, p.min.y⟩, p.max, ⟨p.min.x, p.max.y⟩])
  let smallerLines := if p.zigZag then p.lineWidth else 0
  let infill ← getInfillM lib p.lineDistance bounds.1 bounds.2 (clipperPath outline) (clipperPaths holes) smallerLines
  let paths ← microPaths infill false
  let result ← p.sortInfillM (fun line => lib.isCrossingPerimeter [⟨outline, holes⟩] line) paths
  return pathsRotate (-rot) (trig (-rot)).1 (trig (-rot)).2 result

end Linear

/-- The pattern for support in `goslice.go:31-123` `NewGoSlice` with int64 arithmetic. -/
def supportPatternM (o : Options) (min max : Pt) : Linear :=
  ⟨patternSpacing o, o.printer.extrusionWidth, 90, ⟨wrap (min.x - patternSpacing o), wrap (min.y - patternSpacing o)⟩,
    ⟨wrap (max.x + patternSpacing o), wrap (max.y + patternSpacing o)⟩, false, true⟩

/-- The pattern for support interfaces in `goslice.go:31-123` `NewGoSlice` with int64 arithmetic. -/
def interfacePatternM (o : Options) (min max : Pt) : Linear :=
  ⟨o.printer.extrusionWidth, o.printer.extrusionWidth, 0, ⟨wrap (min.x - patternSpacing o), wrap (min.y - patternSpacing o)⟩,
    ⟨wrap (max.x + patternSpacing o), wrap (max.y + patternSpacing o)⟩, false, true⟩

/-- The distance of the lines of the internal infill in `goslice.go:31-123` `NewGoSlice` with int64 arithmetic. -/
def infillDistanceM (width infillPercent : Int) : Res Micrometer := do
  let mm10 := toMicrometer 10
  let linesPer10mm ← quo mm10 width
  let linesForPercent := r64 (r64 (r64 (wrap linesPer10mm : ℚ) * r64 (infillPercent : ℚ)) / 100)
  if linesForPercent = 0 then return minMicrometer
  else return truncZ (r64 (r64 (mm10 : ℚ) / linesForPercent))

/-- The pattern for the internal infill in `goslice.go:31-123` `NewGoSlice` with int64 arithmetic. -/
def internalPatternM (o : Options) (min max : Pt) : Res (Option Linear) :=
  if o.print.infillPercent ≠ 0 then do
    let lineWidth ← infillDistanceM o.printer.extrusionWidth o.print.infillPercent
    return some ⟨lineWidth, o.printer.extrusionWidth, o.print.infillRotationDegree, min, max, true, o.print.infillZigZag⟩
  else return none

/-- The patterns of the five infill renderers (`gcode/renderer/infill.go:28-30` `Init`) with int64 arithmetic. -/
def standardPatternsM (lib : ClipperLib) (trig : ℚ → ℚ × ℚ) (o : Options) (min max : Pt) : Res Patterns := do
  let internal ← internalPatternM o min max
  return { support := some ((supportPatternM o min max).fillM lib trig)
           supportInterface := some ((interfacePatternM o min max).fillM lib trig)
           bottom := some ((topBottomPattern o min max).fillM lib trig)
           top := some ((topBottomPattern o min max).fillM lib trig)
           infill := internal.map fun p => p.fillM lib trig }

/-- The patterns which are set up by `Init` of all renderers (`gcode/generator.go:28-32` `generator.Init`, `gcode/renderer/infill.go:28-30` `Init`) with int64
arithmetic. -/
def initPatternsM (lib : ClipperLib) (trig : ℚ → ℚ × ℚ) (o : Options) (om : OptModel) : Res Patterns := do
  let min ← om.min
  let max ← om.max
  standardPatternsM lib trig o min.pointXY max.pointXY

end Verif.Model
