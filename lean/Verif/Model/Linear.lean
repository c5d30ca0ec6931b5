import Verif.Model.Clip

/-! # Model of `clip/linear.go` -/
namespace Verif.Model
open Verif.Go

/-- `clip/linear.go:14-21` `linear`. -/
structure Linear where
  lineDistance : Micrometer
  lineWidth : Micrometer
  degree : Int
  min : Pt
  max : Pt
  rectlinear : Bool
  zigZag : Bool

namespace Linear

/-- The loop `for x := min.X(); x <= max.X(); x += p.lineDistance` in `clip/linear.go:179-248` `getInfill` with at most `fuel` iterations;
`none` if it does not end within them. The overflow of `x` at 2^63 is only in the model of `Verif.Model.MachineLinear`. -/
def scanLoop (distance top bottom maxX : Micrometer) : Nat → Micrometer → Option (List (List IntPoint))
  | 0, x => if x ≤ maxX then none else some []
  | fuel + 1, x =>
    if x ≤ maxX then
      (scanLoop distance top bottom maxX fuel (x + distance)).map fun lines => [⟨x, top⟩, ⟨x, bottom⟩] :: lines
    else some []

/-- The lines generated by `clip/linear.go:179-248` `getInfill`, `none` if the loop does not end (`Verif.C43_fuel`: the number of iterations
allowed here suffices if any does). -/
def scanLines (distance : Micrometer) (min max : Pt) : Option (List (List IntPoint)) :=
  scanLoop distance max.y min.y max.x (max.x - min.x + 1).toNat min.x

/-- The shortening of one line in `clip/linear.go:179-248` `getInfill`. -/
def shorten (smallerLines : Micrometer) (p1 p2 : IntPoint) : List IntPoint :=
  if p1.y - smallerLines.tdiv 2 > p2.y then [⟨p1.x, p1.y - smallerLines.tdiv 2⟩, ⟨p2.x, p2.y + smallerLines.tdiv 2⟩]
  else [p1, p2]

/-- Loop body over the resulting lines in `clip/linear.go:179-248` `getInfill`. -/
def infillLine (smallerLines : Micrometer) (c : PolyNode) : Res (List IntPoint) :=
  if smallerLines ≠ 0 then do
    let p1 ← index c.contour 0
    let p2 ← index c.contour 1
    return shorten smallerLines p1 p2
  else return c.contour

/-- `clip/linear.go:179-248` `getInfill`, for the overlap 0 used by its only caller. An endless loop is reported as a panic. -/
def getInfill (lib : ClipperLib) (distance : Micrometer) (min max : Pt) (outline : List IntPoint) (holes : List (List IntPoint))
    (smallerLines : Micrometer) : Res (List (List IntPoint)) :=
  match scanLines distance min max with
  | none => .error (.panic "endless loop")
  | some verticalLines =>
    match lib.executeOpen .intersection verticalLines (outline :: holes) with
    | none => .error (.err "getLinearFill failed")
    | some tree => tree.mapM (infillLine smallerLines)

/-- Loop in `clip/linear.go:89-176` `sortInfill` which finds the next line: from index `i` on, with `bestIndex` and `bestDiff`. -/
def nearestLoop (point : Pt) (lastPoint : Int) (isUsed : List Bool) : Nat → Paths → Int × Micrometer → Res (Int × Micrometer)
  | _, [], best => .ok best
  | i, line :: lines, best => do
    let used ← index isUsed i
    if used then nearestLoop point lastPoint isUsed (i + 1) lines best
    else
      let point2 ← index line lastPoint
      let differenceVec := point.sub point2
      if best.2 = -1 ∨ differenceVec.shorterThanOrEqual best.2 then
        nearestLoop point lastPoint isUsed (i + 1) lines (i, differenceVec.size)
      else nearestLoop point lastPoint isUsed (i + 1) lines best

/-- Variables of `clip/linear.go:89-176` `sortInfill`. -/
structure SortState where
  sorted : Paths
  isUsed : List Bool
  lastIndex : Int
  lastPoint : Int

/-- The extra line for zig zag infill in `clip/linear.go:89-176` `sortInfill`. -/
def connection (cross : Path → Bool × Bool) (limit : Micrometer) (p1 p2 : Pt) : Res Paths :=
  if (p1.sub p2).shorterThanOrEqual limit then
    let r := cross [p1, p2]
    if !r.2 then
      .error (.panic "could not calculate the difference between the current layer and the non-extrusion-move")
    else if !r.1 then .ok [[p1, p2]] else .ok []
  else .ok []

/-- The body of the main loop of `clip/linear.go:89-176` `sortInfill`. -/
def sortStep (cross : Path → Bool × Bool) (zigZag : Bool) (limit : Micrometer) (unsorted : Paths) (s : SortState) : Res SortState := do
  let lastLine ← index unsorted s.lastIndex
  let point ← index lastLine s.lastPoint
  let best ← nearestLoop point s.lastPoint s.isUsed 0 unsorted (-1, -1)
  if best.1 > -1 then
    let line ← index unsorted best.1
    let head ← index s.sorted ((s.sorted.length : Int) - 1)
    let extra ← (if zigZag then do
        let p1 ← index head 1
        let p2 ← index line (1 - s.lastPoint)
        connection cross limit p1 p2
      else pure [])
    let line ← (if 1 - s.lastPoint = 1 then do
        let a ← index line 1
        let b ← index line 0
        pure [a, b]
      else pure line)
    return { sorted := s.sorted ++ extra ++ [line]
             isUsed := s.isUsed.set best.1.toNat true
             lastIndex := best.1
             lastPoint := 1 - s.lastPoint }
  else throw (.panic "there should always be a bestIndex > -1")

/-- The main loop of `clip/linear.go:89-176` `sortInfill` with `n` lines left (each iteration saves one line or panics). -/
def sortLoop (cross : Path → Bool × Bool) (zigZag : Bool) (limit : Micrometer) (unsorted : Paths) : Nat → SortState → Res SortState
  | 0, s => .ok s
  | n + 1, s => do
    let s ← sortStep cross zigZag limit unsorted s
    sortLoop cross zigZag limit unsorted n s

/-- `clip/linear.go:89-176` `sortInfill`. `cross` is `IsCrossingPerimeter` for the part. -/
def sortInfill (p : Linear) (cross : Path → Bool × Bool) (unsorted : Paths) : Res Paths :=
  match unsorted with
  | [] => .ok []
  | first :: _ => do
    let s ← sortLoop cross p.zigZag (p.lineWidth + p.lineDistance * 2) unsorted (unsorted.length - 1)
      ⟨[first], true :: List.replicate (unsorted.length - 1) false, 0, 0⟩
    return s.sorted

/-- The angle used in `clip/linear.go:38-86` `Fill`. -/
def rotation (p : Linear) (layerNr : Nat) : ℚ :=
  if p.rectlinear ∧ layerNr % 2 = 0 then r64 (r64 (p.degree : ℚ) + 90) else r64 (p.degree : ℚ)

/-- `clip/linear.go:38-86` `Fill`. `trig` gives the float64 values of sine and cosine of an angle in degrees. The copies of the part made before
its rotation are not visible here (paths are values). -/
def fill (p : Linear) (lib : ClipperLib) (trig : ℚ → ℚ × ℚ) (layerNr : Nat) (part : LayerPart) : Res Paths := do
  let rot := p.rotation layerNr
  let outline := pathRotate rot (trig rot).1 (trig rot).2 part.outline
  let holes := pathsRotate rot (trig rot).1 (trig rot).2 part.holes
  let bounds := pathBounds (pathRotate rot (trig rot).1 (trig rot).2 [p.min, ⟨p.max.x, p.min.y⟩, p.max, ⟨p.min.x, p.max.y⟩])
  let smallerLines := if p.zigZag then p.lineWidth else 0
  let infill ← getInfill lib p.lineDistance bounds.1 bounds.2 (clipperPath outline) (clipperPaths holes) smallerLines
  let paths ← microPaths infill false
  let result ← p.sortInfill (fun line => lib.isCrossingPerimeter [⟨outline, holes⟩] line) paths
  return pathsRotate (-rot) (trig (-rot)).1 (trig (-rot)).2 result

end Linear
end Verif.Model
