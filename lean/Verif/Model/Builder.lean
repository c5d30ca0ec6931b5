import Verif.Go.Strconv
import Verif.Model.Machine

/-! # Model of `gcode/builder.go` -/
namespace Verif.Model
open Verif.Go

/-- `gcode/builder.go:15-32` `Builder`. `buf` is the text written so far. The pointer `currentPosition` is modelled by its value
(no caller changes a vector after passing it). Integer speeds are unbounded (not in `Verif.Model.MachineBuilder`). `gcode/builder.go:44-46` `String` returns the buffer. -/
structure Builder where
  buf : Str := []
  extrusionAmount : Millimeter := 0
  extrusionPerMM : Millimeter := 0
  currentPosition : Vec3 := ⟨0, 0, 0⟩
  notFirstMoveX : Bool := false
  notFirstMoveY : Bool := false
  notFirstMoveZ : Bool := false
  moveSpeed : Int := 0
  extrudeSpeed : Int := 0
  currentSpeed : Int := 0
  extrudeSpeedOverride : Int := 0
  retractionSpeed : Int := 0
  retractionAmount : Millimeter := 0
  zHopOnRetract : Millimeter := 0
  filamentDiameter : Micrometer := 0
  extrusionMultiplier : Int := 0

/-- `gcode/builder.go:34-42` `NewGCodeBuilder`. -/
def newBuilder (filamentDiameter : Micrometer) (extrusionMultiplier : Int) : Builder :=
  { filamentDiameter := filamentDiameter, extrusionMultiplier := extrusionMultiplier }

/-- `math.Pi` as a float32 constant. -/
def pi32 : ℚ := 13176795 / 4194304

namespace Builder

/-- `gcode/builder.go:48-51` `SetExtrusion`: float32 arithmetic, every operation rounded. A division by zero (infinite in Go) is 0 here, as
in Lean; it needs a filament diameter of 0. -/
def setExtrusion (g : Builder) (layerThickness lineWidth : Micrometer) : Builder :=
  let half := r32 (toMillimeter g.filamentDiameter / 2)
  let filamentArea := r32 (r32 (pi32 * half) * half)
  let perMM := r32 (r32 (r32 (toMillimeter layerThickness * toMillimeter lineWidth) / filamentArea) *
    r32 (r32 (g.extrusionMultiplier : ℚ) / 100))
  { g with extrusionPerMM := perMM }

/-- `gcode/builder.go:53-55` `SetMoveSpeed`. -/
def setMoveSpeed (g : Builder) (v : Millimeter) : Builder := { g with moveSpeed := truncZ v }
/-- `gcode/builder.go:57-59` `SetExtrudeSpeed`. -/
def setExtrudeSpeed (g : Builder) (v : Millimeter) : Builder := { g with extrudeSpeed := truncZ v }
/-- `gcode/builder.go:61-63` `SetExtrudeSpeedOverride`. -/
def setExtrudeSpeedOverride (g : Builder) (v : Millimeter) : Builder := { g with extrudeSpeedOverride := truncZ v }
/-- `gcode/builder.go:65-67` `DisableExtrudeSpeedOverride`. -/
def disableExtrudeSpeedOverride (g : Builder) : Builder := { g with extrudeSpeedOverride := 0 }
/-- `gcode/builder.go:69-71` `SetRetractionSpeed`. -/
def setRetractionSpeed (g : Builder) (v : Millimeter) : Builder := { g with retractionSpeed := truncZ v }
/-- `gcode/builder.go:73-75` `SetRetractionAmount`. -/
def setRetractionAmount (g : Builder) (v : Millimeter) : Builder := { g with retractionAmount := v }
/-- `gcode/builder.go:77-79` `SetRetractionZHop`. -/
def setRetractionZHop (g : Builder) (v : Millimeter) : Builder := { g with zHopOnRetract := v }

end Builder

/-- The decimal digits of the width or precision of a verb are skipped. If the number gets too large (more than 10^6 before its last digit),
`fmt` skips the whole rest of the format. -/
def skipDigits (s : Str) : Str :=
  if (s.takeWhile (fun c => '0' ≤ c ∧ c ≤ '9')).dropLast.foldl (fun n c => 10 * n + (c.toNat - '0'.toNat)) 0 > 1000000 then []
  else s.dropWhile (fun c => '0' ≤ c ∧ c ≤ '9')

/-- Whether the text in the brackets of an explicit argument index is a number for `fmt`. -/
def isIndex (s : Str) : Bool :=
  !s.isEmpty && s.all (fun c => '0' ≤ c ∧ c ≤ '9') && (s.dropLast.foldl (fun n c => 10 * n + (c.toNat - '0'.toNat)) 0 ≤ 1000000)

/-- The state of `fmt.Sprintf` within a verb: what is written so far, the rest of the format, whether an argument index was just read, and whether no
argument index was wrong. -/
structure Verb where
  text : Str
  rest : Str
  afterIndex : Bool
  good : Bool

/-- An explicit argument index of a verb (`argNumber` in `fmt`). Without arguments each index is wrong. -/
def sprintfIndex (v : Verb) : Verb :=
  match v.rest with
  | '[' :: t =>
    if t.length < 2 ∨ ']' ∉ t then { v with rest := t, afterIndex := false, good := false }
    else { v with rest := (t.dropWhile (· ≠ ']')).tail, afterIndex := isIndex (t.takeWhile (· ≠ ']')), good := false }
  | _ => { v with afterIndex := false }

/-- A number in a verb of `fmt.Sprintf` without arguments; `*` gives the text `bad`. -/
def sprintfNumber (bad : Str) (v : Verb) : Verb :=
  match v.rest with
  | '*' :: t => { v with text := v.text ++ bad, rest := t, afterIndex := false }
  | s => { v with rest := skipDigits s }

/-- The precision of a verb. -/
def sprintfPrecision (v : Verb) : Verb :=
  match v.rest with
  | '.' :: t => sprintfNumber "%!(BADPREC)".toList (sprintfIndex { v with rest := t })
  | _ => v

/-- The argument index directly before the verb. -/
def sprintfLast (v : Verb) : Verb := if v.afterIndex then v else sprintfIndex v

/-- The verb itself: what is written for it, and the rest of the format. -/
def sprintfChar (good : Bool) : Str → Str × Str
  | [] => ("%!(NOVERB)".toList, [])
  | c :: t => if c = '%' then (['%'], t) else ('%' :: '!' :: c :: (if good then "(MISSING)".toList else "(BADINDEX)".toList), t)

/-- What `fmt.Sprintf` writes for a verb without argument, and the rest of the format: flags, argument index, width, precision, argument index, verb. -/
def sprintfVerb (s : Str) : Str × Str :=
  let v := sprintfIndex ⟨[], s.dropWhile (fun c => c ∈ ['#', '0', '+', '-', ' ']), false, true⟩
  let v := sprintfLast (sprintfPrecision (sprintfNumber "%!(BADWIDTH)".toList v))
  let c := sprintfChar v.good v.rest
  (v.text ++ c.1, c.2)

/-- `fmt.Sprintf(format)` without arguments. `fuel` only bounds the recursion; the length of the format is enough. -/
def sprintf0 : Nat → Str → Str
  | 0, _ => []
  | _ + 1, [] => []
  | fuel + 1, '%' :: s => (sprintfVerb s).1 ++ sprintf0 fuel (sprintfVerb s).2
  | fuel + 1, c :: s => c :: sprintf0 fuel s

namespace Builder

/-- `gcode/builder.go:81-85` `AddCommand` without arguments. Calls with arguments use constant formats, and are modelled by `addText` of the
formatted text. -/
def addCommand (g : Builder) (command : Str) : Builder :=
  let command := command ++ ['\n']
  { g with buf := g.buf ++ sprintf0 (command.length + 1) command }

/-- `gcode/builder.go:87-91` `AddComment` without arguments. -/
def addComment (g : Builder) (comment : Str) : Builder :=
  let comment := ';' :: comment ++ ['\n']
  { g with buf := g.buf ++ sprintf0 (comment.length + 1) comment }

/-- `AddCommand`, `AddComment` with a constant format whose result is `text` and a newline. -/
def addText (g : Builder) (text : Str) : Builder := { g with buf := g.buf ++ text ++ ['\n'] }

/-- `gcode/builder.go:93-131` `AddMoveSpeed`. -/
def addMoveSpeed (g : Builder) (p : Vec3) (extrusion : Millimeter) (speed : Int) : Builder :=
  let notFirstMove := g.notFirstMoveX || g.notFirstMoveY || g.notFirstMoveZ
  if notFirstMove ∧ g.currentPosition.x = p.x ∧ g.currentPosition.y = p.y ∧ g.currentPosition.z = p.z ∧ extrusion = 0 then g
  else
    let g := if extrusion ≠ 0 then { g with buf := g.buf ++ ['G', '1'] } else { g with buf := g.buf ++ ['G', '0'] }
    let g := if p.x ≠ g.currentPosition.x ∨ !g.notFirstMoveX then
      { g with buf := g.buf ++ ' ' :: 'X' :: formatFixed 2 (toMillimeter p.x), notFirstMoveX := true } else g
    let g := if p.y ≠ g.currentPosition.y ∨ !g.notFirstMoveY then
      { g with buf := g.buf ++ ' ' :: 'Y' :: formatFixed 2 (toMillimeter p.y), notFirstMoveY := true } else g
    let g := if p.z ≠ g.currentPosition.z ∨ !g.notFirstMoveZ then
      { g with buf := g.buf ++ ' ' :: 'Z' :: formatFixed 2 (toMillimeter p.z), notFirstMoveZ := true } else g
    let g := if g.currentSpeed ≠ speed then
      { g with buf := g.buf ++ ' ' :: 'F' :: formatInt (speed * 60), currentSpeed := speed } else g
    let g := { g with extrusionAmount := r32 (g.extrusionAmount + extrusion) }
    let g := if extrusion ≠ 0 then { g with buf := g.buf ++ ' ' :: 'E' :: formatFixed 4 g.extrusionAmount } else g
    { g with buf := g.buf ++ ['\n'], currentPosition := p }

/-- `gcode/builder.go:133-147` `AddMove`. -/
def addMove (g : Builder) (p : Vec3) (extrusion : Millimeter) : Builder :=
  let speed := if extrusion ≠ 0 then (if g.extrudeSpeedOverride ≤ 0 then g.extrudeSpeed else g.extrudeSpeedOverride) else g.moveSpeed
  g.addMoveSpeed p extrusion speed

/-- The extruding moves of the loop in `gcode/builder.go:149-239` `AddPolygon` (indexes from 1 on); `prev` is the previous point. -/
def addLines (z : Micrometer) : Builder → Pt → Path → Builder
  | g, _, [] => g
  | g, prev, p :: rest =>
    addLines z (g.addMove ⟨p.x, p.y, z⟩ (r32 ((p.sub prev).sizeMM * g.extrusionPerMM))) p rest

/-- The travel of `gcode/builder.go:149-239` `AddPolygon` to its first point `p0` (the iteration with index 0, after the crossing test). -/
def addTravel (g : Builder) (p0 : Pt) (z : Micrometer) (isCrossing : Bool) : Builder :=
  let zMove := if isCrossing ∧ g.zHopOnRetract > 0 then z + toMicrometer g.zHopOnRetract else z
  let g := if isCrossing then
      let g := g.addMoveSpeed g.currentPosition (-g.retractionAmount) g.retractionSpeed
      if g.zHopOnRetract > 0 then g.addMove ⟨g.currentPosition.x, g.currentPosition.y, zMove⟩ 0 else g
    else g
  let g := g.addMove ⟨p0.x, p0.y, zMove⟩ 0
  if isCrossing then
    let g := if g.zHopOnRetract > 0 then g.addMove ⟨p0.x, p0.y, z⟩ 0 else g
    g.addMoveSpeed g.currentPosition g.retractionAmount g.retractionSpeed
  else g

/-- The crossing test in `gcode/builder.go:149-239` `AddPolygon`, with `p0` the first point of the smoothed polygon. -/
def crossingTest (crossing : List LayerPart → Path → Bool × Bool) (g : Builder) (currentLayer : Option (List LayerPart)) (p0 : Pt) :
    Res Bool :=
  match currentLayer with
  | none => .ok false
  | some parts =>
    if g.retractionSpeed ≠ 0 ∧ g.retractionAmount ≠ 0 then
      let r := crossing parts [g.currentPosition.pointXY, p0]
      if !r.2 then
        .error (.err "could not calculate the difference between the current layer and the non-extrusion-move")
      else .ok r.1
    else .ok false

/-- `gcode/builder.go:149-239` `AddPolygon`. `crossing` is `Clipper.IsCrossingPerimeter` (result and ok flag). The smoothed polygon of a
non-empty path is not empty (C05), the first case of the match is not reachable. -/
def addPolygon (crossing : List LayerPart → Path → Bool × Bool) (g : Builder) (currentLayer : Option (List LayerPart)) (polygon : Path)
    (z : Micrometer) (isOpen : Bool) : Res Builder :=
  if polygon.length = 0 then .ok g
  else
    match douglasPeuckerM polygon (-1) with
    | [] => .error (.panic "index out of range")
    | p0 :: rest => do
      let isCrossing ← g.crossingTest crossing currentLayer p0
      let g := addLines z (g.addTravel p0 z isCrossing) p0 rest
      if isOpen then return g
      else
        let pointLast := (p0 :: rest).getLast (by simp)
        return g.addMove ⟨p0.x, p0.y, z⟩ (r32 ((p0.sub pointLast).sizeMM * g.extrusionPerMM))

end Builder
end Verif.Model
