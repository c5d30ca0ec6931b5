import Verif.Props.Print
import Verif.Model.Micrometer
import Verif.Model.Geom2d
import Verif.Model.Layer
import Verif.Model.Option
import Verif.Model.Generator

/-!
# The tests of the repository, executed on the model

These examples are no proofs of properties. They replay the unit tests of the repository (`*_test.go`) on the model, with the inputs and the
expected results which stand there: a check that the model computes what the authors expect of the code. Tests of constructors, getters,
setters and `Copy` are left out (these are records in the model), so is `TestToRadians` (`Rotate` gets the sine and the cosine as
arguments in the model) and `TestWholeSlicer` (it has no expected result).
-/
namespace Verif
open Verif.Go Verif.Model Verif.Spec

/-- A float32 constant of Go. -/
def f32 (x : ℚ) : ℚ := r32 x
/-- A float64 constant of Go. -/
def f64 (x : ℚ) : ℚ := r64 x

/-! ## `gcode/builder_test.go` -/

/-- The text of the builder after some calls with the default options and the given extrusion multiplier. There is no layer in these tests. -/
def builderText (multiplier : Int) (calls : List Call) : Option Str :=
  ((newBuilder 1750 multiplier).exec (fun _ _ => (false, true)) calls).toOption.map Builder.buf

/-- "no commands" -/
example : builderText 100 [] = some "".toList := by decide +kernel

/-- "several commands": the formats are constants, the numbers are formatted with two digits. -/
example : builderText 100 [.text ("G1 X".toList ++ formatFixed 2 (f64 5) ++ " Y".toList ++ formatFixed 2 (f64 (69/10))),
      .text ("G1 X".toList ++ formatFixed 2 (f64 99) ++ " Y".toList ++ formatFixed 2 (f64 (69/10))),
      .text ("G1 X".toList ++ formatFixed 2 (f64 5) ++ " Y".toList ++ formatFixed 2 (f64 (688/100)))] =
    some ("G1 X5.00 Y6.90\n" ++ "G1 X99.00 Y6.90\n" ++ "G1 X5.00 Y6.88\n").toList := by decide +kernel

/-- "some comments" -/
example : builderText 100 [.comment "This is a comment.".toList, .comment "This is another comment.".toList,
      .comment "This is a third comment.".toList] =
    some (";This is a comment.\n" ++ ";This is another comment.\n" ++ ";This is a third comment.\n").toList := by decide +kernel

/-- "add polygon" -/
example : builderText 100 [.polygon none [⟨0, 0⟩, ⟨100, 0⟩, ⟨100, 100⟩, ⟨0, 100⟩] 100 true, .polygon none [] 100 false,
      .polygon none [⟨0, 0⟩, ⟨50, 0⟩, ⟨50, 50⟩, ⟨0, 50⟩] 100 false] =
    some ("G0 X0.00 Y0.00 Z0.10\n" ++ "G0 X0.10\n" ++ "G0 Y0.10\n" ++ "G0 X0.00\n" ++ "G0 Y0.00\n" ++ "G0 X0.05\n" ++ "G0 Y0.05\n" ++
      "G0 X0.00\n" ++ "G0 Y0.00\n").toList := by decide +kernel

/-- "some moves" -/
example : builderText 100 [.move ⟨0, 0, 0⟩ 0, .move ⟨10, 0, 0⟩ 0, .move ⟨0, 20, 0⟩ 5, .move ⟨0, 0, 30⟩ 0, .move ⟨10, 0, 30⟩ 0,
      .move ⟨0, 0, 0⟩ 2, .move ⟨10, 0, 0⟩ 3, .move ⟨0, 20, 0⟩ 4, .move ⟨0, 0, 30⟩ 5] =
    some ("G0 X0.00 Y0.00 Z0.00\n" ++ "G0 X0.01\n" ++ "G1 X0.00 Y0.02 E5.0000\n" ++ "G0 Y0.00 Z0.03\n" ++ "G0 X0.01\n" ++
      "G1 X0.00 Z0.00 E7.0000\n" ++ "G1 X0.01 E10.0000\n" ++ "G1 X0.00 Y0.02 E14.0000\n" ++ "G1 Y0.00 Z0.03 E19.0000\n").toList := by
  decide +kernel

/-- "moves with zero length and no extrusion get ignored" -/
example : builderText 100 [.move ⟨0, 0, 0⟩ 0, .move ⟨10, 0, 0⟩ 0, .move ⟨0, 20, 0⟩ 5, .move ⟨0, 0, 30⟩ 0, .move ⟨0, 0, 30⟩ 0,
      .move ⟨0, 0, 30⟩ 5, .move ⟨0, 0, 30⟩ 0, .move ⟨0, 0, 0⟩ 2, .move ⟨10, 0, 0⟩ 3] =
    some ("G0 X0.00 Y0.00 Z0.00\n" ++ "G0 X0.01\n" ++ "G1 X0.00 Y0.02 E5.0000\n" ++ "G0 Y0.00 Z0.03\n" ++ "G1 E10.0000\n" ++
      "G1 Z0.00 E12.0000\n" ++ "G1 X0.01 E15.0000\n").toList := by decide +kernel

/-- The moves which occur several times in "different speeds". -/
def fourMoves : List Call := [.move ⟨0, 0, 0⟩ 0, .move ⟨10, 0, 0⟩ 5, .move ⟨40, 0, 0⟩ 5, .move ⟨10, 0, 0⟩ 0]

/-- "different speeds" -/
example : builderText 100 ([.setMoveSpeed 200, .setExtrudeSpeed 100] ++ fourMoves ++ [.setExtrudeSpeedOverride 150] ++ fourMoves ++
      [.disableExtrudeSpeedOverride] ++ fourMoves ++ [.setMoveSpeed 600] ++ fourMoves ++ [.setExtrudeSpeed 500] ++ fourMoves) =
    some ("G0 X0.00 Y0.00 Z0.00 F12000\n" ++ "G1 X0.01 F6000 E5.0000\n" ++ "G1 X0.04 E10.0000\n" ++ "G0 X0.01 F12000\n" ++
      "G0 X0.00\n" ++ "G1 X0.01 F9000 E15.0000\n" ++ "G1 X0.04 E20.0000\n" ++ "G0 X0.01 F12000\n" ++
      "G0 X0.00\n" ++ "G1 X0.01 F6000 E25.0000\n" ++ "G1 X0.04 E30.0000\n" ++ "G0 X0.01 F12000\n" ++
      "G0 X0.00 F36000\n" ++ "G1 X0.01 F6000 E35.0000\n" ++ "G1 X0.04 E40.0000\n" ++ "G0 X0.01 F36000\n" ++
      "G0 X0.00\n" ++ "G1 X0.01 F30000 E45.0000\n" ++ "G1 X0.04 E50.0000\n" ++ "G0 X0.01 F36000\n").toList := by decide +kernel

/-- "set extrusion" -/
example : builderText 100 [.setExtrusion 200 400, .polygon none [⟨0, 0⟩, ⟨0, 10000⟩] 0 true] =
    some ("G0 X0.00 Y0.00 Z0.00\n" ++ "G1 Y10.00 E0.3326\n").toList := by decide +kernel

/-- "set extrusion with over extrusion" -/
example : builderText 150 [.setExtrusion 200 400, .polygon none [⟨0, 0⟩, ⟨0, 10000⟩] 0 true] =
    some ("G0 X0.00 Y0.00 Z0.00\n" ++ "G1 Y10.00 E0.4989\n").toList := by decide +kernel

/-- "set extrusion with under extrusion" -/
example : builderText 50 [.setExtrusion 200 400, .polygon none [⟨0, 0⟩, ⟨0, 10000⟩] 0 true] =
    some ("G0 X0.00 Y0.00 Z0.00\n" ++ "G1 Y10.00 E0.1663\n").toList := by decide +kernel

/-- The options of the builder in these tests are the default ones. -/
example : ({} : Options).filament.filamentDiameter = 1750 ∧ ({} : Options).filament.extrusionMultiplier = 100 := by decide

/-! ## `gcode/generator_test.go` -/

/-- The world of the test: the text, the number of calls of `Render`, and whether the assertion on the layer numbers has always held. -/
structure FakeWorld where
  text : Str
  renders : Nat
  fine : Bool

/-- `Render` of `fakeRenderer`. -/
def fakeRenderer : Renderer FakeWorld := fun w layerNr maxLayer _ _ =>
  (⟨w.text ++ "number ".toList ++ formatInt layerNr ++ ['\n'], w.renders + 1, w.fine && decide (maxLayer ≥ layerNr)⟩, none)

/-- `TestGCodeGenerator`: three layers, one renderer. -/
example (l : Layer) :
    let r := generate {} [fakeRenderer] (fun w => { w with text := [] }) FakeWorld.text [l, l, l] ⟨"old".toList, 0, true⟩
    r.1.renders = 3 ∧ r.1.fine = true ∧ r.2 = ("number 0\nnumber 1\nnumber 2\n".toList, none) := by
  exact ⟨rfl, rfl, by simp [generate, renderLayers, renderLayer, fakeRenderer]; decide +kernel⟩

/-! ## `data/data_test.go` -/

/-- `TestMillimeter` -/
example : toMicrometer (f32 10) = 10000 ∧ toMicrometer (f32 (1123/1000)) = 1123 ∧ toMicrometer (f32 (11235/10000)) = 1124 ∧
    toMicrometer (f32 (11234/10000)) = 1123 ∧ toMicrometer (f32 0) = 0 ∧ toMicrometer (f32 (-11234/10000)) = -1123 := by decide +kernel

/-- `TestMicrometer` -/
example : toMillimeter 10 = f32 (1/100) ∧ toMillimeter 1123 = f32 (1123/1000) ∧ toMillimeter 1124 = f32 (1124/1000) ∧
    toMillimeter 0 = f32 0 ∧ toMillimeter (-1124) = f32 (-1124/1000) := by decide +kernel

/-! ## `data/micrometer_test.go` -/

/-- `TestMax` -/
example : maxM 1 3 = 3 ∧ maxM 3 1 = 3 ∧ maxM (-30) (-20) = -20 ∧ maxM (-20) (-20) = -20 := by decide

/-- `TestMicroVec3Add`, `Sub`, `Mul`, `Div` -/
example : let v : Vec3 := ⟨10, 20, 30⟩
    v.add v = ⟨20, 40, 60⟩ ∧ v.sub v = ⟨0, 0, 0⟩ ∧ v.mul 3 = ⟨30, 60, 90⟩ ∧ v.div 2 = .ok ⟨5, 10, 15⟩ := by decide +kernel

/-- `TestMicroVec3Max` -/
example : Vec3.max ⟨1, 2, 3⟩ = 3 ∧ Vec3.max ⟨1, 3, 2⟩ = 3 ∧ Vec3.max ⟨3, 2, 1⟩ = 3 ∧ Vec3.max ⟨1, 1, 1⟩ = 1 ∧ Vec3.max ⟨0, 0, 1⟩ = 1 ∧
    Vec3.max ⟨-10, -5, -10⟩ = -5 := by decide +kernel

/-- `TestMicroVec3PointXY`, `TestMicroVec3TestLength`, `Size2`, `Size` -/
example : let v : Vec3 := ⟨10, 20, 30⟩
    v.pointXY = ⟨10, 20⟩ ∧ [100, 38, 37, 36, 0].map v.shorterThanOrEqual = [true, true, false, false, false] ∧ v.size2 = 1400 ∧
    v.size = 37 := by decide +kernel

/-- `TestMicroVec3TestString`, `TestMicroVec3TestSet` -/
example : vec3String ⟨10, 20, 30⟩ = "10_20_30".toList ∧ vec3Set ⟨10, 20, 30⟩ "40_60_200".toList = (⟨40, 60, 200⟩, false) := by
  decide +kernel

/-- `TestMicroPointAdd`, `Sub`, `Mul`, `Div`, `Size2`, `Size`, `SizeMM` -/
example : let p : Pt := ⟨10, 20⟩
    p.add p = ⟨20, 40⟩ ∧ p.sub p = ⟨0, 0⟩ ∧ p.mul 3 = ⟨30, 60⟩ ∧ p.div 2 = .ok ⟨5, 10⟩ ∧ p.size2 = 500 ∧ p.size = 22 ∧
    p.sizeMM = f32 (22360679/1000000000) := by decide +kernel

/-- `TestMicroPointTestRotate`. The sine and the cosine are arguments; any float64 values which are near enough to those of the angles
90, -90 and 360 degrees give the expected points. -/
example : let e : ℚ := 1 / 2 ^ 52
    Pt.rotate 1 (f64 e) ⟨10, 20⟩ = ⟨-20, 10⟩ ∧ Pt.rotate (-1) (f64 e) ⟨10, 20⟩ = ⟨20, -10⟩ ∧
    Pt.rotate (f64 (-e)) 1 ⟨10, 20⟩ = ⟨10, 20⟩ := by decide +kernel

/-! ## `data/2d_test.go` -/

/-- `TestDotProduct`, `TestXDistance2ToLine` -/
example : dotProduct ⟨10, 20⟩ ⟨110, 120⟩ = 3500 ∧ perpendicularDistance2 ⟨0, 20⟩ ⟨50, 20⟩ ⟨0, 40⟩ = 400 := by decide +kernel

/-! ## `data/layer_test.go` -/

/-- `TestPathIsAlmostFinished` -/
example : [isAlmostFinished [⟨0, 0⟩, ⟨100, 0⟩, ⟨100, 100⟩, ⟨0, 100⟩, ⟨0, 0⟩] 30,
      isAlmostFinished [⟨0, -31⟩, ⟨100, 0⟩, ⟨100, 100⟩, ⟨0, 100⟩, ⟨0, 0⟩] 30,
      isAlmostFinished [⟨0, -30⟩, ⟨100, 0⟩, ⟨100, 100⟩, ⟨0, 100⟩, ⟨0, 0⟩] 30,
      isAlmostFinished [⟨-30, 0⟩, ⟨100, 0⟩, ⟨100, 100⟩, ⟨0, 100⟩, ⟨0, 0⟩] 30,
      isAlmostFinished [⟨-31, 0⟩, ⟨100, 0⟩, ⟨100, 100⟩, ⟨0, 100⟩, ⟨0, 0⟩] 30] =
    [.ok true, .ok false, .ok true, .ok true, .ok false] := by decide +kernel

/-- `TestPathBounds` -/
example : [pathBounds [⟨0, 0⟩, ⟨100, 0⟩, ⟨100, 100⟩, ⟨0, 100⟩, ⟨0, 0⟩],
      pathBounds [⟨0, 50⟩, ⟨50, 100⟩, ⟨100, 50⟩, ⟨50, 0⟩, ⟨0, 50⟩], pathBounds [⟨0, 0⟩], pathBounds []] =
    [(⟨0, 0⟩, ⟨100, 100⟩), (⟨0, 0⟩, ⟨100, 100⟩), (⟨0, 0⟩, ⟨0, 0⟩), (⟨0, 0⟩, ⟨0, 0⟩)] := by decide +kernel

/-- `TestPathsBounds` -/
example : [pathsBounds [[⟨0, 0⟩, ⟨100, 0⟩, ⟨100, 100⟩, ⟨0, 100⟩, ⟨0, 0⟩], [⟨0, 0⟩, ⟨200, 0⟩, ⟨200, 50⟩, ⟨0, 50⟩, ⟨0, 0⟩]],
      pathsBounds [[⟨0, 50⟩, ⟨50, 100⟩, ⟨100, 50⟩, ⟨50, 0⟩, ⟨0, 50⟩], [⟨-50, 0⟩, ⟨0, 50⟩, ⟨50, 0⟩, ⟨0, -50⟩, ⟨-50, 0⟩]]] =
    [(⟨0, 0⟩, ⟨200, 100⟩), (⟨-50, -50⟩, ⟨100, 100⟩)] := by decide +kernel

/-! ## `data/option_test.go` -/

/-- `TestDoesInstructionContainCodes` -/
example : [doesInstructionContainCodes ["abc".toList, "123".toList] ["abc test".toList, "123 test".toList],
      doesInstructionContainCodes ["abc".toList, "123".toList] ["test".toList, "test".toList],
      doesInstructionContainCodes ["abc".toList, "123".toList] ["test".toList, "abc test".toList]] =
    [.ok true, .ok false, .ok true] := by decide +kernel

/-- `TestSetFanSpeed`, the texts with an error -/
example : ["1=-5", "-1=5", "1=256", "1=-20,5=100"].map (fun s => (fanSet (fun _ => none) s.toList).2) = [true, true, true, true] := by
  decide +kernel

/-- `TestSetFanSpeed`, the good texts -/
example : let f := fun (s : String) => fanSet (fun _ => none) s.toList
    ((f "1=10").1 1, (f "1=10").2) = (some 10, false) ∧ ((f "1=20").1 1, (f "1=20").2) = (some 20, false) ∧
    ((f "1=20,5=100").1 1, (f "1=20,5=100").1 5, (f "1=20,5=100").2) = (some 20, some 100, false) := by decide +kernel

/-- `TestSetFanSpeedString`: the entries in any order, and nothing after a bad text -/
example : fanString [(1, 20), (5, 100)] = "1=20,5=100".toList ∧ fanString [(5, 100), (1, 20)] = "5=100,1=20".toList ∧
    fanString [(1, 20)] = "1=20".toList ∧ fanString [] = "".toList := by decide +kernel

/-! ## `goslice_test.go` -/

section Frame
variable {crossing : List LayerPart → Path → Bool × Bool} {lib : ClipperLib} {pt : Patterns} {layers : List Layer} {g0 : Builder} {t : Str}

/-- The options of `TestStartGCode`. -/
def withStart (lines : List Str) : Options := let o : Options := {}; { o with printer := { o.printer with startGCode := lines } }

/-- The options of `TestEndGCode`. -/
def withEnd (lines : List Str) (bed : Bool) : Options :=
  let o : Options := {}; { o with printer := { o.printer with endGCode := lines, hasHeatedBed := bed } }

/-- A text contains what the part before the layers or the part after the layers contains. -/
theorem frame_infix {o : Options} {a : Str} (hne : layers ≠ [])
    (h : (generateScripts crossing o (standardRenderers lib o pt) layers g0).2 = (t, none)) (ha : a <:+: startText o ∨ a <:+: endText o) :
    a <:+: t := by
  obtain ⟨g, rfl, -⟩ := print_body hne h
  rcases ha with ha | ha
  · exact (ha.trans (List.prefix_append _ _).isInfix).trans (List.prefix_append _ _).isInfix
  · exact ha.trans (List.suffix_append _ _).isInfix

/-- `TestStartGCode` "basic", for every model with a layer -/
example (hne : layers ≠ [])
    (h : (generateScripts crossing (withStart [";Set Hotend".toList, "M104 S0".toList]) (standardRenderers lib (withStart [";Set Hotend".toList, "M104 S0".toList]) pt) layers g0).2 =
      (t, none)) : ";Set Hotend\nM104 S0".toList <:+: t :=
  frame_infix hne h (.inl (by decide +kernel))

/-- `TestStartGCode` "no startcode supplied" -/
example (hne : layers ≠ []) (h : (generateScripts crossing {} (standardRenderers lib {} pt) layers g0).2 = (t, none)) :
    (";SET BED TEMP\nM190 S60 ; heat and wait for bed\n;SET HOTEND TEMP\nM109 S205 ; wait for hot end temperature".toList) <:+: t :=
  frame_infix hne h (.inl (by decide +kernel))

/-- `TestStartGCode` "no temp setting in start code" -/
example (hne : layers ≠ [])
    (h : (generateScripts crossing (withStart ["printer_start".toList]) (standardRenderers lib (withStart ["printer_start".toList]) pt) layers g0).2 = (t, none)) :
    (";SET BED TEMP\nM190 S60 ; heat and wait for bed\n;SET HOTEND TEMP\nM109 S205 ; wait for hot end temperature\n" ++
      ";START GCODE\nprinter_start").toList <:+: t :=
  frame_infix hne h (.inl (by decide +kernel))

/-- `TestEndGCode` "basic" -/
example (hne : layers ≠ [])
    (h : (generateScripts crossing (withEnd [";Set Hotend".toList, "M104 S0".toList] true) (standardRenderers lib (withEnd [";Set Hotend".toList, "M104 S0".toList] true) pt) layers g0).2 =
      (t, none)) : ";Set Hotend\nM104 S0".toList <:+: t :=
  frame_infix hne h (.inr (by decide +kernel))

/-- `TestEndGCode` "no endcode supplied" -/
example (hne : layers ≠ []) (h : (generateScripts crossing {} (standardRenderers lib {} pt) layers g0).2 = (t, none)) :
    ";END_GCODE\nM104 S0 ; Set Hot-end to 0C (off)\nM140 S0 ; Set bed to 0C (off)".toList <:+: t :=
  frame_infix hne h (.inr (by decide +kernel))

/-- `TestEndGCode` "no temp setting in end code" -/
example (hne : layers ≠ [])
    (h : (generateScripts crossing (withEnd ["printer_stop".toList] true) (standardRenderers lib (withEnd ["printer_stop".toList] true) pt) layers g0).2 = (t, none)) :
    ";END_GCODE\nM104 S0 ; Set Hot-end to 0C (off)\nM140 S0 ; Set bed to 0C (off)\nprinter_stop".toList <:+: t :=
  frame_infix hne h (.inr (by decide +kernel))

/-- `TestEndGCode` "no heated bed" -/
example (hne : layers ≠ [])
    (h : (generateScripts crossing (withEnd ["printer_stop".toList] false) (standardRenderers lib (withEnd ["printer_stop".toList] false) pt) layers g0).2 = (t, none)) :
    ";END_GCODE\nM104 S0 ; Set Hot-end to 0C (off)\nprinter_stop".toList <:+: t :=
  frame_infix hne h (.inr (by decide +kernel))

end Frame
end Verif
