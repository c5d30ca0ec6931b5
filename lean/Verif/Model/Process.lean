import Verif.Model.Slicer
import Verif.Model.Modifiers
import Verif.Model.Patterns

/-! # Model of `goslice.go`, `reader/reader.go` and `writer/writer.go` -/
namespace Verif.Model
open Verif.Go

/-- A method which may change a world (files, states of handlers) and may fail. -/
abbrev Act (W α : Type) := W → W × Res α

/-- One after the other; nothing more happens after a failure. -/
def Act.andThen {W α β : Type} (a : Act W α) (f : α → Act W β) : Act W β := fun w =>
  match a w with
  | (w, .error e) => (w, .error e)
  | (w, .ok x) => f x w

/-- `handler/handler.go:35-39` `LayerModifier`. The slice of layers is changed in place, here the new one is the result. `Init` returns nothing but may panic. -/
structure LayerModifier (W OM L : Type) where
  init : OM → Act W Unit
  modify : L → Act W L

/-- The handlers in `goslice.go:20-28` `GoSlice`. `describe` stands for the methods `FaceCount`, `Min` and `Max` of the model, which are called for the log. -/
structure Handlers (W M OM L : Type) where
  read : Str → Act W M
  describe : M → Act W Unit
  optimize : M → Act W OM
  slice : OM → Act W L
  modifiers : List (LayerModifier W OM L)
  generatorInit : OM → Act W Unit
  generate : L → Act W Str
  write : Str → Str → Act W Unit

section
variable {W M OM L : Type}

/-- The loop over the modifiers in `goslice.go:125-185` `Process`. -/
def runModifiers (om : OM) : List (LayerModifier W OM L) → L → Act W L
  | [], layers => fun w => (w, .ok layers)
  | m :: ms, layers => (m.init om).andThen fun _ => (m.modify layers).andThen fun layers => runModifiers om ms layers

/-- `outputPath` in `goslice.go:125-185` `Process`. -/
def outputPath (o : GoSliceOptions) : Str :=
  let outputPath := o.outputFilePath
  if outputPath = [] then o.inputFilePath ++ ".gcode".toList else outputPath

/-- `goslice.go:125-185` `Process`. The log (apart from `describe`) and the time are in `Model/Log.lean`. -/
def process (o : GoSliceOptions) (h : Handlers W M OM L) : Act W Unit :=
  (h.read o.inputFilePath).andThen fun model =>
  (h.describe model).andThen fun _ =>
  (h.optimize model).andThen fun optimized =>
  (h.slice optimized).andThen fun layers =>
  (runModifiers optimized h.modifiers layers).andThen fun layers =>
  (h.generatorInit optimized).andThen fun _ =>
  (h.generate layers).andThen fun gcode =>
  h.write gcode (outputPath o)

end

/-! ## The built in handlers -/

/-- A triangle of the package stl: float32 coordinates. (The normal and the attributes are ignored by the code.) -/
abbrev StlTriangle := Tri (Millimeter × Millimeter × Millimeter)

/-- `reader/reader.go:125-140` `stlTriangleToFace`. NaN and infinite coordinates are not modelled. -/
def stlTriangleToFace (t : StlTriangle) : Tri Vec3 := t.map fun v => ⟨toMicrometer v.1, toMicrometer v.2.1, toMicrometer v.2.2⟩

/-- The outside of the program: files, and the package stl. -/
structure World where
  /-- The content of the files, `none` for files which do not exist. -/
  files : Str → Option Str
  /-- Whether a file can be created. -/
  creatable : Str → Bool := fun _ => true
  /-- How much can be written to a file. -/
  space : Nat
  /-- The patterns set up by `Init` of the renderers (nil at the beginning). -/
  patterns : Patterns := ⟨none, none, none, none, none⟩

/-- `reader/reader.go:114-121` `reader.Read`. `stl` gives the triangles which `stl.CopyFile` appends before it ends or fails; its error is ignored by the code. A
file which exists but cannot be opened has no triangles. -/
def readModel (stl : Str → List StlTriangle) (filename : Str) : Act World Mesh := fun w =>
  match w.files filename with
  | none => (w, .error (.err "file does not exist"))
  | some content => (w, .ok ((stl content).map stlTriangleToFace))

/-- The calls of `Min` and `Max` for the log in `goslice.go:125-185` `Process`. -/
def describeMesh (m : Mesh) : Res Unit := do
  let _ ← meshMin m
  let _ ← meshMax m

/-- `writer/writer.go:15-25` `writer.Write`: the file is created or emptied, then as much as possible is written. -/
def writeFile (gcode filename : Str) : Act World Unit := fun w =>
  if w.creatable filename then
    ({ w with files := fun p => if p = filename then some (gcode.take w.space) else w.files p },
      if gcode.length ≤ w.space then .ok () else .error (.err "write failed"))
  else (w, .error (.err "file cannot be created"))

/-- `optimizer/model.go:32-52` `optimizedModel.Min`: the same code as for the model which was read. -/
def OptModel.min (om : OptModel) : Res Vec3 := do meshMin (← om.faces.mapM om.facePoints)

/-- `optimizer/model.go:54-74` `optimizedModel.Max`. -/
def OptModel.max (om : OptModel) : Res Vec3 := do meshMax (← om.faces.mapM om.facePoints)

/-- The patterns which are set up by `Init` of all renderers (`gcode/generator.go:28-32` `generator.Init`, `gcode/renderer/infill.go:28-30` `Init`). -/
def initPatterns (lib : ClipperLib) (trig : ℚ → ℚ × ℚ) (o : Options) (om : OptModel) : Res Patterns := do
  let min ← om.min
  let max ← om.max
  standardPatterns lib trig o min.pointXY max.pointXY

/-- A function without effect on the world. -/
def pureAct {W α : Type} (r : Res α) : Act W α := fun w => (w, r)

/-- Everything outside of GoSlice which it uses: the clipper library, the package stl, the trigonometric functions (`tan` is the tangent of the threshold
angle). -/
structure Externals where
  lib : ClipperLib
  stl : Str → List StlTriangle
  trig : ℚ → ℚ × ℚ
  tan : ℚ

/-- The handlers of `goslice.go:31-123` `NewGoSlice`. The `Init` of all modifiers does nothing. -/
def standardHandlers (ext : Externals) (o : Options) : Handlers World Mesh OptModel (List Layer) where
  read := readModel ext.stl
  describe m := pureAct (describeMesh m)
  optimize m := pureAct (optimize o m)
  slice om := pureAct (slice ext.lib o om)
  modifiers := (standardModifiers ext.lib ext.tan o).map fun m => { init := fun _ => pureAct (.ok ()), modify := fun ls => pureAct (m ls) }
  generatorInit om := fun w =>
    match initPatterns ext.lib ext.trig o om with
    | .error e => (w, .error e)
    | .ok p => ({ w with patterns := p }, .ok ())
  generate ls := fun w =>
    match (generateScripts ext.lib.isCrossingPerimeter o (standardRenderers ext.lib o w.patterns) ls
        (newBuilder o.filament.filamentDiameter o.filament.extrusionMultiplier)).2 with
    | (_, some e) => (w, .error e)
    | (t, none) => (w, .ok t)
  write := writeFile

/-- The whole program with the built in handlers. -/
def goSlice (ext : Externals) (o : Options) : Act World Unit := process o.goSlice (standardHandlers ext o)

end Verif.Model
