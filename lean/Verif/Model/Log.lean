import Verif.Model.Flags

/-! # The log and what the command prints

The logger of the default options (`data/option.go:390-471` `DefaultOptions`) writes to the standard output. It writes each text as it is, as all of them end with a newline. -/
namespace Verif.Model
open Verif.Go

/-- The world and what is printed to the standard output so far. -/
structure Console where
  world : World
  out : Str := []

/-- `Logger.Printf`, for the formatted text. -/
def say (text : Str) : Act Console Unit := fun c => ({ c with out := c.out ++ text }, .ok ())

/-- A step which prints nothing. -/
def quiet {α : Type} (a : Act World α) : Act Console α := fun c => ({ c with world := (a c.world).1 }, (a c.world).2)

/-- The number `openFaces` in `optimizer/optimizer.go:43-163` `Optimize`. -/
def openFaces (faces : List OptFace) : Nat := (faces.map fun f => f.touching.corners.countP (· = -1)).sum

/-- `optimizer/optimizer.go:43-163` `Optimize` with the log; without it this is `optimize`. -/
def optimizeLogged (o : Options) (m : Mesh) : Act Console OptModel :=
  (quiet (pureAct (addFaces o.slicing.meldDistance {} m))).andThen fun s =>
  (quiet (pureAct (touchingFaces s.points 0 s.faces))).andThen fun faces =>
  (say ("Number of open faces: ".toList ++ formatInt (openFaces faces) ++ ['\n'])).andThen fun _ =>
  (quiet (pureAct (meshMin m))).andThen fun min =>
  (quiet (pureAct (meshMax m))).andThen fun max =>
  quiet (pureAct (.ok { points := s.points.map fun p => { p with pos := p.pos.sub (vectorOffset o.printer.center min max) },
                        faces := faces, size := max.sub min }))

/-- The loop over the modifiers in `goslice.go:125-185` `Process` with the log. -/
def runModifiersLogged : List (Str × (List Layer → Res (List Layer))) → List Layer → Act Console (List Layer)
  | [], layers => quiet (pureAct (.ok layers))
  | (name, m) :: ms, layers =>
    (quiet (pureAct (m layers))).andThen fun layers =>
    (say ("Modifier ".toList ++ name ++ " applied\n".toList)).andThen fun _ =>
    runModifiersLogged ms layers

/-- The names of the modifiers: `modifier/perimeter.go:18-25`, `modifier/infill.go:18-25`, `modifier/internal_infill.go:18-25`, `modifier/brim.go:27-34`, `modifier/support.go:65-72`,
`modifier/support.go:125-132`; read with `handler/handler.go:15-17` `GetName`. -/
def modifierNames : List Str :=
  ["Perimeter".toList, "Infill".toList, "InternalInfill".toList, "Brim".toList, "SupportDetector".toList, "SupportGenerator".toList]

/-- The outer loop of `gcode/generator.go:62-79` `Generate` with the log; without it this is `renderLayers`. -/
def renderLayersLogged {W : Type} (o : Options) (maxLayer : Int) (rs : List (Renderer W)) : Nat → List Layer → W → Str → W × Str × Option Fault
  | _, [], w, out => (w, out, none)
  | layerNr, layer :: layers, w, out =>
    let out := out ++ "Render layer ".toList ++ formatInt layerNr ++ ['/'] ++ formatInt maxLayer ++ ['\n']
    match renderLayer o maxLayer layerNr layer rs w with
    | (w, some f) => (w, out, some f)
    | (w, none) => renderLayersLogged o maxLayer rs (layerNr + 1) layers w out

/-- `gcode/generator.go:62-79` `Generate` with the log, for the built in renderers. -/
def generateLogged (lib : ClipperLib) (o : Options) (layers : List Layer) : Act Console Str := fun c =>
  let rs := (standardRenderers lib o c.world.patterns).map (Scripts.renderer lib.isCrossingPerimeter)
  match renderLayersLogged o (layers.length - 1) rs 0 layers (newBuilder o.filament.filamentDiameter o.filament.extrusionMultiplier) c.out with
  | (_, out, some e) => ({ c with out := out }, .error e)
  | (g, out, none) => ({ c with out := out }, .ok g.buf)

/-- `goslice.go:125-185` `Process` with the built in handlers and the log. `time` is the text for the processing time. -/
def processLogged (ext : Externals) (o : Options) (time : Str) : Act Console Unit :=
  (say ("Load model ".toList ++ o.goSlice.inputFilePath ++ ['\n'])).andThen fun _ =>
  (quiet (readModel ext.stl o.goSlice.inputFilePath)).andThen fun model =>
  (quiet (pureAct (meshMin model))).andThen fun min =>
  (quiet (pureAct (meshMax model))).andThen fun max =>
  (say ("Model loaded.\nFace count: ".toList ++ formatInt model.length ++ "\nSize: min: ".toList ++ vec3String min ++ " max ".toList ++ vec3String max ++ ['\n'])).andThen fun _ =>
  (optimizeLogged o model).andThen fun om =>
  (say "Model optimized\n".toList).andThen fun _ =>
  (quiet (pureAct (slice ext.lib o om))).andThen fun layers =>
  (say ("Model sliced to ".toList ++ formatInt layers.length ++ " layers\n".toList)).andThen fun _ =>
  (runModifiersLogged (modifierNames.zip (standardModifiers ext.lib ext.tan o)) layers).andThen fun layers =>
  (say ("Layers modified ".toList ++ formatInt layers.length ++ ['\n'])).andThen fun _ =>
  (quiet ((standardHandlers ext o).generatorInit om)).andThen fun _ =>
  (generateLogged ext.lib o layers).andThen fun gcode => fun c =>
    ({ world := (writeFile gcode (outputPath o.goSlice) c.world).1, out := c.out ++ "full processing time: ".toList ++ time ++ ['\n'] },
      (writeFile gcode (outputPath o.goSlice) c.world).2)

/-- What `cmd/goslice/main.go:16-37` `main` prints for the result of the process; after a panic, Go prints only to the standard error output. The texts of the errors are those of
the model. -/
def resultText : Res Unit → Str
  | .ok _ => []
  | .error (.err msg) => "error while processing file: ".toList ++ msg.toList ++ ['\n']
  | .error (.panic _) => []

/-- `cmd/goslice/main.go:16-37` `main` with the standard output, `cmd/goslice/main.go:39-42` `printVersion`. `usage` is what pflag prints before it ends the program. The message about
a missing path goes to the standard error output. -/
def mainPrinted (ext : Externals) (cl : CommandLine) (version time usage : Str) (w : World) : Console × Nat :=
  match parseFlags cl with
  | none => (⟨w, usage⟩, 2)
  | some o =>
    if o.goSlice.printVersion then (⟨w, "GoSlice ".toList ++ version⟩, 0)
    else if o.goSlice.inputFilePath = [] then (⟨w, []⟩, 1)
    else
      let r := processLogged ext o time ⟨w, []⟩
      ({ r.1 with out := r.1.out ++ resultText r.2 }, match r.2 with | .ok _ => 0 | .error _ => 2)

end Verif.Model
