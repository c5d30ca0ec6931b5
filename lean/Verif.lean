import Verif.Conformance.RepoTests
import Verif.Go.Base
import Verif.Go.Float
import Verif.Go.Strconv
import Verif.Go.Strings
import Verif.Lemmas.Float
import Verif.Lemmas.GCode
import Verif.Lemmas.Groups
import Verif.Lemmas.Lines
import Verif.Lemmas.Res
import Verif.Lemmas.Sqrt
import Verif.Lemmas.Strconv
import Verif.Model.Args
import Verif.Model.Builder
import Verif.Model.Calls
import Verif.Model.Clip
import Verif.Model.DPHeap
import Verif.Model.DebugStl
import Verif.Model.Flags
import Verif.Model.FloatText
import Verif.Model.Generator
import Verif.Model.Geom2d
import Verif.Model.Heap
import Verif.Model.Layer
import Verif.Model.Linear
import Verif.Model.Log
import Verif.Model.Machine
import Verif.Model.MachineBuilder
import Verif.Model.MachineLinear
import Verif.Model.MachineMain
import Verif.Model.MachineModifiers
import Verif.Model.MachineOptimizer
import Verif.Model.MachineProcess
import Verif.Model.MachineSlice
import Verif.Model.MachineSlicer
import Verif.Model.Micrometer
import Verif.Model.Modifiers
import Verif.Model.Nil
import Verif.Model.Optimizer
import Verif.Model.Option
import Verif.Model.Options
import Verif.Model.PartitionedLayer
import Verif.Model.Patterns
import Verif.Model.Process
import Verif.Model.Renderers
import Verif.Model.Slicer
import Verif.Props.Accuracy
import Verif.Props.Again
import Verif.Props.Area
import Verif.Props.Args
import Verif.Props.Bodies
import Verif.Props.BodiesExample
import Verif.Props.Bounds
import Verif.Props.Brim
import Verif.Props.BrimExample
import Verif.Props.BrimRing
import Verif.Props.Builder
import Verif.Props.BuilderMore
import Verif.Props.Cleaned
import Verif.Props.Climb
import Verif.Props.Clip
import Verif.Props.Columns
import Verif.Props.Command
import Verif.Props.CommandExample
import Verif.Props.Commands
import Verif.Props.Coverage
import Verif.Props.Covered
import Verif.Props.CoveredWhole
import Verif.Props.CrossSection
import Verif.Props.CutsWell
import Verif.Props.DebugStl
import Verif.Props.Depends
import Verif.Props.Drawn
import Verif.Props.Drift
import Verif.Props.Filament
import Verif.Props.Filled
import Verif.Props.Flags
import Verif.Props.FloatLimit
import Verif.Props.FloatText
import Verif.Props.Frame
import Verif.Props.Gaps
import Verif.Props.Generator
import Verif.Props.Grammar
import Verif.Props.Grid
import Verif.Props.Heat
import Verif.Props.Heaters
import Verif.Props.Height
import Verif.Props.Holes
import Verif.Props.Independent
import Verif.Props.Infill
import Verif.Props.InfillAreas
import Verif.Props.Inside
import Verif.Props.Labels
import Verif.Props.Log
import Verif.Props.Machine
import Verif.Props.MachineBuilder
import Verif.Props.MachineLinear
import Verif.Props.MachineModifiers
import Verif.Props.MachineOptimizer
import Verif.Props.MachineProcess
import Verif.Props.MachineSimplify
import Verif.Props.MachineSlice
import Verif.Props.MachineSlicer
import Verif.Props.Manner
import Verif.Props.Millimeter
import Verif.Props.Missing
import Verif.Props.MissingExample
import Verif.Props.MissingSupport
import Verif.Props.MissingSupportExample
import Verif.Props.MissingWhole
import Verif.Props.Mixed
import Verif.Props.MixedExample
import Verif.Props.Modifiers
import Verif.Props.Motion
import Verif.Props.MotionLayers
import Verif.Props.MotionModifiers
import Verif.Props.MotionPolygons
import Verif.Props.MotionPrint
import Verif.Props.Moved
import Verif.Props.Nil
import Verif.Props.Nothing
import Verif.Props.OpenFaces
import Verif.Props.Optimizer
import Verif.Props.Options
import Verif.Props.Outside
import Verif.Props.OutsideAreas
import Verif.Props.OutsideFill
import Verif.Props.Overlap
import Verif.Props.Patches
import Verif.Props.PatchesExample
import Verif.Props.PatchesSupportExample
import Verif.Props.PatchesWhole
import Verif.Props.PatternSetup
import Verif.Props.Patterns
import Verif.Props.PlateExample
import Verif.Props.Pointers
import Verif.Props.Polygons
import Verif.Props.Polyline
import Verif.Props.PolylineMem
import Verif.Props.Print
import Verif.Props.PrintArea
import Verif.Props.PrintAreaFill
import Verif.Props.PrintAreaLayers
import Verif.Props.PrintAreaMoves
import Verif.Props.PrintAreaWhole
import Verif.Props.Process
import Verif.Props.Program
import Verif.Props.Reader
import Verif.Props.RectLib
import Verif.Props.Region
import Verif.Props.Renderers
import Verif.Props.RestExample
import Verif.Props.Retraction
import Verif.Props.Rotation
import Verif.Props.Shell
import Verif.Props.ShellExample
import Verif.Props.Shortcut
import Verif.Props.Sides
import Verif.Props.SidesExample
import Verif.Props.SidesLayers
import Verif.Props.SidesWhole
import Verif.Props.Simplify
import Verif.Props.Skirt
import Verif.Props.SkirtExample
import Verif.Props.Slice
import Verif.Props.Slicer
import Verif.Props.Solid
import Verif.Props.Speeds
import Verif.Props.SquareLib
import Verif.Props.Squares
import Verif.Props.Success
import Verif.Props.Support
import Verif.Props.SupportClear
import Verif.Props.SupportExample
import Verif.Props.SupportSides
import Verif.Props.SupportWhole
import Verif.Props.ThinnedSide
import Verif.Props.Together
import Verif.Props.TogetherExample
import Verif.Props.Torn
import Verif.Props.TornExample
import Verif.Props.TornWhole
import Verif.Props.Travel
import Verif.Props.Triangles
import Verif.Props.TrianglesExample
import Verif.Props.Turned
import Verif.Props.TurnedArea
import Verif.Props.Typed
import Verif.Props.TypedHoles
import Verif.Props.TypedHolesExample
import Verif.Props.Units
import Verif.Props.VecOps
import Verif.Props.Verbatim
import Verif.Props.Volume
import Verif.Props.Way
import Verif.Props.Whole
import Verif.Spec.Accuracy
import Verif.Spec.Area
import Verif.Spec.Areas
import Verif.Spec.Args
import Verif.Spec.Blank
import Verif.Spec.Brim
import Verif.Spec.Calls
import Verif.Spec.Clear
import Verif.Spec.Climb
import Verif.Spec.Clip
import Verif.Spec.Column
import Verif.Spec.Command
import Verif.Spec.Commands
import Verif.Spec.Coverage
import Verif.Spec.Deep
import Verif.Spec.Drawn
import Verif.Spec.Filament
import Verif.Spec.FirstWord
import Verif.Spec.Flags
import Verif.Spec.FloatText
import Verif.Spec.Frame
import Verif.Spec.GCode
import Verif.Spec.Generation
import Verif.Spec.Grammar
import Verif.Spec.Grid
import Verif.Spec.Groups
import Verif.Spec.Heat
import Verif.Spec.Holes
import Verif.Spec.Independent
import Verif.Spec.Infill
import Verif.Spec.Inside
import Verif.Spec.Layers
import Verif.Spec.Length
import Verif.Spec.Log
import Verif.Spec.Manner
import Verif.Spec.Mesh
import Verif.Spec.Missing
import Verif.Spec.Motion
import Verif.Spec.Number
import Verif.Spec.Outside
import Verif.Spec.Polygons
import Verif.Spec.Polyline
import Verif.Spec.PrintArea
import Verif.Spec.Process
import Verif.Spec.Region
import Verif.Spec.Replace
import Verif.Spec.Request
import Verif.Spec.Retraction
import Verif.Spec.Sides
import Verif.Spec.Simplify
import Verif.Spec.Skin
import Verif.Spec.Skirt
import Verif.Spec.Slice
import Verif.Spec.Solid
import Verif.Spec.Speeds
import Verif.Spec.Together
import Verif.Spec.Travel
import Verif.Spec.Triangles
import Verif.Spec.Way
