# Formal model of aligator/GoSlice in Lean 4

## 1. Layout

* `lean/Verif/Go/*`       – Go semantics shared by all models: panics/errors, text functions of `strings`/`strconv`/`fmt`, IEEE rounding.
* `lean/Verif/Model/*`    – the model of the code, one file per Go file (or group of small files). Every definition cites `/repo` file:lines.
* `lean/Verif/Spec/*`     – small specifications that do not use the model's helpers (G-code interpreter, geometry on ℤ/ℚ, sub-sequences, ...).
* `lean/Verif/Lemmas/*`   – helper lemmas.
* `lean/Verif/Props/*`    – the property theorems (C01 ...), next to each an `example` that shows its hypotheses are met.
* `lean/Verif/Conformance/*` – the unit tests of the repository, executed on the model (evidence for the translation, no proofs of properties).
* `MANIFEST.json`         – property → theorem names.
* `seeded/LOG.jsonl`      – mutation experiments.

## 2. General modelling decisions

* **Integers.** `Micrometer`/`int` are modelled by unbounded `Int`, `/` by Go's truncating division (`Int.tdiv`), `%` by `Int.tmod`.
  Go computes on int64 with wrap-around. `Model/Machine.lean` re-models the arithmetic kernels (`Size2`, `ShorterThanOrEqual`,
  `PerpendicularDistance2`, `DouglasPeucker`, `Simplify`) with the wrap-around; the models of their callers (`clip`, `gcode`) use these versions. It is
  proved where they agree with the `Int` versions (explicit bounds in the theorems) and that they differ outside. `Model/MachineOptimizer.lean` and `Model/MachineSlicer.lean` re-model
  the whole optimizer and slicer in this way; C126 shows that they agree with the `Int` models for all meshes up to 67 m.
  `Model/MachineModifiers.lean`, `MachineLinear.lean`, `MachineBuilder.lean` and `MachineProcess.lean` do the same for the rest of the program; C127 shows that the whole
  program does the same with both (for models up to 16 m and options within bounds), so under the hypotheses of C127 the properties of the program also hold with 64 bit integers. `pointHash` is 64 bit `BitVec` arithmetic, exactly as in Go on 64 bit platforms.
* **Floats.** `float32`/`float64` values are modelled as rationals plus an explicit round-to-nearest-even function with the IEEE precision and
  minimum exponent (`Go/Float.lean`), applied after each operation. Not modelled: overflow to infinity, NaN, negative zero. `math.Sin/Cos/Tan`
  are either parameters or the real functions.
* **nil / empty.** Where the code distinguishes `nil` from an empty slice, a slice is `Option (List α)`.
* **Panics and errors.** `Except Fault α` with `Fault.err` (returned error) and `Fault.panic` (run time panic).
* **Aliasing.** Where a property depends on it, an explicit store is used (vectors C03, Douglas-Peucker C07, attribute maps of layers C61/C64). Elsewhere slices are
  values. All calls of `append` in the code were checked for this: besides the two of C07 (`data/2d.go:46`, `slicer/layer.go:134`) only `modifier/internal_infill.go:63`
  and `gcode/renderer/skirt.go:51` append to a slice which they did not create; they write behind the end of a slice whose array no other slice uses.
* **External libraries.** go.clipper, go-convex-hull-2d, hschendel/stl, pflag, os are parameters of the model (`ClipperLib` in `Model/Clip.lean`). Region
  properties (C62–C67, C83, C84) assume, as the explicit hypothesis `Exact` (`Spec/Region.lean`), that the boolean operations of the library are exact
  on even-odd regions; nothing is assumed about offsets. `pixelLib` (`Props/Region.lean`) satisfies the hypothesis and is used in the examples.
  Infill properties assume `OpenClipping` about the clipping of open paths, C96 `CutsLines`, C97 `Nesting` (`Spec/Travel.lean`), C105 `KeepsInside` (`Spec/Coverage.lean`),
  C113 `InsetsKeep` (insets of areas which the library made keep their distance from the outside, up to a tolerance; `Spec/Accuracy.lean`), C114 `NothingOutside`
  (up to a tolerance, results are not outside of what they are made from; `Spec/Outside.lean`), C115 also `KeepsClear` (differences and enlargements; `Spec/Clear.lean`).
  C119 assumes `UnionKeeps` (the union keeps the sides of points which are not near to the outlines; `Spec/Solid.lean`), C121 `KeepsSides` (the same for all operations,
  insets move the border by at most 1.5 times their distance; `Spec/Sides.lean`), C122 `KeepsSides` and `InsetsKeep`, C123 `KeepsSides`,
  `NothingOutside` and `KeepsInside`, C125 `RingAround` (`Spec/Skirt.lean`) for the hull of the first layer. `Column` of `Spec/Column.lean` states where support belongs. `Skin` and `WellSliced` of `Spec/Skin.lean`
  state which points need a solid pattern, and which layers are cut without degenerate contacts.
  C102 assumes `StaysInside` (results do not leave the rectangles of their inputs, offsets reach at most 1.5 times their distance) and `TurnsBack` about sine
  and cosine (`Spec/PrintArea.lean`).
  These assumptions can be met together: `squareLib` (`Props/SquareLib.lean`) rounds exact results to unit squares and meets `NeverFails`, `OpenClipping`, `StaysInside`,
  `KeepsSides`, `NothingOutside`, `InsetsKeep`, `KeepsInside`, `KeepsClear`, `UnionKeeps` and `CutsLines`, those with a tolerance for 2 µm, and `Exact` for the centres of the squares.
  C137 uses it.
* **Logging** is dropped, except in `Model/Log.lean`, which models the program with its log (C141).

## 3. Plan per property

| id | model | proof |
|----|-------|-------|
| C01 | `ToMicrometer`/`ToMillimeter` on rationals with IEEE rounding | error analysis |
| C02 | `ShorterThanOrEqual` over Int and over Int64 | algebra; overflow witness |
| C03 | heap of vectors with pointers | invariant over operation sequences |
| C04 | `PerpendicularDistance2` | truncating division lemmas |
| C05 | `douglasPeucker` (fuel = the code's own depth limit) | induction on depth |
| C06 | same | induction, bracketing relation as inductive spec |
| C07 | `douglasPeucker` on an explicit backing array | simulation with pure version; mutation witness |
| C08, C09 | `Simplify` loop | invariant over the fold |
| C10 | `Bounds` | induction |
| C11 | `Rotate` with real sin/cos | real analysis |
| C12, C13 | `strconv.FormatInt`, `ParseInt(s,0,64)` | text lemmas |
| C14, C15 | `FanSpeedOptions.Set/String` over all iteration orders | induction, permutations |
| C16, C17 | `GCodeHunk` | text lemmas |
| C18–C21 | `Builder` as state machine, text output; independent G-code interpreter | refinement by induction over histories |
| C22 | decimal printing of rounded floats | error analysis |
| C23–C26 | `AddPolygon` | case analysis, histories |
| C27 | `fmt.Sprintf` without arguments | text lemma, witness |
| C28 | `SetExtrusion` with IEEE rounding | relative error analysis |
| C29, C30 | `Generate` with arbitrary renderers | induction |
| C31–C37 | renderers | case analysis / induction over layers |
| C38 | `polyTreeToLayerParts` | induction over rounds (tree size) |
| C39–C42 | `Inset`, `OffsetResult`, conversions, skirt distance | induction / arithmetic |
| C43–C46 | `getInfill`, `sortInfill` | loop invariants |
| C47–C51 | `Optimize` | invariant over the face loop |
| C52–C56, C60 | `SliceFace`, `Slice` | arithmetic, loop invariants, permutation argument |
| C57–C59 | `makePolygons` | loop invariants, well-founded recursion |
| C61–C69 | modifiers over an abstract `Clipper` interface | invariants; regions as sets |
| C70 | `Process` over abstract handlers | log of steps, case analysis |
| C71, C72, C89 | `Process` with the built in handlers, `Read`, `Write` | case analysis, error analysis |
| C92, C93, C95 | `ParseFlags` as list of flags with getter and setter, `main` | lens laws by computation, induction over settings |
| C94 | `strconv.ParseFloat` without infinity and NaN | text lemmas, error analysis |
| C96, C97 | `IsCrossingPerimeter`, `TopLevelPolygons` over the library | permutation of contours, induction over trees |
| C98 | patterns of `NewGoSlice` | case analysis |
| C99 | `DouglasPeucker` with int64 arithmetic | sign of the overflowed square, loop invariant |
| C100 | running total of filament in float32 | error analysis, induction over moves |
| C101 | border between perimeters and infill | float32 exactness of the overlap |
| C102 | slicing, modifiers, renderers, patterns, builder, `Process` | invariant "in a rectangle" through all stages; `Spec/Frame.lean` has the exact start and end text |
| C103 | `SliceFace`, `Slice`, `makePolygons`, `GenerateLayerParts` | crossing numbers modulo 2; each outline is compared with the exact lines, half planes separate the point from the difference |
| C104 | `Path.Simplify` | the removed chains cut off areas of at most √26 times their chords; invariant over the vertices |
| C105 | `linear.Fill`, `getInfill`, patterns of `NewGoSlice` | hypothesis `KeepsInside` on the library; scan line by floor division; shortening by cases |
| C106 | `modifier/support.go` | induction over the layers from `C67_areas`, composition with `C86_detected` and `C82_threshold` |
| C107 | `modifier/brim.go` | unfolding of the modifier with `C39_distance`; `C65_clear`; runs of the program with small exact libraries |
| C108 | `Optimize` as for C47; the program as for C90 | The two runs of the face loop are related by `Moves`: same indices and faces, positions moved. |
| C109 | `Optimize` and `Slice` as for C47 and C53 | Slicer and patterns use only size, corners and neighbours of the faces (`SameModel`); by C48 and C50 these depend only on the triangles which remain. |
| C110 | `SaveDebugSTL` (Model/DebugStl.lean); the encoding is a parameter | Unit round trip (C01), then C109_again. |
| C111 | Renderers, `Generate`, builder, patterns, program | Requests of a call are a block of the requests of the print; an extruding request is never dropped; composition with C105 and C98. |
| C112 | builder, renderers | `Extruding`: relation between neighbouring requests, kept by all calls; `BelongsTo` lists the kinds of paths (Props/Nothing.lean) |
| C113 | polyline, clip, builder | projection argument for the dropped points, `InsetsKeep` as hypothesis, C22 for the rounding, C112 for the moves (Props/Accuracy.lean) |
| C114 | clip, linear pattern, modifiers, builder | winding numbers of turned contours (C102), `NothingOutside` as hypothesis, areas of the modifiers step by step, C112 for the moves, C22 for the rounding (Props/Turned, TurnedArea, OutsideFill, OutsideAreas, Outside) |
| C115 | modifiers, clip, linear pattern, builder | invariant of the generator loop (`NearFree`), `KeepsClear` as hypothesis, C114_fill for the lines, C112 for the moves (Props/SupportClear.lean) |
| C116 | renderers, builder | Hoare style rules for lists of calls (`Leads`), composed with C36 and C18 (Props/Speeds.lean) |
| C117 | renderers, generator, builder | the lines of the text are split into sections (as in C31); M-codes are interpreted up to each move (Props/Heat.lean) |
| C118 | patterns, rotation, renderers, builder | distance from the contours is kept by rotation and rounding (Props/Covered.lean); then C105, C111 and the accuracy of coordinates (Props/CoveredWhole.lean) |
| C119 | `Simplify`, `GenerateLayerParts` | each removal replaces two sides by one which stays within 5 µm of them (Props/Shortcut.lean); crossing numbers modulo 2 as in C103 (Props/Solid.lean) |
| C120 | the whole program | C114, then the union of the simplified outlines, then C103 and C119 (Props/Solid.lean) |
| C121 | the whole program | parity of the number of areas around a point is followed through every modifier (Props/Sides.lean, SidesLayers.lean), then C119 for the layers and C118 for the moves (SidesWhole.lean); example with a block in SidesExample.lean |
| C122 | the whole program | which points a closed path encloses changes along a way only where the way meets the path (Props/Way.lean), DouglasPeucker keeps the sides of points 138 µm away (ThinnedSide.lean), then C111 for the moves and C113 for the distance (Shell.lean); example with a block and a library for rectangles in ShellExample.lean |
| C123 | the whole program | a loop invariant for the backwards loop: at points far from all contours, fullSupport is the column of Spec/Column.lean (SupportSides.lean); then C119 for the layers, C118 for the patterns and C111 for the moves (SupportWhole.lean); example with two boxes in SupportExample.lean |
| C124 | the whole program | each request of the print is a travel, a retraction or a line with its flow (invariant over all calls, Speeds.lean), the E words are decimals of the float32 total, one rounding step of the total, then C28 (Filament.lean) |
| C125 | the whole program | a half plane which contains the outlines contains what they enclose; the ring separates the points (C42, RingAround); thinning keeps sides of points at 138 µm (C119); what is drawn is printed (C111) |
| C126 | optimizer and slicer | a second model of both with wrap-around after each operation; by induction over all loops all points stay within 3·2^26, all heights below 2^30, all sums of lengths below 2^60 |
| C127 | the whole program | a second model of modifiers, patterns, renderers and builder with wrap-around after each operation; bounds for all points come from C102 (everything stays within the area of the model and a margin) |
| C128 | retraction in the whole print | an automaton over the requested moves (Spec/Retraction.lean); induction over the calls of all renderers along the execution of the builder |
| C129 | slicer, generator, builder | invariant over the calls of the builder (heights rise), C111, C112 |
| C130 | modifiers, renderers, builder | C42, C111, topology of C113 and C128 (every way meets a closed path around its start) |
| C131 | reader, optimizer, slicer, clip | C47/C48 (the triangles of the optimized model), inside of the outlines = inside of the solid (C103, C120), parity of crossings does not depend on order |
| C132 | slicer, clip, modifiers, renderers | parity of the crossings of two surfaces together; C114 (all lines are near the parts) and the sides of C119/C121 |
| C133 | all handlers of the program | the steps up to the layers do not use these options; calls which differ only in speeds and texts lead to the same requests besides the speeds, and fail together |
| C134 | all modifiers of the program | each modifier is a function of the options it reads and of the attributes it reads; those written by one modifier are not read by the ones it must not influence (C61) |
| C135 | builder, all renderers | each call of the builder writes lines of the form (number forms of fmt); labels are followed along the calls and compared with the moves of the interpreter |
| C136 | optimizer, slicer, modifier, data/layer.go, data/2d.go | A moved input gives the moved result for every function from the optimizer to the last modifier; the loops by induction, Path.Simplify by an invariant for its sum of areas modulo 2^64. |
| C137 | the whole program | The hypotheses of the parts are derived from the body: placed triangles, cuts of planes (each segment has exactly one successor), layers in the area of the body; then C90, C102, C114, C121, C122, C129 for the same text (Props/CutsWell, Together); library of squares: contours of sets of unit squares by following their sides (Props/Squares, SquareLib). |
| C138 | the command | Flags, then the machine run equals the ideal one (C127), which succeeds (C90) and prints the body (C137); C123 with the hypotheses of the layers derived from the body (Props/Command), example: a body in the form of an L with the library of squares (Props/CommandExample). |
| C139 | the slicer | The chains of segments are joined at their ends only along the cycles of the complete surface; at most one link is too wide for the join distance (`gap_polygons`, Props/Gaps). Crossings of a ray, modulo 2, add up to those of the complete surface (`gap_crossings`); the links come from the sides of the faces (`missing_links`, Props/Missing). Examples: a flat pyramid with two gaps of 0.3 mm and 0.12 mm, and one with 3 mm and 0.12 mm. |
| C140 | Process of the command line program for models with holes in the surface | C139 (the outlines of such a layer) gives the cross-section of the complete body; the theorems about infill (C121), walls (C122) and support (C138) were made independent of the surface which the layers come from (`SlicedAs`, `PrintsSupportWhere`). |
| C141 | The log of all stages, main | Model/Log.lean repeats the stages with the output added; a simulation shows that the rest is unchanged. The number of open faces is counted with C50 (the touching faces). |
| C142 | ParseFlags, main, pflag | Model/Args.lean splits the arguments as pflag does; Spec/Args.lean lists the words. The settings are then those of C93. |
| C143 | Process, read and write, main | the files after a run are given by the content of the model (C71); the patterns in memory are overwritten by Init before they are used. |
| C144 | main, all stages | composition of C142, C93, C140 and C127. |
| C145 | clip.go: runClipper | case analysis; the library of C137 makes nothing of nothing (`square_empty`). |
| C146 | the slicer | The chains of C139 with links over gaps which are pairs of loose sides instead of missing triangles (`hole_links`); crossings of a ray with the chains add up, modulo 2, to those of the faces and gaps. Examples: a pyramid with a notch whose two triangles are missing, 0.5 mm and 5 mm wide. |
| C147 | Process of the command line program for models with larger holes in the surface | C146 with the gaps between the loose sides at each patch (`patches_holes`): along a patch each side going up has a side going down as neighbour, so that all but two sides cancel (`loose_sum`); the ray parity of the patch is that of the line over the gap for points away from it (`patches_inside`). The rest as in C140. Examples: the pyramid of C146, and an overhang with two triangles missing side by side. |
| C148 | the slicer | The chains of C146, in which the wide gaps are no links: what is open after joining has the start of a wide gap as its end (`torn_polygons`, Props/Gaps), and the pieces which are kept are exactly the cuts which are not torn (`chain_back`, `torn_outlines`, Props/Torn). Example: a box and two boxes which have lost two walls each. |
| C149 | Process of the command line program for files with torn bodies | C148: the faces which are not torn are those of the closed bodies (`body_whole`), hence each layer is that of the bodies (`slicedAs_torn`, Props/TornWhole); the rest as in C147. Examples: a block beside a box which has lost two walls, and such a box below an overhang. |
| C150 | the command with its words | C144 for the text which is written, then C140, C147, C149 and C152 for the same text: the number of layers and the moves are determined by it (Props/TypedHoles). Example: `goslice rest.stl` with a block and a torn box. |
| C151 | `strconv.ParseFloat` with `special` | Induction over the common beginning of text and word; the characters of numbers (Props/FloatText). |
| C152 | Process of the command line program for files with holes and torn bodies | C148: no face of the bodies is torn (`mixed_whole`), the gaps which are left are a permutation of those of the patches, and C147 for these (`slicedAs_mixed`, Props/Mixed). Example: an overhang with a slit, above a box without two walls. |
| C153 | the operations of `data/micrometer.go` | Integer arithmetic, truncated division (Props/VecOps). |
| C154 | heating and custom lines | specification of first words by a decomposition, C35 for the placeholders |
| C90, C91 | everything from reading to writing | success predicates, types of attributes as invariant, paths in meshes |

Properties marked "(Violated ...)" in `properties.jsonl` are false of the code; for these the model proves the negation on a concrete witness and the
exact conditions under which the claim holds.

## 4. Violations found

The model proves these deviations of the code from the documentation or the obvious intention (theorem in brackets):

* Outlines more than 55.108 mm wide may be reduced to a line by an int64 overflow (`C99_collapse`, `C99_rectangle`, `C99_written`).
* The float32 total of filament loses short lines in long prints (`C100_stall`, `C100_text`).
* Round trip of units fails above 2^24 µm (`C01_limit`), length comparison for large values (`C02_int64_limit`).
* A print whose first polygon is drawn with the crossing test starts with a retraction at the origin (`C26_heights`, `C26_violation`).
* Percent signs in custom G-code are destroyed (`C27_changed`, `C27_violation`).
* A comment in custom G-code which looks like a temperature code leaves the hot end on (`C32_comment_leaves_hot`).
* `M140` is sent without heated bed (`C34_no_heated_bed`).
* Infill is drawn with the speed left over from the perimeters (`C76_infill_speed`).
* Infill lines with a non-positive distance never end (`C43_endless`); short lines are turned instead of removed (`C46_turned`).
* The nearest-line search does not use the head position (`C45_head_not_used`).
* One layer without parts stops infill for it and all layers above (`C64_stops`).
* Solid areas closer together than the enlargement cancel (`C83_violated`); same for support, which then lies inside the model (`C65_violated`).
* `InsetCount = 0` panics (`C69_panics`); `TopGapLayers < -1` panics (`C86_negative`).
* Gap and threshold distance of support are halved (`C82_gap`, `C82_threshold`).
* Vertices 1 µm apart stay separate at the border of a hash cell (`C49_separate`); empty models and `MeldDistance = 0` panic (`C87_empty`, `C87_meld`).
* A model with a gap in z panics, because the layer in the gap is `nil` (`C60_gap`, `C60_witness`); a model much
  thinner than the initial layer thickness and a layer thickness of zero panic as well (`C55_panics`).
* `removeLastPoint` changes only a copy, the last point of a polygon is kept (`C59_nothing`).
* A top exactly at the height of a layer leaves open polygons, which only the joining repairs (`C56_tip`).
* `InterfaceLayers = 0` makes the whole support an interface (`C67_zero`).
* Melding may remove the top of a closed surface, while the number of layers is that of the surface as read; then slicing panics (`C91_melded_top`). The same happens
  for a center below the bed (`C91_low_center`).
* The common part of bodies which overlap is left empty, as the outlines are combined by the even-odd rule (`C132_program`).
* The brim of an object is drawn through objects which are closer than its width (`C130_through`).
* If the flag `output` names the model file, the model is replaced by its G-code (`C143_overwritten`).
* A layer with a wide gap loses the whole outline (`C139_lost`, `C148_outlines`), and the number of open faces does not notice a face which is turned around (`C141_unnoticed`).
* Infinity and NaN are accepted as lengths (`C151_accepts`).
* A file without readable triangles panics (`C72_no_triangles`); parse errors are ignored (`C72_parse_error`).

## 5. Coverage

| Go file | model | not modelled |
|---------|-------|--------------|
| `data/micrometer.go`, `data/2d.go` | `Micrometer`, `Geom2d`, `Machine` | |
| `data/layer.go` | `Layer`, `DPHeap`, `Heap`, `PartitionedLayer` | |
| `data/option.go`, `cmd/goslice/main.go` | `Option`, `Options`, `Flags`, `FloatText`, `Args`, `MachineMain`, `Log` | texts of usage and errors of pflag; `inf`, `NaN` except for the parser (C151); the limit for the exponent in floats longer than 2400 characters (`C151_limit`) |
| `gcode/builder.go`, `gcode/generator.go`, `gcode/renderer/*` | `Builder`, `Calls`, `Generator`, `Renderers`, `MachineBuilder` | |
| `clip/clip.go`, `clip/linear.go` | `Clip`, `Linear`, `Patterns`, `MachineLinear` | the clipper library itself |
| `modifier/*` | `Modifiers`, `MachineModifiers` | |
| `optimizer/*`, `reader/reader.go` | `Optimizer`, `MachineOptimizer`, `DebugStl`, `Log` | |
| `slicer/*` | `Slicer`, `MachineSlicer` | |
| `goslice.go`, `reader/reader.go` (Read), `writer/writer.go` | `Process`, `Patterns`, `MachineProcess`, `Log` | measuring of time (a parameter); files are a map from paths to contents, a write stores as much as fits in the space left; NaN and infinite coordinates |
| `util/test` | – | test helper |

## 6. Trusted base

* Lean 4.33.0 kernel.
* Axioms: at most `propext`, `Classical.choice`, `Quot.sound`; the set for each theorem of the manifest is in `AXIOMS.md`.
* The faithfulness of the hand translation of the Go code, with the simplifications listed in section 2 and at each definition.
  `lean/Verif/Conformance/RepoTests.lean` replays the repository's own unit tests on the model, with the results expected there.
* The hypotheses about external libraries named above, wherever they appear in a theorem statement.
