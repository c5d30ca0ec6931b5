{"id": "C01", "title": "Unit conversion round trip", "statement": "Converting a Micrometer to Millimeter (a float32) and back with ToMicrometer returns the same Micrometer, for every length up to about four metres, in spite of the double rounding to float64 and float32.", "quantifier": "every int64 length m with |m| < 2^22 micrometres", "why_tests_cant": "The rounding error depends on the bit pattern of every value; the tests check five values.", "anchors": ["data/data.go:ToMicrometer", "data/data.go:ToMillimeter"]}
{"id": "C02", "title": "ShorterThanOrEqual is the Euclidean length test", "statement": "For points and 3d vectors ShorterThanOrEqual(l) with l >= 0 answers true exactly when the Euclidean length is at most l; for MicroPoint the answer for negative l is false. With int64 arithmetic this holds for coordinates and limits below 2^30 micrometres, and it is wrong for some larger ones (overflow).", "quantifier": "every vector and every limit", "why_tests_cant": "Quantifies over all int64 pairs; the shortcut test on the single coordinates must agree with the squared length test everywhere.", "anchors": ["data/micrometer.go:microPoint.ShorterThanOrEqual", "data/micrometer.go:microVec3.ShorterThanOrEqual", "data/micrometer.go:Size2"]}
{"id": "C03", "title": "Vector operations never mutate their operands", "statement": "Add, Sub, Mul, Div, Copy and PointXY return a new object with the component-wise result and leave every vector that already existed unchanged, even if the operands are the same object.", "quantifier": "every heap of vectors, every pair of (possibly aliased) operands, every sequence of operations", "why_tests_cant": "Aliasing: tests compare results, not that every other reference keeps its value after any sequence of calls.", "anchors": ["data/micrometer.go:Add", "data/micrometer.go:Sub", "data/micrometer.go:Mul", "data/micrometer.go:Div", "data/micrometer.go:Copy", "data/micrometer.go:PointXY"]}
{"id": "C04", "title": "PerpendicularDistance2 is a tight upper approximation", "statement": "PerpendicularDistance2(a,b,p) never divides by zero, is never negative, is |p-a|^2 when a=b, and otherwise is at least the exact squared distance of p to the infinite line ab and less than one square micrometre above it.", "quantifier": "every triple of points", "why_tests_cant": "Integer truncation in an intermediate quotient; the claim is about all triples.", "anchors": ["data/2d.go:PerpendicularDistance2", "data/2d.go:DotProduct"]}
{"id": "C05", "title": "DouglasPeucker keeps a subsequence with both ends", "statement": "DouglasPeucker terminates on every path and threshold and returns points of the input in their input order (never invents, reorders or duplicates a point), keeps the first and the last point, and returns paths of at most two points unchanged. This holds whatever int64 overflow occurs.", "quantifier": "every path of any length, every threshold", "why_tests_cant": "Recursion with data dependent split positions and a depth cut-off; needs induction.", "anchors": ["data/2d.go:DouglasPeucker", "data/2d.go:douglasPeucker", "data/2d.go:seekMostDistantPoint"]}
{"id": "C06", "title": "DouglasPeucker error bound", "statement": "Every point which DouglasPeucker(path, eps) drops lies at a distance below eps of the straight line through the two consecutive kept points which surround it in the input.", "quantifier": "every path of any length, every eps >= 1 and the default -1 (70)", "why_tests_cant": "The bound must hold for every dropped point of every path and depends on the recursion structure.", "anchors": ["data/2d.go:douglasPeucker", "data/2d.go:seekMostDistantPoint"]}
{"id": "C07", "title": "DouglasPeucker and its argument's memory", "statement": "Although DouglasPeucker assembles its result with append on sub-slices which share the backing array of the argument, the returned points are those of the side-effect free algorithm. The caller's slice is, however, not left intact: there are paths whose stored points are overwritten by the call.", "quantifier": "every path, every threshold; every layout of the shared backing array", "why_tests_cant": "Aliasing between recursive calls; tests look at the returned value of a few paths only.", "anchors": ["data/2d.go:douglasPeucker"]}
{"id": "C08", "title": "Simplify returns a subsequence and never panics", "statement": "Simplify returns only points of the path in their order, returns the empty path for at most two points and the path itself for exactly three, and performs no division by zero on any path. This holds whatever int64 overflow occurs.", "quantifier": "every path, both thresholds", "why_tests_cant": "Loop with accumulated area and a data dependent divisor.", "anchors": ["data/layer.go:Path.Simplify"]}
{"id": "C09", "title": "Simplify removes a vertex only by its documented criteria", "statement": "Every vertex that Simplify removes was removed because the shortcut segment has zero length, or because it is almost exactly collinear (both 25 square-micron tests), or because both adjacent segments are shorter than the limit and the height of the removed area is within the allowed error. In particular a vertex with a long adjacent segment which is not almost collinear is always kept. For coordinates below 67 m this is true of the int64 computation too; there overflow can only keep a vertex which could be removed.", "quantifier": "every path of four or more points, both thresholds, every position", "why_tests_cant": "The removal test depends on the history of earlier removals.", "anchors": ["data/layer.go:Path.Simplify"]}
{"id": "C10", "title": "Bounding boxes are exact", "statement": "Path.Bounds, Paths.Bounds and the Bounds of a partitioned layer enclose every point, each of the four limits is attained by some point, and the result is (0,0),(0,0) exactly for input without any point (or with that box).", "quantifier": "every path / list of paths, including empty ones", "why_tests_cant": "For all lists of points.", "anchors": ["data/layer.go:Path.Bounds", "data/layer.go:Paths.Bounds", "data/layer.go:partitionedLayer.Bounds"]}
{"id": "C11", "title": "Rotation round trip", "statement": "Rotating a point by an angle and then by the negative angle moves each coordinate by at most one micrometre (ideal sine and cosine, rounding of each coordinate to the nearest integer), and rotating a path by 0 degree changes nothing.", "quantifier": "every point, every angle", "why_tests_cant": "Rounding error over all angles and points.", "anchors": ["data/micrometer.go:microPoint.Rotate", "data/layer.go:Path.Rotate", "clip/linear.go:Fill"]}
{"id": "C12", "title": "Micrometer option texts: round trip and accepted texts", "statement": "Micrometer.Set(Micrometer.String(m)) succeeds and yields m. Set accepts exactly the integers in Go syntax of the int64 range (an optional sign; decimal, or octal with prefix 0 or 0o, binary with 0b, hexadecimal with 0x; single underscores between digits or after the prefix), and yields their value. A failed Set leaves 0 for a text which is no integer, and the nearest int64 value for an integer out of range.", "quantifier": "every int64 value, every text", "why_tests_cant": "All 2^64 values including the extremes.", "anchors": ["data/option.go:Micrometer.String", "data/option.go:Micrometer.Set"]}
{"id": "C13", "title": "Center option: round trip and atomic failure", "statement": "MicroVec3.Set(v.String()) yields v for every vector, and Set on any string which is not three integers separated by _ reports an error and leaves the vector completely unchanged.", "quantifier": "every vector and every string", "why_tests_cant": "All strings; partial assignment on failure is a history property.", "anchors": ["data/option.go:microVec3.String", "data/option.go:microVec3.Set"]}
{"id": "C14", "title": "Fan speed option accepts exactly the documented format", "statement": "FanSpeedOptions.Set succeeds only if every comma separated item is layer=speed with layer >= 0 and 0 <= speed <= 255; then the table maps each mentioned layer to its last mentioned speed and nothing else. On error the table is unchanged.", "quantifier": "every string, every previous table", "why_tests_cant": "All strings.", "anchors": ["data/option.go:FanSpeedOptions.Set"]}
{"id": "C15", "title": "Fan speed option text round trip for every map order", "statement": "Set(String(t)) restores the table t for every non-empty valid table, whatever order the Go map iteration produces.", "quantifier": "every table, every iteration order of the map", "why_tests_cant": "Map iteration order is nondeterministic: tests see only some orders.", "anchors": ["data/option.go:FanSpeedOptions.String", "data/option.go:FanSpeedOptions.Set"]}
{"id": "C16", "title": "G-code hunk option", "statement": "GCodeHunk.Set fails exactly when the string contains no newline; on success the stored lines are the non-blank rows of the string in order and unmodified; Set(String(h)) restores h for every hunk with at least two non-blank newline-free lines.", "quantifier": "every string, every hunk", "why_tests_cant": "All strings.", "anchors": ["data/option.go:GCodeHunk.Set", "data/option.go:GCodeHunk.String"]}
{"id": "C17", "title": "GetInstructionCode panics exactly on blank lines", "statement": "GetInstructionCode panics if and only if some line of the hunk is blank (only white space); therefore it never panics on a hunk which was produced by GCodeHunk.Set.", "quantifier": "every hunk", "why_tests_cant": "All line lists.", "anchors": ["data/option.go:GCodeHunk.GetInstructionCode", "data/option.go:GCodeHunk.Set"]}
{"id": "C18", "title": "The emitted moves reproduce every requested position", "statement": "Interpreting the G-code text emitted by a Builder with an independent G0/G1 interpreter (which keeps an omitted axis) gives, after each requested move, exactly the requested X, Y and Z rounded to the two printed decimals, although the Builder omits unchanged axes.", "quantifier": "every history of Builder calls (any moves, polygons, speed and extrusion settings, in any order)", "why_tests_cant": "State carried over any sequence of calls decides which axes are printed.", "anchors": ["gcode/builder.go:AddMoveSpeed", "gcode/builder.go:AddMove", "gcode/builder.go:AddPolygon"]}
{"id": "C19", "title": "The emitted feed rate is the selected speed", "statement": "After every emitted move the interpreted feed rate equals 60 times the speed selected for that move (extrude speed override if positive, otherwise extrude speed for extruding moves; move speed for travel; retraction speed for retractions), although the Builder prints F only on change. It fails only while the selected speed has been 0 since the start.", "quantifier": "every history of Builder calls", "why_tests_cant": "F is printed only when it differs from the cached speed.", "anchors": ["gcode/builder.go:AddMoveSpeed", "gcode/builder.go:AddMove", "gcode/builder.go:SetExtrudeSpeedOverride", "gcode/builder.go:DisableExtrudeSpeedOverride"]}
{"id": "C20", "title": "The E axis is the running total of all requested extrusions", "statement": "After any history the interpreted absolute E position equals the (float32) running sum of all requested extrusion amounts, rounded to four decimals, and an E word is printed exactly on the moves with non-zero extrusion, which are exactly the G1 moves.", "quantifier": "every history of Builder calls", "why_tests_cant": "Accumulated state over any history.", "anchors": ["gcode/builder.go:AddMoveSpeed"]}
{"id": "C21", "title": "No useless moves", "statement": "After the first emitted move no move line is emitted which neither changes a requested coordinate nor extrudes, and every requested move that changes a coordinate or extrudes is emitted.", "quantifier": "every history of Builder calls", "why_tests_cant": "History dependent.", "anchors": ["gcode/builder.go:AddMoveSpeed"]}
{"id": "C22", "title": "Printed coordinates are accurate", "statement": "The decimal number printed for a coordinate differs from the requested micrometre value by at most 5.1 micrometres, for all coordinates within one metre of the origin, in spite of the float64/float32 conversions.", "quantifier": "every coordinate in the range", "why_tests_cant": "Rounding for every value.", "anchors": ["gcode/builder.go:AddMoveSpeed", "data/data.go:ToMillimeter"]}
{"id": "C23", "title": "AddPolygon draws the polygon", "statement": "AddPolygon on a non-empty path without perimeter crossing emits a travel to the first (smoothed) point, then one requested extruding move per following point in order at height z, and for closed polygons a final move back to the first point; for an empty path it does nothing.", "quantifier": "every path, builder state, height, open flag", "why_tests_cant": "All paths and states.", "anchors": ["gcode/builder.go:AddPolygon"]}
{"id": "C24", "title": "Retractions are balanced", "statement": "Whenever the travel to a polygon crosses a perimeter and retraction is configured, the filament is retracted before the travel by the retraction length and pushed back by the same length after it at the polygon start; in between no material is extruded, and after a z hop the head is back at the height z. If it does not cross there is no retraction.", "quantifier": "every history, polygon, layer, retraction and z hop setting", "why_tests_cant": "State machine over any history.", "anchors": ["gcode/builder.go:AddPolygon"]}
{"id": "C25", "title": "Extrusion is monotone outside of retractions", "statement": "With non-negative extrusion per millimetre the absolute E value never decreases except for retractions, even with float32 accumulation.", "quantifier": "every history of Builder calls", "why_tests_cant": "float32 rounding of sums over arbitrarily long histories.", "anchors": ["gcode/builder.go:AddMoveSpeed", "gcode/builder.go:AddPolygon"]}
{"id": "C26", "title": "The head never moves below the first layer, apart from one possible retraction at the start", "statement": "Every move of a print (custom G-code aside) ends at the height of the first layer or above, with one exact exception: if the first polygon of the print is drawn with its layer (no skirt and no brim before it), retraction is configured and the way to it from X0 Y0 crosses a perimeter of the layer, then the first move is a retraction at the never set position X0 Y0 Z0. It never happens if a skirt or brim is drawn in the first layer.", "quantifier": "every option set with non-negative layer thickness, every list of layers, every crossing test, every custom G-code", "why_tests_cant": "Depends on the history up to the first move.", "anchors": ["gcode/builder.go:AddPolygon", "gcode/generator.go:Generate"]}
{"id": "C27", "title": "Custom G-code lines are emitted verbatim exactly if they contain no percent sign", "statement": "A start or end G-code line without placeholder and without percent sign is written to the output unchanged, followed by a newline. A line with a percent sign is interpreted as a format string and is never written unchanged. In such a line a number in brackets makes the next character the verb, even if it is another bracket, and the width of a verb is skipped, where a very large one swallows the rest of the line. A bracket which is not closed is dropped, and a star for the width is reported.", "quantifier": "every line, every state of the builder", "why_tests_cant": "All strings.", "anchors": ["gcode/builder.go:AddCommand", "gcode/renderer/layer.go:PreLayer.Render", "gcode/renderer/layer.go:PostLayer.Render"]}
{"id": "C28", "title": "Extruded volume matches the deposited volume", "statement": "The filament length requested for a line times the filament cross section equals line length times layer thickness times line width times the extrusion multiplier, up to a small relative float32 rounding error.", "quantifier": "every diameter, thickness, width, multiplier, line", "why_tests_cant": "Rounding over all values.", "anchors": ["gcode/builder.go:SetExtrusion", "gcode/builder.go:AddPolygon"]}
{"id": "C29", "title": "Every renderer sees every layer once, in order, at the right height", "statement": "Generate calls each renderer exactly once for each layer, layer by layer and in registration order, with height initialThickness + n*thickness, so heights strictly increase for positive thickness.", "quantifier": "every layer list, renderer list, option set", "why_tests_cant": "All sizes.", "anchors": ["gcode/generator.go:Generate"]}
{"id": "C30", "title": "Generate is all or nothing and repeatable", "statement": "If any renderer reports an error, Generate returns that first error and an empty string and calls no further renderer; otherwise the result is the concatenation of everything written. Calling Generate again with stateless renderers gives the same text.", "quantifier": "every point of failure, any number of repeated calls", "why_tests_cant": "Every failure point / history.", "anchors": ["gcode/generator.go:Generate", "gcode/generator.go:init"]}
{"id": "C31", "title": "Temperatures are set at the right layers", "statement": "The text of a print consists of a header and one section per layer, each beginning with ;LAYER:n. The normal temperatures are commanded exactly once, in the section of the layer with number InitialTemperatureLayerCount, if the print has that many layers, and never otherwise by the layer renderers. (For custom G-code lines without percent sign, see C27.)", "quantifier": "every option set and number of layers", "why_tests_cant": "All option values and layer counts.", "anchors": ["gcode/renderer/layer.go:PreLayer.Render"]}
{"id": "C32", "title": "Heaters are switched off at the end", "statement": "With ForceSafeStartStopGCode, after the whole text the target temperature of the hot end is 0 (and that of a heated bed too), whenever no first word of an end G-code line contains one of the temperature codes. The exception is real: an end G-code consisting of the comment ';M104 S0' suppresses the command and the hot end is left at its printing temperature.", "quantifier": "every end G-code", "why_tests_cant": "All custom G-code texts.", "anchors": ["gcode/renderer/layer.go:PostLayer.Render", "data/option.go:DoesInstructionContainCodes"]}
{"id": "C33", "title": "Fan commands follow the fan table", "statement": "In the section of each layer there is exactly one fan command if the table has an entry for the layer (M107 for 0, M106 with the speed otherwise), none otherwise, besides those of the end G-code in the last section.", "quantifier": "every table and layer", "why_tests_cant": "All tables.", "anchors": ["gcode/renderer/layer.go:PreLayer.Render"]}
{"id": "C34", "title": "No bed commands without a heated bed", "statement": "With HasHeatedBed=false the generated bed temperature commands are those of the custom G-code and exactly one M140 with the normal temperature if the print has the layer InitialTemperatureLayerCount (which deviates from the intention: there should be none).", "quantifier": "every option set with HasHeatedBed=false", "why_tests_cant": "All option sets.", "anchors": ["gcode/renderer/layer.go:PreLayer.Render", "data/option.go:PrinterOptions"]}
{"id": "C35", "title": "Placeholders are replaced everywhere", "statement": "After the start G-code is written no occurrence of {print_bed_temperature} or {print_temperature} remains in it, each one being replaced by the configured initial temperature, and other text is unchanged.", "quantifier": "every start G-code, all temperatures", "why_tests_cant": "All strings.", "anchors": ["gcode/renderer/layer.go:PreLayer.Render"]}
{"id": "C36", "title": "Perimeter drawing order", "statement": "The perimeter renderer draws every inset of every part exactly once, the outer perimeter (inset 0) last, and within an inset the holes before the outline, with the outer perimeter speed used exactly for inset 0.", "quantifier": "every perimeter structure", "why_tests_cant": "All nestings.", "anchors": ["gcode/renderer/perimeter.go:Render"]}
{"id": "C37", "title": "First layer speed and extrusion settings", "statement": "All extruding moves of layer 0 use the initial layer speed (if positive after truncation) and the initial layer thickness, all later layers use the layer/outer perimeter speed and the normal thickness.", "quantifier": "every option set, layer list", "why_tests_cant": "History of renderers across layers.", "anchors": ["gcode/renderer/layer.go:PreLayer.Render", "gcode/renderer/perimeter.go:Render"]}
{"id": "C38", "title": "Partitioning keeps every contour exactly once", "statement": "The conversion of a clipper polygon tree to layer parts uses every contour of the tree exactly once: contours at even depth become outlines, those at odd depth become holes of the part of their direct parent, and it terminates on every tree.", "quantifier": "every polygon tree of any depth and width", "why_tests_cant": "Breadth-first traversal of arbitrary trees.", "anchors": ["clip/clip.go:polyTreeToLayerParts"]}
{"id": "C39", "title": "Inset distances", "statement": "Inset returns exactly insetCount results and the n-th is the offset of the original part by initialOffset - n*offset; consequently perimeters lie at half a line width plus whole line widths inside the model, for every positive width below 2^31.", "quantifier": "every part, width and count", "why_tests_cant": "All counts and widths.", "anchors": ["clip/clip.go:Inset", "clip/clip.go:InsetLayer", "modifier/perimeter.go:Modify"]}
{"id": "C40", "title": "OffsetResult iteration", "statement": "ToOneDimension lists all parts in order; ForEach visits the same parts in the same order with their indices and stops directly after the first callback which returns true.", "quantifier": "every nesting, every callback", "why_tests_cant": "All shapes and break points.", "anchors": ["clip/clip.go:ToOneDimension", "clip/clip.go:ForEach"]}
{"id": "C41", "title": "Clipper conversions are lossless", "statement": "Converting a path to the clipper representation and back without simplification yields the same points in the same order.", "quantifier": "every path", "why_tests_cant": "All paths.", "anchors": ["clip/clip.go:clipperPath", "clip/clip.go:microPath"]}
{"id": "C42", "title": "Skirt never touches the brim", "statement": "Skirt line number k is the convex hull of support and perimeters of the first layer, enlarged by the skirt distance plus (BrimCount + 1 + k) line widths; brim line number k is an outermost perimeter outline enlarged by (k + 1) line widths; so the innermost skirt line keeps the skirt distance plus one line width from the outermost brim line, and skirt lines are one line width apart.", "quantifier": "every brim count, skirt count, width, distance", "why_tests_cant": "All option values.", "anchors": ["gcode/renderer/skirt.go:Render", "modifier/brim.go:Modify"]}
{"id": "C43", "title": "Infill scan lines", "statement": "For a positive line distance the vertical infill lines generated for a box are exactly those at min.X + k*distance that do not exceed max.X, in increasing order, each spanning the full height. For a non-positive distance and a non-empty box the generation does not terminate.", "quantifier": "every box and distance", "why_tests_cant": "Unbounded loop.", "anchors": ["clip/linear.go:getInfill"]}
{"id": "C44", "title": "Infill sorting keeps every line", "statement": "sortInfill outputs each infill line exactly once (possibly reversed), plus only connection lines when zig zag is on; it always terminates and never reaches its panic.", "quantifier": "every list of two-point lines, any crossing answers", "why_tests_cant": "Greedy loop over arbitrary inputs.", "anchors": ["clip/linear.go:sortInfill"]}
{"id": "C45", "title": "Infill sorting picks the nearest next line", "statement": "In each step the line chosen next has the smallest whole-micrometre distance (between the compared ends) of all unused lines, for coordinates up to 16 m. The compared ends are not the ends at which the head is: it is not always the line which starts nearest to the head (counterexample).", "quantifier": "every list of lines, every step", "why_tests_cant": "Greedy choice over arbitrary inputs.", "anchors": ["clip/linear.go:sortInfill"]}
{"id": "C46", "title": "Zig-zag shortening stays inside the line", "statement": "Shortened zig-zag lines lie within the original clipped line. (They are not always shorter in the same direction: lines between one half and one line width long are turned around.)", "quantifier": "every line and width", "why_tests_cant": "All values.", "anchors": ["clip/linear.go:getInfill"]}
{"id": "C47", "title": "Optimizer produces no degenerate and no duplicate faces", "statement": "Every face of the optimized model has three different points and no two faces have the same set of points.", "quantifier": "every model and option set", "why_tests_cant": "Invariant over a loop on any model.", "anchors": ["optimizer/optimizer.go:Optimize"]}
{"id": "C48", "title": "Optimizer moves vertices at most by the meld distance", "statement": "Each corner of a kept face is represented by a point that is (before the common translation) a vertex of the input model at most MeldDistance away, and the corner order is kept. Non-degenerate faces are dropped only if a face with the same points was kept before.", "quantifier": "every model", "why_tests_cant": "Invariant over any model.", "anchors": ["optimizer/optimizer.go:Optimize"]}
{"id": "C49", "title": "Equal vertices are always merged", "statement": "Two input vertices with equal coordinates are always represented by the same point of the optimized model, independent of hash collisions and of other vertices; two nearby vertices on different sides of a hash cell border may stay separate. The points of the optimized model are vertices of the model, and two of them which are in the same cell of the grid (cells of the meld distance around its multiples) are farther apart than the meld distance.", "quantifier": "every model, every pair of vertices", "why_tests_cant": "Depends on the order of all vertices and hash buckets.", "anchors": ["optimizer/optimizer.go:Optimize"]}
{"id": "C50", "title": "Touching faces are correct", "statement": "For each side of each face the touching index is -1 exactly when no other face has both end points of that side, otherwise it is the index of a different existing face that has both. If exactly two faces share a side they refer to each other.", "quantifier": "every model", "why_tests_cant": "Derived structure of any model.", "anchors": ["optimizer/model.go:getFaceIdxWithPoints", "optimizer/optimizer.go:Optimize"]}
{"id": "C51", "title": "The model is placed at the configured center", "statement": "All points are translated by the same vector, which maps the middle of the input bounding box (X,Y, rounded) and its lowest Z to the configured center; Size is the size of the input bounding box; so all heights of the result lie between center.Z and center.Z + size.Z.", "quantifier": "every non-empty model and center", "why_tests_cant": "All models.", "anchors": ["optimizer/optimizer.go:Optimize", "reader/reader.go:Min", "reader/reader.go:Max"]}
{"id": "C52", "title": "Slicing a face interpolates its edges", "statement": "SliceFace never divides by zero when called by the slicer, its end points lie in the bounding interval of the respective edge and within one micrometre of the exact intersection of the edge with the plane. For coordinates below 1 km this is free of int64 overflow.", "quantifier": "every triangle and height that the slicer accepts", "why_tests_cant": "Truncating division for all int64 triples.", "anchors": ["slicer/segment.go:SliceFace", "slicer/slicer.go:Slice"]}
{"id": "C53", "title": "Each layer contains a segment exactly for the crossing faces", "statement": "At each layer height a face contributes exactly one segment if one corner is below and both others are at or above the plane, or two are below and the third strictly above; otherwise none; and never to another layer.", "quantifier": "every model, option set, face and layer", "why_tests_cant": "Loop bounds use truncating division of possibly negative values.", "anchors": ["slicer/slicer.go:Slice"]}
{"id": "C54", "title": "Segments are consistently oriented", "statement": "A segment always starts on the side of the face that goes downward (in the corner order of the face) and ends on the side that goes upward; for neighbouring faces with opposite direction of the common side the end of one segment and the start of the next are at most one micrometre apart in X and in Y.", "quantifier": "every pair of neighbouring faces and height", "why_tests_cant": "All triangles.", "anchors": ["slicer/slicer.go:Slice", "slicer/segment.go:SliceFace"]}
{"id": "C55", "title": "Slicing never indexes outside of the layers", "statement": "Slicing succeeds, and every layer number touched is inside the allocated range, for every optimized model with center.Z <= 0, positive layer thickness and an initial thickness below twice the layer thickness; the layers are exactly those with a height up to the size of the model. (Otherwise: if a face reaches a layer above the size, as for center.Z > 0, Slice fails; layer thickness 0 and models ending two layers below the first one panic.)", "quantifier": "every model and positive thickness values", "why_tests_cant": "Truncating divisions for all values.", "anchors": ["slicer/slicer.go:Slice"]}
{"id": "C56", "title": "Watertight meshes give closed outlines", "statement": "For a closed, consistently oriented surface and a layer height which no face touches from below with a single corner, there is a permutation of the segments of the layer giving for each segment one which follows it in the neighbouring face (for a meld distance of at least 2). If the segments start more than twice the meld distance apart, the polygons of the layer are exactly the cycles of this permutation: all are closed before joining, each segment is used exactly once, and only those not longer than the finish distance are left out.", "quantifier": "every closed oriented mesh, every generic height", "why_tests_cant": "Global property of arbitrary meshes.", "anchors": ["slicer/slicer.go:Slice", "slicer/layer.go:makePolygons"]}
{"id": "C57", "title": "Each segment is used by exactly one polygon", "statement": "Polygon building terminates and, before joining, the polygons partition the segments of the layer: every segment is in exactly one polygon, each segment starts within the meld distance of the end of the one before it, in a touching face; a polygon is closed exactly if its first segment follows its last in the same sense, and it ends only if all followers of its last segment are in this or an earlier polygon.", "quantifier": "every set of segments and touching relation", "why_tests_cant": "Graph traversal on arbitrary relations.", "anchors": ["slicer/layer.go:makePolygons"]}
{"id": "C58", "title": "Only closed, large enough polygons leave the slicer", "statement": "Each polygon delivered by a layer ends within the meld, join or finish distance of its start and is longer than the finish distance; it consists of complete chains of segments, no segment being used twice in the whole layer. Joining terminates, loses no polygon and no point, joins only open polygons, takes the polygon with the best score among those starting within the join distance, and leaves no two open polygons which could be joined.", "quantifier": "every layer", "why_tests_cant": "Loop with restarts on arbitrary data.", "anchors": ["slicer/layer.go:makePolygons"]}
{"id": "C59", "title": "Joining never drops the duplicated end point", "statement": "removeLastPoint is meant to remove the duplicated closing point. (Violated: it never changes a polygon.)", "quantifier": "every layer and polygon", "why_tests_cant": "All polygons.", "anchors": ["slicer/layer.go:removeLastPoint"]}
{"id": "C60", "title": "Layers without material", "statement": "Slice delivers a (possibly empty) partition for each layer between bottom and top of a model if each layer height is reached by a face and the clipper library does not fail. (Without that condition the intention is violated: if no face reaches a layer height between others, Slice panics with a nil dereference.)", "quantifier": "every model", "why_tests_cant": "All models.", "anchors": ["slicer/slicer.go:Slice", "slicer/layer.go:makePolygons"]}
{"id": "C61", "title": "Modifiers never change the sliced parts", "statement": "After any sequence of the built-in modifiers each layer still has the same layer parts and bounds, only attributes are added, and the number of layers is unchanged.", "quantifier": "every layer list, clipper behaviour, option set, sequence of modifiers", "why_tests_cant": "All sequences and any library results.", "anchors": ["modifier/perimeter.go:perimeterModifier.Modify", "modifier/infill.go:infillModifier.Modify", "modifier/internal_infill.go:internalInfillModifier.Modify", "modifier/brim.go:brimModifier.Modify", "modifier/support.go:supportDetectorModifier.Modify", "modifier/support.go:supportGeneratorModifier.Modify", "modifier/modifier.go:newExtendedLayer"]}
{"id": "C62", "title": "Top, bottom and internal infill are disjoint and cover the interior", "statement": "After the perimeter, infill and internal infill modifiers, given a clipper library which computes exact regions, the bottom, top and internal infill areas of a layer (all layers up to it having parts) are pairwise disjoint, bottom and top lie inside the infill borders, and the internal infill is exactly the remaining area of the borders; if the borders of different parts do not overlap, the three together are exactly the area inside of the borders.", "quantifier": "every layer list and option set with positive infill", "why_tests_cant": "All geometries.", "anchors": ["modifier/infill.go:Modify", "modifier/internal_infill.go:Modify"]}
{"id": "C63", "title": "Solid bottoms and tops", "statement": "The area from which the bottom infill of an innermost perimeter is derived is exactly the part of it which is not covered by all of the next NumberBottomLayers layers below, and all of it on the lowest NumberBottomLayers layers; same for top. The infill of a layer consists of these areas, enlarged part by part and clipped at the infill border.", "quantifier": "every layer list, numbers of layers", "why_tests_cant": "All geometries and counts.", "anchors": ["modifier/infill.go:Modify"]}
{"id": "C64", "title": "Infill is generated for every layer", "statement": "Every layer with parts gets its infill attributes. (Violated: one layer without parts stops the infill modifiers; that layer and all layers above it get neither bottom, top nor internal infill.)", "quantifier": "every layer list", "why_tests_cant": "All layer lists.", "anchors": ["modifier/infill.go:Modify", "modifier/internal_infill.go:Modify"]}
{"id": "C65", "title": "Support stays clear of the model", "statement": "Generated support of a layer (except the two top layers) does not overlap the enlarged parts of the layer (with the even-odd rule) or the brim, support and interface areas are disjoint, and support is only where it was detected for this layer or a layer above; if the enlarged parts do not overlap, the support stays outside of the model. (Violated for two parts closer together than the enlargement: the even-odd rule leaves support inside of the model.)", "quantifier": "every layer list and option set with exact clipper regions", "why_tests_cant": "All geometries.", "anchors": ["modifier/support.go:Modify"]}
{"id": "C66", "title": "Support attributes only when enabled", "statement": "With support disabled the support modifiers change nothing and report no error.", "quantifier": "every layer list", "why_tests_cant": "All layer lists.", "anchors": ["modifier/support.go:Modify"]}
{"id": "C67", "title": "Interface layer count", "statement": "A support area is filled with the interface pattern exactly where there is no support InterfaceLayers layers above (in the topmost layer, if there are not so many), and where there is no brim; the remaining support is the rest. (For InterfaceLayers = 0 the whole support becomes interface.)", "quantifier": "every layer list and count", "why_tests_cant": "All counts.", "anchors": ["modifier/support.go:supportGeneratorModifier.Modify"]}
{"id": "C68", "title": "Attribute access is type safe", "statement": "The attribute accessors return the stored value if it has the right type, (nil, nil) if it is absent, an error if the type is wrong, and never panic.", "quantifier": "every attribute map", "why_tests_cant": "All maps.", "anchors": ["modifier/modifier.go:PartsAttribute", "modifier/perimeter.go:Perimeters", "modifier/perimeter.go:OverlapPerimeters", "modifier/brim.go:Brim", "modifier/brim.go:BrimOuterDimension", "modifier/support.go:FullSupport"]}
{"id": "C69", "title": "Perimeter modifier and zero perimeters", "statement": "The perimeter modifier succeeds for every layer list and InsetCount >= 1. (For InsetCount = 0 it panics as soon as a layer has a part.)", "quantifier": "every layer list and option set", "why_tests_cant": "All layer lists.", "anchors": ["modifier/perimeter.go:Modify"]}
{"id": "C70", "title": "Processing stops at the first error and writes nothing", "statement": "Process runs reader, optimizer, slicer, modifiers, generator and writer in this order; on the first error it returns that error and runs no later step; in particular the output is only written after everything else succeeded, and exactly once.", "quantifier": "every combination of handlers and failure points", "why_tests_cant": "Every failure point with arbitrary handlers.", "anchors": ["goslice.go:Process"]}
{"id": "C71", "title": "The output file contains exactly the G-code", "statement": "If the program (with the built in handlers) succeeds, then the file at OutputFilePath, or at the input path followed by .gcode if it is empty, contains exactly the generated G-code, and no other file is changed. Whether it succeeds or not, no other file is changed, and the output file is not touched unless all G-code was generated.", "quantifier": "all options, files and external libraries", "why_tests_cant": "All paths, contents and failure points.", "anchors": ["goslice.go:Process", "writer/writer.go:Write"]}
{"id": "C72", "title": "Unreadable models", "statement": "A missing file is reported as an error and nothing is written. Violated in the broader sense: parse errors are ignored (the result is the same as for a file with only the triangles before the error), and a file without readable triangles makes Process panic instead of returning an error.", "quantifier": "every file content", "why_tests_cant": "All file contents.", "anchors": ["reader/reader.go:Read", "goslice.go:Process", "reader/reader.go:Min"]}
{"id": "C73", "title": "Size is the floor of the Euclidean length", "statement": "MicroPoint.Size and MicroVec3.Size return the integer part of the exact Euclidean length whenever the squared length is below 2^52, although they go through float64; for larger vectors the result can be one too large.", "quantifier": "every vector with squared length below 2^52", "why_tests_cant": "A wrong rounding of the square root appears only near perfect squares; all vectors have to be considered.", "anchors": ["data/micrometer.go:microPoint.Size", "data/micrometer.go:microVec3.Size"]}
{"id": "C74", "title": "DouglasPeucker is free of overflow up to a diameter of 55.1 mm", "statement": "With int64 arithmetic DouglasPeucker computes the same result as with unbounded integers for every path of which any two points are at most 55.1089 mm apart (squared distance at most 3037000499, the largest integer whose square fits into int64), so that the error bound holds. The limit is sharp: a rectangle 55.108 mm wide is kept, one of 55.109 mm is not.", "quantifier": "every path of a diameter of at most 55.1089 mm, every epsilon", "why_tests_cant": "The tests use small coordinates only; overflow needs a wide path, and absence of overflow is a claim about every intermediate value.", "anchors": ["data/2d.go:PerpendicularDistance2", "data/2d.go:seekMostDistantPoint", "data/2d.go:DouglasPeucker"]}
{"id": "C75", "title": "Which custom lines suppress the automatic temperature commands", "statement": "DoesInstructionContainCodes never panics, and it answers true exactly if the first word of some line contains one of the wanted codes as a substring. Consequently a comment ;M104 or a code M1040 counts, while '; M104' does not.", "quantifier": "every hunk (also with blank lines), every list of codes without white space", "why_tests_cant": "The answer has to be right for all lines, in particular for white space and comment variants.", "anchors": ["data/option.go:GCodeHunk.DoesInstructionContainCodes"]}
{"id": "C79", "title": "Text generation never panics and fails only for named reasons", "statement": "The builder never panics, whatever it is asked to draw. If the crossing test of the clipper does not fail, Generate succeeds exactly if no renderer fails by itself (wrong attribute type or failing infill pattern).", "quantifier": "every sequence of builder calls, every list of renderers and layers, every crossing test", "why_tests_cant": "Absence of panics is a claim about all paths and builder states.", "anchors": ["gcode/builder.go:AddPolygon", "gcode/generator.go:Generate"]}
{"id": "C76", "title": "Speed of the infill", "statement": "If the last part of a layer has an outer perimeter, all support and infill lines of the layer are requested with the speed for outer perimeters (deviating from the documented LayerSpeed), because the perimeter renderer sets the speed and nothing sets it back before the next layer.", "quantifier": "every layer with such perimeters, every set of infill patterns, every history before", "why_tests_cant": "It is the interaction of renderers run in sequence on shared builder state; the tests run renderers one by one.", "anchors": ["gcode/renderer/perimeter.go:Perimeter.Render", "gcode/renderer/infill.go:Infill.Render", "goslice.go:NewGoSlice"]}
{"id": "C77", "title": "End to end: the text makes the moves of the layers in order", "statement": "For every custom G-code, every set of layers, patterns and clipper results, the text generated by the standard renderers is start G-code, body and end G-code, where the body, read by an independent G-code interpreter, makes exactly the requested moves, layer after layer; each move is a travel at travel speed, a retraction or its end, or an extruding line at the height of its layer with the filament for the thickness of the layer at the speed for the layer.", "quantifier": "all options, layers, patterns, clipper and crossing results for which Generate succeeds", "why_tests_cant": "Composition of ten renderers, generator and builder over arbitrary layers.", "anchors": ["gcode/generator.go:Generate", "gcode/builder.go:AddPolygon", "goslice.go:NewGoSlice", "gcode/renderer/layer.go:PreLayer.Render"]}
{"id": "C80", "title": "Infill line distance", "statement": "For line widths up to 10 mm and 1 to 100 percent, the distance of the internal infill lines is exactly 10^6/(lines per 10 mm * percent) rounded down (no float rounding error is ever visible), at least the line width, and between the ideal distance minus 1 um and the ideal distance times 10000/(10000-width). For widths above 10 mm or negative percentages the infill generation does not end; width 0 panics.", "quantifier": "every width and percentage", "why_tests_cant": "Float rounding for all combinations.", "anchors": ["goslice.go:NewGoSlice", "clip/linear.go:getInfill"]}
{"id": "C81", "title": "Infill of a part", "statement": "If the library clips open lines without failure, Fill does not fail for any part and layer: it clips the scan lines over the rotated model limits by the rotated outline and holes and returns every clipped line exactly once (shortened for zig zag, with connections only as in C44), rotated back; the rotation is the configured angle, plus 90 degrees on even layers for rectilinear patterns.", "quantifier": "every pattern, part, layer and library behaviour", "why_tests_cant": "Composition of rotation, clipping and sorting over all inputs.", "anchors": ["clip/linear.go:Fill"]}
{"id": "C82", "title": "Support gap and threshold distance are halved", "statement": "The model is enlarged by Gap before it is subtracted from the support, and by thickness*tan(angle) for the detection of overhangs. (Violated: both enlargements use only half of the distance, as a single inset uses only the initial offset.)", "quantifier": "every layer and option set", "why_tests_cant": "All option values; a test would need to measure the result of the library.", "anchors": ["modifier/support.go:supportGeneratorModifier.Modify", "modifier/support.go:supportDetectorModifier.Modify", "clip/clip.go:Inset"]}
{"id": "C83", "title": "Enlarged solid areas overlap", "statement": "Every point of a solid area (bottom or top) inside of the border is filled solidly. (Holds if the enlarged parts of the area do not overlap and contain the parts. Violated otherwise: where exactly two enlarged parts overlap, the even-odd rule removes the area from the solid infill.)", "quantifier": "every layer list and option set with exact clipper regions", "why_tests_cant": "All geometries.", "anchors": ["modifier/infill.go:Modify", "modifier/perimeter.go:calculateOverlapPerimeter"]}
{"id": "C84", "title": "Set operations on layer parts", "statement": "If the clipper library computes the set operations on even-odd regions of contours exactly, then Union, Difference and Intersection of lists of layer parts (with islands in holes, to any depth) have exactly the union, difference and intersection of the regions; parts are never lost or duplicated when the result tree is converted.", "quantifier": "every pair of part lists, every exact library", "why_tests_cant": "All trees and part lists.", "anchors": ["clip/clip.go:runClipper", "clip/clip.go:polyTreeToLayerParts", "clip/clip.go:Union", "clip/clip.go:Difference", "clip/clip.go:Intersection"]}
{"id": "C86", "title": "Support detection uses the right layers", "statement": "With support enabled and TopGapLayers >= 0 layer j gets as detected support what is detected between layer j+TopGapLayers and the layer above it, independent of the order of processing; layers without that many layers above stay unchanged. (For TopGapLayers < -1 the detector panics for every model with at least two layers.)", "quantifier": "every layer list and option set", "why_tests_cant": "The loop changes layers which later iterations read.", "anchors": ["modifier/support.go:supportDetectorModifier.Modify"]}
{"id": "C87", "title": "When the optimizer fails", "statement": "Optimize succeeds for every model with at least one face if MeldDistance is not 0. (Violated otherwise: a model without faces, as read from an empty or unreadable file, and MeldDistance = 0 make it panic instead of returning an error.)", "quantifier": "every model and option set", "why_tests_cant": "All models; index arithmetic on derived structures.", "anchors": ["optimizer/optimizer.go:Optimize", "reader/reader.go:Min"]}
{"id": "C88", "title": "Material is on the left of each segment", "statement": "The direction from the exact start to the exact end of the segment of a face is the normal vector of the face turned by 90 degrees counterclockwise in the XY plane, scaled by a positive factor; so for faces with outward normals the material is always on the left of the segment.", "quantifier": "every face and height cutting it", "why_tests_cant": "All triangles, in all six cases of the slicer.", "anchors": ["slicer/slicer.go:Slice", "slicer/segment.go:SliceFace"]}
{"id": "C89", "title": "Reading of coordinates", "statement": "Each triangle of the file becomes one triangle of the model, in the same order; each coordinate is converted with an error of at most half a micrometre plus 2^-24 of its size; the order of coordinates is kept; coordinates with three decimals are read exactly up to 4.19 m.", "quantifier": "all files, all coordinates", "why_tests_cant": "All float32 values.", "anchors": ["reader/reader.go:stlTriangleToFace", "reader/reader.go:Read", "data/data.go:ToMicrometer"]}
{"id": "C90", "title": "The whole program succeeds for models without a gap in height", "statement": "For sensible options (conditions listed in the theorem), a library which does not fail, and a file with a model of proper triangles without a gap in height (in particular a connected one, or several bodies which stand on the same height) whose corners are farther apart than the meld distance and which is at least one layer high (or no brim is printed), no step from reading to generation returns an error or panics; if the output file can be written, the program returns no error and the file contains the G-code.", "quantifier": "all such options, models and libraries", "why_tests_cant": "Absence of panics in all index, type assertion and nil accesses of all handlers on all inputs.", "anchors": ["goslice.go:Process", "goslice.go:NewGoSlice", "slicer/slicer.go:Slice", "modifier", "gcode/generator.go:Generate", "gcode/renderer"]}
{"id": "C91", "title": "Connected models have no gap in height", "statement": "A connected mesh with corners on both sides of a height has a face which reaches the height, and so has a mesh of several such meshes which have a height in common; hence each such model whose corners are farther apart than the meld distance is sliced without failure, with a layer for each height up to its own. Violated without the separation: a closed surface can lose its top by melding, and then slicing panics; also if the center is below the bed.", "quantifier": "all connected meshes and all unions of gap-free meshes with a common height", "why_tests_cant": "Reachability argument on arbitrary meshes.", "anchors": ["slicer/slicer.go:Slice", "optimizer/optimizer.go:Optimize"]}
{"id": "C92", "title": "Exit status", "statement": "A refused command line ends with status 2, --version with 0, a missing input path with 1, each without touching any file. Otherwise the status is 0 exactly if Process returns no error (2 for an error or panic), and then the output file contains the complete G-code of the first argument and no other file has changed; after a failure at most the output file has changed.", "quantifier": "every command line, file system, model file and library behaviour", "why_tests_cant": "Quantifies over all command lines and file systems.", "anchors": ["cmd/goslice/main.go:main", "data/option.go:ParseFlags"]}
{"id": "C93", "title": "Flags set the documented options and nothing else", "statement": "Flag names are distinct. After a command line has been accepted, each option in the documented table has the value which the text of the last setting of its flag stands for, or the default value (a table of all default values is part of the statement); the input path is the first argument; everything but the input path can be set by a flag; the order of settings of different flags does not matter. A command line is accepted exactly if all flags exist and their texts stand for values of the right type.", "quantifier": "every command line", "why_tests_cant": "45 flags bound by pointers; interactions of any number of settings in any order.", "anchors": ["data/option.go:ParseFlags"]}
{"id": "C94", "title": "Millimeter options as text", "statement": "Apart from the texts for infinity and NaN, Set accepts exactly the numbers in Go syntax (optional sign; decimal digits with at most one point and an optional exponent, or after the prefix 0x hexadecimal digits with at most one point and an exponent to the base 2; underscores only between digits, where the prefix counts as a digit) whose float32 value is finite, and stores the nearest float32; Set(String(x)) gives x back for the float32 value of every multiple of 0.001 below 8388.608, and a value within 0.001 for every |x| up to 8000.", "quantifier": "every text, every value in the range", "why_tests_cant": "Unbounded texts; rounding twice (3 decimals, float32).", "anchors": ["data/option.go:Millimeter.Set", "data/option.go:Millimeter.String"]}
{"id": "C95", "title": "A call without flags works", "statement": "For a model of proper triangles without a gap in height (connected, or several bodies on the same height) whose corners are more than 30 µm apart, `goslice model.stl` ends with status 0 and writes all the G-code to model.stl.gcode, provided the library does its work and the file can be written. Its commands for heaters and fan are exactly: wait for 60 °C (bed) and 205 °C (hot end), fan on from the third layer, 55 °C and 200 °C from the fourth layer, everything off at the end.", "quantifier": "every such model, path, file system and library", "why_tests_cant": "All models.", "anchors": ["cmd/goslice/main.go:main", "data/option.go:DefaultOptions"]}
{"id": "C96", "title": "Travel without retraction stays inside of the layer", "statement": "If the library finds out which lines leave a region, then IsCrossingPerimeter answers yes exactly if a point of the line is outside of the region of the parts (outlines and holes, even-odd), and AddPolygon retracts on the way to a polygon exactly if retraction is configured and the straight way from the last position leaves the layer it was given.", "quantifier": "every layer, line, builder history and polygon", "why_tests_cant": "Quantifies over all layers, histories and points of the way.", "anchors": ["clip/clip.go:IsCrossingPerimeter", "gcode/builder.go:AddPolygon"]}
{"id": "C97", "title": "TopLevelPolygons returns the outermost polygons", "statement": "For a library which is exact and arranges contours by nesting, the polygons returned have no point in common and enclose every point of the outlines given; they are the outermost contours of the union.", "quantifier": "every list of parts", "why_tests_cant": "All nestings of contours.", "anchors": ["clip/clip.go:TopLevelPolygons"]}
{"id": "C98", "title": "Infill patterns as documented", "statement": "Support lines have the configured spacing and the same direction on all layers; interface lines are perpendicular to them without gaps; top, bottom and internal infill have the configured direction on odd layers and the perpendicular one on even layers; top and bottom have no gaps; internal infill exists exactly if its percentage is not 0; all lines have the configured extrusion width; the support pattern reaches one spacing beyond the model.", "quantifier": "all options (rotation below 2^31 degrees) and model bounds", "why_tests_cant": "All option combinations.", "anchors": ["goslice.go:NewGoSlice", "clip/linear.go:Fill"]}
{"id": "C99", "title": "Large outlines collapse to a line (violated)", "statement": "(Violated) A polygon more than 55 mm wide is printed with all its corners. In fact a path whose inner points have a distance between 55.109 mm and 65.535 mm from the line through its ends is reduced by AddPolygon to the two ends, because the square of the squared distance overflows int64 and becomes negative: every rectangle of such a width and of a height of at most 55.108 mm, wherever it lies, is written as its short side, if its points are listed beginning with a long side.", "quantifier": "every such path, every position, width and height", "why_tests_cant": "The tests use small polygons; it takes a size in a certain window and a certain first point.", "anchors": ["data/2d.go:seekMostDistantPoint", "data/2d.go:douglasPeucker", "gcode/builder.go:AddPolygon"]}
{"id": "C100", "title": "Precision of the E axis (violated)", "statement": "(Violated) The E axis grows with every extruding line by what the line needs. In fact the total is kept in float32: as long as it stays below 2^k mm it deviates from the exact sum of n requested amounts by at most n*2^(k-25) mm, but once it has reached 2^k mm, amounts below 2^(k-24) mm are lost, however many there are. After 131 m of filament the E word of lines up to 0.23 mm long (default settings) does not change any more.", "quantifier": "every sequence of requested moves, every size of the total, every number of small lines", "why_tests_cant": "Needs prints with more than 100 m of filament and an error analysis of arbitrarily long sums.", "anchors": ["gcode/builder.go:AddMoveSpeed", "gcode/builder.go:AddPolygon"]}
{"id": "C101", "title": "Infill overlaps the innermost perimeter as configured", "statement": "After the perimeter modifier, the border of the infill of a part is made from its innermost perimeters only. Each of them (a centre line) is offset to the inside by half of the not overlapping share of the line width, that is floor(floor(w*(100-p)/100)/2) micrometers for line width w and overlap p percent. With 100 percent it is the perimeter itself.", "quantifier": "All libraries, all layers, 1 or more perimeters, 0 <= p <= 100, 0 <= w <= 167772 micrometers.", "why_tests_cant": "The distance is calculated in float32 and truncated twice, so a single rounding upwards would be off by a micrometer for some of the 16 million pairs; tests look at a few.", "anchors": ["modifier/perimeter.go:Modify", "modifier/perimeter.go:calculateOverlapPerimeter", "data/option.go:PrintOptions"]}
{"id": "C102", "title": "A print stays on the area of its model and the margins configured for it", "statement": "Everything the program prints is on the rectangle of the model's size around the configured center, enlarged by the width of the brim, or by the reach of support and of the skirt around it. The only other moves are at most two at X0 Y0 before the first line (a retraction and a lift at the never set position, C26); the text before and after the layers is the documented start and end text with the custom lines.", "quantifier": "every model file, every option set with moderate sizes, every library whose results stay inside the rectangles of their inputs, every sine and cosine accurate to 2^-48, models within 274 km", "why_tests_cant": "A line outside of the bed appears only for particular combinations of model, rotation and options; tests look at a few prints.", "anchors": ["goslice.go:Process", "modifier/brim.go:Modify", "modifier/support.go:Modify", "gcode/renderer/skirt.go:Render", "clip/linear.go:Fill", "slicer/segment.go:SliceFace", "gcode/builder.go:AddPolygon"]}
{"id": "C103", "title": "The outlines of a layer enclose the cross-section of the solid", "statement": "For a closed surface, a point in the plane of a layer is enclosed by an odd number of the layer's outlines exactly if it is inside of the solid (a ray from it hits the surface an odd number of times). Taking all outlines, this holds for all points which are farther than 2 µm away from the surface; without the outlines which are not longer than the finish distance (these are left out), it holds for all points which are farther than 2 µm plus twice the finish distance away. The same is true for the region of the layer parts, at points whose side is not changed by Simplify or by the clipper library.", "quantifier": "every closed mesh, every layer whose plane is not touched from below by a single corner and in which no segment has two followers, every point of the plane which is not near the surface, all slicing distances", "why_tests_cant": "It compares two infinite point sets for every mesh: the solid and the area enclosed by the sliced outlines.", "anchors": ["slicer/slicer.go:Slice", "slicer/segment.go:SliceFace", "slicer/layer.go:makePolygons", "clip/clip.go:GenerateLayerParts"]}
{"id": "C104", "title": "Simplify changes the area of an outline only slightly", "statement": "Twice the signed area of the result of Path.Simplify differs from twice the area of the path by at most 2·√26 times the length of the closed path (lengths in µm): the enclosed area changes by at most 5.1 µm times the perimeter, whatever vertices are removed.", "quantifier": "every path with at least three vertices, every removal threshold and every area threshold of at most 25 (the default); in exact arithmetic for all coordinates, with int64 for coordinates below 2^26 µm", "why_tests_cant": "The errors of removed vertices add up along a path of any length; a test can only look at some paths.", "anchors": ["data/layer.go:Path.Simplify"]}
{"id": "C105", "title": "The lines of a pattern cover its area", "statement": "Left of every point within the (rotated) limits of a pattern there is a scan line in less than the line distance. Where this scan line is inside of the part it is printed: each piece of it which is, along the line, at least 1 µm (for zig zag also half the line width) inside, is part of one of the returned lines. For the support interface the limits are too small: the areas of support are enlarged by one and a half spacings, the limits by one.", "quantifier": "every pattern with a positive line distance, every part, every layer number, every point; every library which keeps the pieces of lines inside of a region", "why_tests_cant": "It quantifies over all points of an area of any shape; the missing lines of the support are at the rim of the model and easily overlooked.", "anchors": ["clip/linear.go:Fill", "clip/linear.go:getInfill", "goslice.go:NewGoSlice", "modifier/support.go:supportDetectorModifier.Modify"]}
{"id": "C106", "title": "Columns of support", "statement": "With support enabled, there is support at a point of a layer (below the topmost two) exactly if support was detected at this point for the layer itself or a layer above and the enlarged model is not at this point in the layers in between. So every point of an overhang has a column of support below it, from the top gap down to the first layer with the enlarged model at this point, printed as support or interface (except on the brim). In the topmost two layers nothing is subtracted: without a top gap the support of the second layer from the top can be inside the model.", "quantifier": "All lists of layers, all options with support enabled, every exact polygon library which does not fail; for the overhang: offsets contain the parts and the enlarged overhangs do not overlap.", "why_tests_cant": "The areas come from hundreds of set operations, one per layer; a test can only look at single models, and no test of the repository checks where the support of an overhang ends.", "anchors": ["modifier/support.go:supportGeneratorModifier.Modify", "modifier/support.go:supportDetectorModifier.Modify"]}
{"id": "C107", "title": "Where the brim is", "statement": "The brim modifier changes the first layer only, and there only the brim and its outer dimension. The outer dimension consists of the outermost brim lines (BrimCount line widths around each outermost outline), enlarged by half a line width; support is not printed in it if the outer dimensions of the parts do not overlap. Only the first piece of every perimeter is used: if a part is split by its inset (a neck thinner than a line), the other pieces get no brim. Where the brims of two parts overlap, support is printed on the brim.", "quantifier": "All layers, options and polygon libraries for the formula (numbers below 2^53); every exact library which does not fail for the support; the two violations are concrete runs.", "why_tests_cant": "A test with one convex part shows none of the cases; the split and the overlap depend on the geometry of the model and the widths.", "anchors": ["modifier/brim.go:brimModifier.Modify", "modifier/support.go:supportGeneratorModifier.Modify"]}
{"id": "C108", "title": "The place of the model in its file", "statement": "If the corners of a model are farther apart than the meld distance, it does not matter where in its file the model is: the optimized model is the same up to one micrometer in X and Y (exactly the same in Z, faces, neighbours and size), and exactly the same if the sum of smallest and largest coordinate is even or stays on one side of 0; in this case the whole program does exactly the same (files written and result). Limits: with nearer corners the place decides which points are melded, and over the origin the print moves by 1 µm.", "quantifier": "All models, all translations, all options, every file system and every behaviour of the polygon library; the limits are concrete models.", "why_tests_cant": "A metamorphic property over all translations; the points are found by a hash of their coordinates, so that each place is another case.", "anchors": ["optimizer/optimizer.go:Optimize", "goslice.go:GoSlice.Process"]}
{"id": "C109", "title": "Triangles which do not matter", "statement": "Degenerate triangles and repetitions of triangles in the file do not matter: if the corners are farther apart than the meld distance and no corner belongs only to degenerate triangles, the program does exactly the same with and without them. So an optimized model is not changed by optimizing it again, except for at most 1 µm in X and Y if its size is odd. Limit: a degenerate triangle with a corner of its own counts for the bounding box and moves the print.", "quantifier": "All models, options, file systems and behaviours of the polygon library; the limit is a concrete model.", "why_tests_cant": "A metamorphic property over all models and all places where such triangles can be inserted; they change the numbering of the points and the order in which they are found.", "anchors": ["optimizer/optimizer.go:Optimize", "slicer/slicer.go:slicer.Slice", "goslice.go:GoSlice.Process"]}
{"id": "C110", "title": "The STL export shows the optimized model", "statement": "`SaveDebugSTL` never panics for an optimized model, changes no other file, and fails exactly if the file cannot be created or not written completely. Reading the file gives exactly the triangles of the optimized model (corners less than 4.19 m from the origin), and the G-code for the exported file is exactly the G-code of the original, if the size is even in X and Y, the corners are farther apart than the meld distance and no corner belongs only to degenerate triangles.", "quantifier": "All optimized models, file names, file systems and every STL library which reads what it wrote.", "why_tests_cant": "All coordinates below 2^22 have to survive two float32 conversions, and all models two runs of the optimizer.", "anchors": ["optimizer/model.go:optimizedModel.SaveDebugSTL", "reader/reader.go:stlTriangleToFace"]}
{"id": "C111", "title": "Everything is printed", "statement": "In the text of a successful print there is, for every line (of nonzero length) of every contour of the perimeters, of the brim, of the skirt and of every line of the infill and support patterns, an extruding move at the height of its layer which starts exactly where the move before ended: at the first point of the line, and ends at its last point. Consequently all top and bottom areas of all layers are filled with printed lines in the distance of the extrusion width, and internal infill with lines in the distance for its percentage: each piece of a scan line which is inside of the area is part of a printed line.", "quantifier": "All options which need filament for lines of nonzero length (positive sizes), all layers, patterns, custom G-code, behaviours of the clipper library (for the areas: it keeps the parts of open lines inside of an area).", "why_tests_cant": "The statement quantifies over all lines of all layers of all prints; a missing line is invisible in tests of a few outputs.", "anchors": ["gcode/builder.go:AddPolygon", "gcode/renderer/perimeter.go:Perimeter.Render", "gcode/renderer/infill.go:Infill.Render", "gcode/renderer/skirt.go:Skirt.Render", "gcode/renderer/brim.go:Brim.Render", "clip/linear.go:linear.Fill"]}
{"id": "C112", "title": "Nothing but the layers is printed", "statement": "In the text of a print, every move which extrudes or retracts either stands still in x, y and z (retraction and its end), or it starts where the move before ended and is exactly one line of one path which belongs to a layer (a contour of a perimeter, an outline of the brim or the skirt, a line of an infill pattern for one of the areas of the layer), at the height of this layer. A first move which retracts stands at the origin. Together with C111 the printed lines are exactly the lines of the layers.", "quantifier": "all options, all layers with all attributes, all patterns, all behaviours of the clipper library", "why_tests_cant": "A test compares sample texts; that no option combination makes the head extrude on a way which belongs to no path (e.g. on a travel) is a statement about all texts.", "anchors": ["gcode/builder.go:AddPolygon", "gcode/builder.go:AddMoveSpeed", "gcode/renderer/perimeter.go:Perimeter.Render", "gcode/renderer/infill.go:Infill.Render", "gcode/renderer/brim.go:Brim.Render", "gcode/renderer/skirt.go:Skirt.Render"]}
{"id": "C113", "title": "Walls keep their distance from the outline", "statement": "Each point of the drawn (simplified) path is at most 69 µm away from the path (for paths with a diameter of at most 55.1 mm, C74). So in the G-code of the program each point which is passed while printing a line of wall number k of a part keeps at least the distance w/2 + k*w - 76.3 µm from every point outside of the part (69 µm for the simplification and 7.3 µm for the rounding to 0.01 mm), minus the tolerance of the clipper library for insets. The converse of the first sentence is wrong: a point which is far away from everything drawn can be dropped (`C113_spike`).", "quantifier": "all models, options with at least one perimeter, and clipper libraries whose insets keep their distance (`InsetsKeep`); walls with a diameter of at most 55.1 mm and coordinates up to 1 m", "why_tests_cant": "The error of a printed wall is the sum of three errors in different packages; tests check single paths and cannot give the bound for all outlines.", "anchors": ["data/2d.go:DouglasPeucker", "data/2d.go:seekMostDistantPoint", "clip/clip.go:Inset", "modifier/perimeter.go:perimeterModifier.Modify", "gcode/builder.go:AddPolygon", "gcode/renderer/perimeter.go:Perimeter.Render"]}
{"id": "C114", "title": "Nothing is printed outside of the model", "statement": "In the G-code of the program, each point which is passed by a move which extrudes (and moves in x or y) is at most 80 µm, plus (5 + number of walls) times the tolerance of the clipper library, away from the closed area of a sliced part of the same layer, unless the move belongs to the brim, the skirt or the support. The 80 µm consist of 69 µm for the simplification of closed paths (C113), the rounding while the infill is turned and turned back, and the rounding to 0.01 mm. This includes the connections of zig zag infill, which run along the border.", "quantifier": "all models and options in a moderate range, all clipper libraries whose results are not outside of what they are made from (`NothingOutside`) and which clip open lines (`OpenClipping`), all accurate sine and cosine functions; walls with a diameter of at most 55.1 mm, layers within the bed", "why_tests_cant": "That no wall, infill or connection leaves the model is a statement about all shapes; it depends on the rotation of the pattern, the crossing test of connections and the order of the modifiers.", "anchors": ["modifier/perimeter.go:perimeterModifier.Modify", "modifier/infill.go:infillModifier.Modify", "modifier/internal_infill.go:internalInfillModifier.Modify", "clip/linear.go:Fill", "clip/clip.go:IsCrossingPerimeter", "clip/clip.go:Inset", "gcode/builder.go:AddPolygon"]}
{"id": "C115", "title": "Printed support keeps its distance from the model", "statement": "In the G-code of the program, each point which is passed by an extruding move which belongs to the support or its interface has at least the distance gap/2 - 10 µm (minus five times the tolerance of the clipper library) from every point of every sliced part of the same layer, if the enlarged parts of the layer do not overlap (C65, C82). This holds for all layers but the two on top, and for all layers if TopGapLayers is at least 1.", "quantifier": "all models and options in a moderate range, all clipper libraries whose differences and enlargements are right up to a tolerance (`KeepsClear`, `NothingOutside`), all accurate sine and cosine functions", "why_tests_cant": "The distance of the support is the result of an enlargement, a chain of set operations per layer, a rotated pattern and rounding; tests look at single areas and do not measure the printed lines.", "anchors": ["modifier/support.go:supportGeneratorModifier.Modify", "modifier/support.go:supportDetectorModifier.Modify", "clip/linear.go:Fill", "gcode/renderer/infill.go:Infill.Render", "gcode/builder.go:AddPolygon"]}
{"id": "C116", "title": "Every move has the speed of its kind", "statement": "In the G-code of a print, read by the G-code interpreter, each move without filament has the travel speed, each move with filament which stands still has the retraction speed, and each other one is a line of a path which belongs to a layer and has exactly the speed of its kind: outer walls the speed for outer perimeters, inner walls, brim and skirt the layer speed, infill and support the speed of the last wall drawn before (see C76); on the first layer all lines have the initial layer speed if it is at least 1 mm/s.", "quantifier": "all options, layers, patterns, clipper libraries and crossing tests for which the print succeeds", "why_tests_cant": "The feed rate is a word which is only written when it changes and depends on a chain of calls (settings, override, walls drawn before); tests compare single lines of G-code.", "anchors": ["gcode/builder.go:AddMoveSpeed", "gcode/builder.go:AddPolygon", "gcode/renderer/perimeter.go:Perimeter.Render", "gcode/renderer/layer.go:PreLayer.Render", "gcode/renderer/infill.go:Infill.Render"]}
{"id": "C117", "title": "Temperatures and fan speed while a layer is printed", "statement": "Whenever a line of the text of a print moves the head in layer n, the target temperatures of hot end and bed commanded last before that line are the normal ones if n is at least InitialTemperatureLayerCount (and that is not negative), and those of the start text otherwise; the fan speed is the last entry of the fan table for a layer up to n. If safe start G-code is on and the custom start G-code leaves the hot end alone, the start text waits for the initial temperature, so that nothing is printed with a cold hot end.", "quantifier": "all options, layers, patterns, clipper libraries and crossing tests for which the print succeeds", "why_tests_cant": "The order of the commands and the moves of all layers matters, for all temperatures, fan tables and numbers of layers; tests look for single lines of the text.", "anchors": ["gcode/renderer/layer.go:PreLayer.Render", "gcode/generator.go:Generate", "gcode/builder.go:AddCommand"]}
{"id": "C118", "title": "Solid areas are covered by plastic", "statement": "In the text of a successful print, each point which is deeper than half the extrusion width and 5 µm inside of an area for the top or bottom of a layer (and of the limits of the model) is within half the extrusion width and 9 µm of the course of an extruding move at the height of that layer: the lines, as the machine executes them, leave no gaps. The same is true for internal infill with half the distance of its lines; with zig zag, the points must be half the extrusion width deeper inside.", "quantifier": "all models, options (with positive sizes; the layer within 0.9 m of the origin), layers, areas and points; every library which keeps and returns parts of lines inside of an area up to a tolerance; every sine and cosine with a small relative error", "why_tests_cant": "It quantifies over all points of areas of any shape, through rotation, rounding to micrometers, clipping, ordering, rotation back and rounding to two decimals. A gap is only visible in the print.", "anchors": ["clip/linear.go:linear.Fill", "clip/linear.go:linear.getInfill", "data/layer.go:Path.Rotate", "gcode/renderer/infill.go:Infill.Render", "gcode/builder.go:AddPolygon"]}
{"id": "C119", "title": "Simplify keeps the shape: the sides of points at a distance are the same", "statement": "A point which is farther than 5 µm for each removed point (plus any distance D) away from a closed path is farther than D away from the simplified path, and enclosed by the one exactly if it is enclosed by the other. Consequently, for a closed surface, a point in the plane of a layer which is farther than 2 µm, 5 µm for each point removed from an outline, and the tolerance of the clipper library away from the surface is in the region of the layer parts exactly if it is inside of the solid; except for points enclosed by outlines which are not longer than the finish distance.", "quantifier": "all closed paths, all squared limits up to the ones used (100 µm² for short lines, 25 µm² for the distance), all points; every closed mesh, every layer which is not touched from below by a single corner and in which no segment has two followers, every library whose union keeps the sides of points up to a tolerance", "why_tests_cant": "It is a statement about all points of the plane and all paths. The removed points accumulate: each removal is decided with respect to the points before.", "anchors": ["data/layer.go:Path.Simplify", "slicer/layer.go:makePolygons", "clip/clip.go:GenerateLayerParts"]}
{"id": "C120", "title": "The printed lines are near the solid", "statement": "In the text of a successful print of a closed surface, each point passed by an extruding move of a layer is within 82 µm, 5 µm for each point removed by Simplify from an outline, and a multiple of the tolerance of the clipper library, of a point which is, in the plane of the layer, inside of the solid or on its surface, or is enclosed by outlines which are not longer than the finish distance (small holes); unless the move belongs to the brim, the skirt or the support.", "quantifier": "all models with a closed surface, all options (with moderate sizes), all layers (not touched from below by a single corner, no segment with two followers), all moves and all points on them; every library which returns nothing outside of the given areas up to a tolerance", "why_tests_cant": "It relates all points of all lines of the text to the solid given by the model, through slicing, outlines, simplification, clipping, insets, patterns and rounding.", "anchors": ["slicer/slicer.go:Slice", "slicer/layer.go:makePolygons", "data/layer.go:Path.Simplify", "clip/clip.go:GenerateLayerParts", "clip/clip.go:InsetLayer", "clip/linear.go:linear.Fill", "gcode/builder.go:AddPolygon", "goslice.go:GoSlice.Process"]}
{"id": "C121", "title": "The inside of the solid is filled: solid below the skin, with infill elsewhere", "statement": "Let a point be inside of the solid in the plane of layer n, and far enough away from the surface in the planes of the layers n - NumberBottomLayers to n + NumberTopLayers (the width of the walls, the overlaps, half the distance of the lines, 5 µm for each point removed by Simplify, and some tolerances of the clipper library). If it belongs to the skin (in one of the NumberBottomLayers planes below or the NumberTopLayers planes above it is not inside of the solid, or these layers do not exist), then an extruding move of the text at the height of the layer passes within half the extrusion width and 9 µm. If not, then an extruding move passes within half the distance of the lines of the internal infill and 9 µm (unless the infill is switched off).", "quantifier": "all models with a closed surface, all options (with moderate sizes, at least one wall), all layers n such that no layer up to n is empty, all points; every library which keeps the sides of points up to a tolerance, every sine and cosine with a small relative error; the layers around must not be touched from below by a single corner and no segment has two followers", "why_tests_cant": "It relates all points of the solid to the moves of the text, through all stages: slicing, outlines, walls, overlaps, differences with the neighbouring layers, patterns, rotation, rounding and text. Which pattern a point gets depends on many layers.", "anchors": ["goslice.go:GoSlice.Process", "modifier/perimeter.go:perimeterModifier.Modify", "modifier/infill.go:infillModifier.Modify", "modifier/internal_infill.go:internalInfillModifier.Modify", "modifier/internal_infill.go:partDifference", "clip/clip.go:InsetLayer", "clip/linear.go:linear.Fill", "slicer/slicer.go:Slice"]}
{"id": "C122", "title": "The walls of a print are closed", "statement": "In the plane of layer n, take any way of straight pieces from a point x inside of the solid to a point y outside of it, both far enough away from the surface (the depth of the wall, 5 µm for each point removed by Simplify, and some tolerances). Then for each of the InsetCount walls the way meets a line which is printed: there is a point on the way within 8 µm of an extruding move of the text at the height of the layer, and this point keeps the distance of its wall (half the width plus the widths of the walls outside of it, minus 69 µm and the tolerance of the library) from everything outside of the solid. So nothing can leave the print without passing through all of its walls.", "quantifier": "all models with a closed surface, all options with at least one wall, all layers (not touched from below by a single corner, no segment with two followers), all ways and all walls; every library which keeps the sides of points and the distance of insets up to a tolerance; wall contours of an ordinary size", "why_tests_cant": "It is a statement about all ways through all layers: a gap of one side anywhere in one wall breaks it. It needs an argument that a way between the inside and the outside of a closed path meets the path, and that neither the insets, nor DouglasPeucker, nor the rounding of the text opens it.", "anchors": ["goslice.go:GoSlice.Process", "modifier/perimeter.go:perimeterModifier.Modify", "clip/clip.go:InsetLayer", "clip/clip.go:Inset", "data/2d.go:DouglasPeucker", "gcode/builder.go:AddPolygon", "slicer/slicer.go:Slice"]}
{"id": "C123", "title": "Below overhangs, support is printed down to the next solid or the bed", "statement": "With support enabled, take a point x of the plane which is far enough from the surface of the solid in layer n and all layers above. If some layer above has an overhang at x (layer k + gap + 1 is inside of the solid there, layer k + gap is not, with gap = TopGapLayers and n ≤ k), and x is outside of the solid in all layers from n to k, then layer n prints support there: if there is no such column InterfaceLayers layers above, an extruding move at the height of the layer passes within half the extrusion width and 9 µm of x (interface), otherwise within half of PatternSpacing and 9 µm (support). At such points, the areas of support are exactly these columns: nowhere else there is support or interface.", "quantifier": "all models with a closed surface, all layers but the two on top, all points which are not near to the surface (1.5 times the offsets of the support code, plus tolerances), all numbers of gap and interface layers; every library which keeps the sides of points up to a tolerance; without brim in the layer (layers from the second on, or no brim at all)", "why_tests_cant": "Support at a point depends on all layers above it: tests can only look at single models. The statement follows a column through the backwards loop of the generator, which reads attributes it has set in earlier rounds, and through the two patterns to the text.", "anchors": ["modifier/support.go:supportDetectorModifier.Modify", "modifier/support.go:supportGeneratorModifier.Modify", "goslice.go:NewGoSlice", "gcode/renderer/infill.go:Infill.Render", "slicer/slicer.go:Slice", "clip/linear.go:Fill"]}
{"id": "C124", "title": "Every printed line gets the filament for its volume", "statement": "In the text the program writes, take two moves in a row. If the second one has no E word, no filament is used. If it has one, either the head stands still and the filament is retracted by the configured length or given back, or the move is the line from a to b of a path of some layer, and the difference of the two E words times the cross section of the filament is the volume of this line: length times thickness of its layer (the initial one for the first layer) times extrusion width times multiplier. The error is at most 3 ppm of the volume plus the cross section times (0.0001 mm + 2^-24 times the next power of two above the E word).", "quantifier": "all models, all options with positive diameter, multiplier, thicknesses and width, all pairs of consecutive moves of the whole print", "why_tests_cant": "The E words are a running float32 total, written with four decimals, over moves of eight renderers with settings changed between layers; a test looks at a few lines of one print.", "anchors": ["gcode/builder.go:Builder.AddMoveSpeed", "gcode/builder.go:Builder.AddPolygon", "gcode/builder.go:Builder.SetExtrusion", "gcode/renderer/layer.go:PreLayer.Render", "goslice.go:NewGoSlice"]}
{"id": "C125", "title": "The skirt is around everything", "statement": "In the G-code of the program, every way in the plane of the first layer, from a point on or inside of an outline of a wall or of the support to a point far outside of the convex hull of all of them, comes within 8 µm of an extruding move at the height of the first layer. This is so for each of the skirt lines: the point where line number k is met keeps, from the whole convex hull, the skirt distance and BrimCount + 1 + k line widths, up to 69 µm and the tolerance of the clipper library.", "quantifier": "all models, all options with a skirt, all points, all ways (polygonal), each skirt line", "why_tests_cant": "The skirt is a hull of walls and support of other stages, enlarged, thinned by DouglasPeucker, rounded and written as text; a test does not try ways through it.", "anchors": ["gcode/renderer/skirt.go:Render", "clip/clip.go:Hull", "clip/clip.go:Inset", "gcode/builder.go:Builder.AddPolygon", "goslice.go:NewGoSlice"]}
{"id": "C126", "title": "64 bit integers are enough from the mesh to the outlines", "statement": "The optimizer and the slicer compute with int64, which silently wraps around. For every mesh of at most 2^26 faces whose coordinates (and the center of the print bed) are at most 2^26 µm (67 m), and options below 2^30 µm (2^28 for the initial layer thickness), no operation wraps: the result, including each failure, is the same as with unbounded integers. Beyond the bounds this is wrong (a mesh can have a negative size).", "quantifier": "all meshes and options within the bounds, all clipper libraries", "why_tests_cant": "An overflow needs unusual sizes, and there are dozens of places where a difference, product or sum is computed; a test tries a few models of usual size.", "anchors": ["optimizer/optimizer.go:Optimize", "slicer/slicer.go:Slice", "slicer/segment.go:SliceFace", "slicer/layer.go:makePolygons", "data/layer.go:IsAlmostFinished", "data/micrometer.go:Size"]}
{"id": "C127", "title": "The whole program is correct with 64 bit integers", "statement": "Go computes with int64, which silently wraps around. For all options within stated bounds (among others: extrusion width at most 10 mm, speeds below 2^50 mm/s, layers at most 2^28 µm, pattern spacing at most 67 m) and every model of at most 2^26 triangles and 16 m, no operation from the optimizer to the last line of G-code gives another value than with unbounded integers: the program ends with the same result (success, error or panic) and leaves the same files. (The known wrap-arounds of DouglasPeucker and Simplify are part of both.) Beyond the bounds this is wrong (a feed rate can become negative).", "quantifier": "all STL contents, options and file systems within the bounds; all clipper libraries which do not leave the bounding box of their input by more than their offset", "why_tests_cant": "Each of some hundred additions and multiplications can overflow for other inputs; a test tries a few models of usual size.", "anchors": ["goslice.go:Process", "gcode/builder.go:AddMoveSpeed", "gcode/builder.go:AddPolygon", "gcode/generator.go:Generate", "clip/clip.go:InsetLayer", "clip/linear.go:Fill", "modifier/infill.go:Modify", "modifier/support.go:Modify", "gcode/renderer/skirt.go:Render"]}
{"id": "C128", "title": "In a print the filament is pulled back exactly on ways which leave the layer", "statement": "In the G-code of a print with retraction (speed and length not 0), read by the G-code interpreter: as long as the filament is not pulled back, each move is a line of a path which belongs to a layer, or a way whose straight line stays inside of the outlines of the layer it leads to, or the way to the begin of a line of brim or skirt. The filament is pulled back only when it is not pulled back already, by the retraction length and standing still; while it is pulled back nothing is extruded; it is pushed back by the same length at the end of a way which leaves the layer; at the end of the print it is not pulled back.", "quantifier": "all STL contents and options with retraction, all libraries which find out whether a line leaves a region", "why_tests_cant": "Whether a way crosses a border depends on the whole history of moves and on the shapes of all layers; a test looks at a few moves of the builder.", "anchors": ["gcode/builder.go:AddPolygon", "gcode/renderer/perimeter.go:Perimeter.Render", "gcode/renderer/infill.go:Infill.Render", "gcode/renderer/brim.go:Brim.Render", "gcode/renderer/skirt.go:Skirt.Render", "clip/clip.go:IsCrossingPerimeter"]}
{"id": "C129", "title": "The head never goes below what is printed, and the print is as high as the model", "statement": "In the G-code of the program no move ends below a place where filament was extruded before (so, as all moves are straight, the head never runs into the print), and no move ends more than the z hop above the last layer. For a model of height H (the difference of the largest and the smallest z in its file, at least the initial layer thickness) the layers are exactly those whose height is not above H, so the last one is less than one layer thickness below H. Each line is printed at the height of one of these layers, and each wall of each of these layers is printed at its height.", "quantifier": "all models, all options with a positive layer thickness, all custom G-code (its own moves aside), every library and crossing test", "why_tests_cant": "a test compares the G-code of a few models; that no line of a print of thousands of layers is passed too low has to be argued from the order of the calls", "anchors": ["gcode/builder.go:AddPolygon", "gcode/generator.go:Generate", "gcode/renderer/layer.go:PreLayer.Render", "slicer/slicer.go:Slice"]}
{"id": "C130", "title": "The brim is around every outermost outline, but also runs through close objects", "statement": "For each outermost outline of the first layer (at the top of the tree which the library makes of the first pieces of all walls) and each number k below BrimCount, a closed path is printed around it which keeps k + 1 line widths from everything inside of the outline, and is not farther away than one and a half times of that (up to 69 µm for the simplification of paths and the tolerance of the library). Every way in the plane from a point inside of the outline to a point far outside comes within 8 µm of an extruding move on this path. But the outlines do not know of each other: for two objects less than the width of the brim apart, a line of the brim of the first is drawn through the inside of the second.", "quantifier": "all models, all options with a brim, every library for which the enlarged outline is one contour around the outline at its distance", "why_tests_cant": "a test looks at the brim of one object; that no way leads through it is a statement about all ways, and objects close together are not in the tests", "anchors": ["modifier/brim.go:brimModifier.Modify", "clip/clip.go:TopLevelPolygons", "clip/clip.go:InsetLayer", "gcode/renderer/brim.go:Brim.Render"]}
{"id": "C131", "title": "The order of the triangles and of their corners does not matter", "statement": "Two files with the same triangles, written in any order, with the corners of each triangle in any order (also turned inside out) and with any repetitions, are the same model: if no two different corners are within the meld distance, the optimized models have the same size, the same triangles and the same inside, the sliced models have the same number of layers, and on every layer the areas enclosed by the outlines agree at all points which are not next to the surface. This holds although the slicer starts its outlines at other segments and walks them in other directions.", "quantifier": "all pairs of files with the same triangles, all options, every layer of closed surfaces which is sliced without faults (WellSliced) and every point away from the surface", "why_tests_cant": "the number of orders of n triangles is n! · 6^n; the tests only contain one file with one order", "anchors": ["optimizer/optimizer.go:optimizer.Optimize", "slicer/slicer.go:slicer.Slice", "slicer/layer.go:layer.makePolygons", "reader/reader.go:reader.Read"]}
{"id": "C132", "title": "The common part of bodies which overlap is left empty", "statement": "For a model of two bodies the outlines of each layer enclose exactly what is inside of one and only one of them (up to points next to the surface). So bodies which do not overlap are both sliced as if they were alone. But where two bodies overlap (also where one is completely inside of the other, with both surfaces outside out) the layer has a hole: no line of a wall, of the infill, or of the top and bottom passes a point which is inside of both and more than 82 µm plus tolerances away from the surfaces.", "quantifier": "all models with closed surfaces, each division of their triangles into two bodies, every layer which is sliced without faults (WellSliced), all options with moderate values, all points away from the surfaces", "why_tests_cant": "no test has a model with more than one body; that something is nowhere printed is a statement about all lines", "anchors": ["slicer/slicer.go:slicer.Slice", "clip/clip.go:clipperClipper.GenerateLayerParts", "slicer/layer.go:layer.makePolygons", "gcode/generator.go:generator.Generate"]}
{"id": "C133", "title": "Speeds, temperatures and additional commands do not change the paths", "statement": "If the program succeeds, it also succeeds for the same file with any other speeds, temperatures, fan speeds, start and end G-code, and options of the program itself (heated bed, safe start and stop, file names). The two texts contain the same moves between start and end G-code: as many, in the same order, with the same commands (G0 or G1), to the same positions, with the same filament. They differ only in the feed rates. Only a retraction speed below 1 mm/s matters, as it switches the retraction off.", "quantifier": "all files, all options, all other values for the listed options; all behaviours of the clipper library and of the STL reader", "why_tests_cant": "a relation between two runs of the whole program for all pairs of options; an accidental dependence (e.g. a speed used as a length) shows only for particular values", "anchors": ["goslice.go:NewGoSlice", "gcode/generator.go:generator.Generate", "gcode/builder.go:Builder.AddPolygon", "gcode/renderer/layer.go:PreLayer.Render", "gcode/renderer/perimeter.go:Perimeter.Render"]}
{"id": "C134", "title": "Each part of a print depends only on its own options", "statement": "Two prints of the same file with the same slicing options, layer thicknesses and centre have the same sliced layers. If also number of walls and extrusion width agree, the walls are the same, and each contour of them is printed in both prints, whatever infill, top, bottom, brim, skirt, support, filament, speeds and patterns are. Top and bottom depend in addition only on the overlaps and on the numbers of top and bottom layers; the infill areas in addition only on whether the infill percentage is zero; the brim only on the walls and the number of brim lines; the support only on the support options and the brim (not on walls or infill if there is no brim).", "quantifier": "all files, all pairs of options; all behaviours of the clipper library and of the STL reader", "why_tests_cant": "non-interference is a relation between two runs of the whole program for all pairs of options; six modifiers share one attribute map per layer, and an accidental overwrite shows only for particular combinations of options and models", "anchors": ["goslice.go:NewGoSlice", "modifier/perimeter.go:perimeterModifier.Modify", "modifier/infill.go:infillModifier.Modify", "modifier/internal_infill.go:internalInfillModifier.Modify", "modifier/brim.go:brimModifier.Modify", "modifier/support.go:supportDetectorModifier.Modify", "modifier/support.go:supportGeneratorModifier.Modify"]}
{"id": "C135", "title": "The printed text has a fixed form, and each printed line has the right label", "statement": "Between the start and the end commands, a print is for each layer, in order, a comment with its number, then lines changing fan and temperatures, then only moves and comments which tell what is drawn. A move is G0 without E or G1 with E as last word; the words are in the order X, Y, Z, F, E, coordinates with two decimals, filament with four, never with exponents. Read as a viewer does (by the last comments ;LAYER: and ;TYPE: before a move), each move which pushes out filament while moving has the number of its layer and the label of what is drawn: an outermost wall WALL-OUTER, other walls WALL-INNER, brim and skirt SKIRT, support SUPPORT, infill, top and bottom FILL.", "quantifier": "all files, all options; all behaviours of the clipper library, the STL reader and the patterns; for C135_grammar also all feed rates and amounts of filament", "why_tests_cant": "the texts are formatted by fmt with floats of any size, and the labels are written by other renderers than the moves; tests compare a few fixed strings, but a label left over from an earlier part shows only in particular combinations of empty parts", "anchors": ["gcode/builder.go:Builder.AddMoveSpeed", "gcode/renderer/layer.go:PreLayer.Render", "gcode/renderer/perimeter.go:Perimeter.Render", "gcode/renderer/infill.go:Infill.Render", "gcode/renderer/brim.go:Brim.Render", "gcode/renderer/skirt.go:Skirt.Render", "goslice.go:NewGoSlice"]}
{"id": "C136", "title": "Another place or another direction of the model moves or turns the print, and changes nothing else", "statement": "If the middle of the model is put at another place (option center), everything in every layer — parts, walls, top, bottom and inner areas, brim, support and its interface — is moved by the same vector; the program fails in the same cases with the same error. In the text, every line of the walls, the brim and the skirt is printed, and in the other print it is printed at the moved place. If the model is turned by a multiple of 90 degrees about the vertical axis in its file, and its corners are farther apart than the meld distance, all layers are turned about the center in the same way. The polygons found by the slicer before the clipper library is called are moved or turned exactly, with all overflows of the int64 arithmetic in Path.Simplify. (The clipper library is assumed to treat moved or turned arguments in the same way.)", "quantifier": "for all models, options, shifts, multiples of 90 degrees and all clipper libraries whose results do not depend on the place (and direction) of their arguments", "why_tests_cant": "A test compares the print of one model at two places; the theorem is about all models, all places, all options and every step of the pipeline, including the error cases.", "anchors": ["optimizer/optimizer.go:optimizer.Optimize", "slicer/slicer.go:slicer.Slice", "slicer/layer.go:layer.makePolygons", "data/layer.go:Path.Simplify", "data/2d.go:DouglasPeucker", "modifier/perimeter.go:perimeterModifier.Modify", "modifier/infill.go:infillModifier.Modify", "modifier/internal_infill.go:internalInfillModifier.Modify", "modifier/brim.go:brimModifier.Modify", "modifier/support.go:supportDetectorModifier.Modify", "modifier/support.go:supportGeneratorModifier.Modify", "gcode/renderer/skirt.go:Skirt.Render"]}
{"id": "C137", "title": "The print of a closed body as a whole: from the triangles in the file to the moves in the G-code", "statement": "Take any file with the triangles of a closed body, or of several closed bodies beside each other without a gap in height (no degenerate or repeated triangle, corners farther apart than the meld distance) which is at least as high as the first layer and at most 55.1 mm in diagonal, options of usual size, and a clipper library which meets the listed assumptions with a tolerance. Then the program writes a G-code, and: (1) it has a layer for every height up to the height of the body, no move goes below something printed before or higher than the last layer and the hop; (2) all moves end on the area of the body and its margin (except up to two moves at the origin in the beginning); (3) without brim, skirt and support every extruding move is inside of the body or near its surface; (4) every point inside of the body, not near its surface, has an extruding move within half the line width (and 9 um) if it is near to the top or bottom, else within half the distance of the infill; (5) every way out of the body crosses each of the walls, which keep their distance from the outside. The tolerances are explicit. Only properties of the body are assumed for (3)-(5): the planes of the layers cut it so that the cuts of different edges are farther apart than the meld distance and 4 um, and no face only touches a plane from below with a corner. For a library which rounds to unit squares the assumptions about libraries are proved, all together and with the tolerance 2 um, so for it the statement holds for all bodies without any assumption about the library.", "quantifier": "for all closed bodies, one or several in a file, all options of usual size, all clipper libraries meeting the assumptions (and in particular the library of squares)", "why_tests_cant": "A test prints a few models and looks at single moves; this is about every point of every body and every way out of it.", "anchors": ["goslice.go:GoSlice.Process", "optimizer/optimizer.go:optimizer.Optimize", "slicer/slicer.go:slicer.Slice", "slicer/layer.go:layer.makePolygons", "clip/clip.go:clipperClipper.GenerateLayerParts", "clip/clip.go:clipperClipper.InsetLayer", "clip/linear.go:linear.Fill", "modifier/perimeter.go:perimeterModifier.Modify", "modifier/infill.go:infillModifier.Modify", "modifier/internal_infill.go:internalInfillModifier.Modify", "gcode/generator.go:generator.Generate", "gcode/renderer/perimeter.go:Perimeter.Render", "gcode/renderer/infill.go:Infill.Render"]}
{"id": "C138", "title": "The command `goslice`, with 64 bit integers, prints a closed body and its support", "statement": "Take any command line which sets options of usual size and names a file with the triangles of a closed body (as in C137), and a clipper library which meets the listed assumptions. If the output file can be created and the disk has enough space, the command - with the wrapping 64 bit integers of the machine - ends with status 0 and its output file contains a G-code; all moves end on the area of the body and its margin, and the moves print the body (walls, filled top and bottom, infill: C137). If support is enabled: below every overhang, with the configured gap at its top, there is a column of support down to the next solid or the bed. Each point of it which is deep enough inside of the column, in the distance from the surface given by the spacing, the angle and the gap, has an extruding move within half the distance of the support lines (and 9 um), in the uppermost layers (the interface) within half the line width (and 9 um). For `goslice model.stl` without flags: the text is in `model.stl.gcode`, a body of height h has the layers 200, 400, ... um up to h, and no move ends more than 8.701 mm outside of its area.", "quantifier": "for all command lines, all file systems, all closed bodies and all clipper libraries meeting the assumptions", "why_tests_cant": "Tests run the program on a few models; neither every point below every overhang nor the absence of overflows can be tested.", "anchors": ["cmd/goslice/main.go:main", "data/option.go:ParseFlags", "goslice.go:GoSlice.Process", "reader/reader.go:reader.Read", "writer/writer.go:writer.Write", "modifier/support.go:supportDetectorModifier.Modify", "modifier/support.go:supportGeneratorModifier.Modify", "gcode/renderer/infill.go:Infill.Render", "gcode/generator.go:generator.Generate"]}
{"id": "C139", "title": "Missing triangles: small gaps are closed, a wide gap loses the whole outline", "statement": "Take a closed surface of which some triangles are not in the file, and a layer whose plane cuts any number of the missing triangles, but no two which are side by side in the plane, and at most one which leaves there a gap wider than the smaller one of joinPolygonSnapDistance and finishPolygonSnapDistance (less 4 um). If no gap is wider than finishPolygonSnapDistance (less 4 um), the outlines of the layer enclose exactly the cross-section of the complete solid: every point which is farther than 2 finishPolygonSnapDistance + 2 um away from the surface is enclosed by an odd number of outlines exactly if it is inside of the solid. If a gap is wider than both joinPolygonSnapDistance and finishPolygonSnapDistance (and 4 um), exactly one outline of the layer is lost, one through a missing triangle: a point is enclosed by an odd number of the others exactly if it is either inside of the solid or enclosed by the lost outline, but not both. In all cases at most one outline is lost, all corners of the outlines are on the sides of faces which are there (rounded), and no line of an outline is more than 2 um away from the complete surface.", "quantifier": "for all meshes, all sets of missing triangles and all layers with at most one wide gap and no neighbouring missing triangles in their plane, provided that different sides are met at points farther apart than the meld and the join distance (and 4 um), except at a missing triangle", "why_tests_cant": "Which gaps are closed depends on three distances, on the order of the triangles and on which polygons were joined before; tests only have a few broken models.", "anchors": ["slicer/layer.go:layer.makePolygons", "slicer/slicer.go:slicer.Slice", "slicer/segment.go:SliceFace"]}
{"id": "C140", "title": "A body with missing triangles is printed like the complete one", "statement": "Let a file have the triangles m, and let the triangles gap be missing which would make it a closed surface. In every layer whose plane cuts no two missing triangles side by side, leaves no gap wider than FinishPolygonSnapDistance (less 4 µm) and at most one wider than JoinPolygonSnapDistance (less 4 µm), and cuts the other faces well, the G-code is that of the complete body: extruding moves stay inside of it or near to its surface, points near to its bottom and top are covered with solid lines, the rest of the inside with infill lines, and every way out of it, also through a gap, crosses each wall. If support is enabled, it is printed as for the complete body (C138) below each overhang above which all layers are such layers. No move leaves the printing area or goes below something printed.", "quantifier": "for all files, missing triangles, options of usual size, libraries which meet the named assumptions, layers, points and ways", "why_tests_cant": "A test compares the print of one broken model with that of the complete one. That no way out of the body passes through the gap, for any place and shape of the missing triangle, is a statement about all points of a plane and all models.", "anchors": ["slicer/slicer.go:slicer.Slice", "slicer/layer.go:layer.makePolygons", "modifier/perimeter.go:perimeterModifier.Modify", "modifier/infill.go:infillModifier.Modify", "optimizer/optimizer.go:optimizer.Optimize", "goslice.go:GoSlice.Process"]}
{"id": "C141", "title": "The log tells how far the program came, and the number of open faces is that of the sides without neighbour", "statement": "The command prints the lines of its log in a fixed order: the path, the number of triangles and the corners of their box, the number of open faces, the number of layers, one line for each modifier, one line for each layer, and the time. A run which fails prints these lines exactly up to the stage which fails (also: the modifier or the layer which fails), and then the error; after a panic nothing follows. The number of open faces is the number of sides of the optimized faces which no other face has: it is 0 for a closed surface, 3 if one face of it is missing, but also 0 if a face is turned around. Without the lines the program does exactly the same.", "quantifier": "for all files, options, command lines, libraries and worlds", "why_tests_cant": "A test compares the log of one run. That each way to fail leaves exactly the lines of the stages before, that the printing changes nothing of the files, and that the number of open faces is right for every mesh, are statements about all runs and meshes.", "anchors": ["goslice.go:GoSlice.Process", "optimizer/optimizer.go:optimizer.Optimize", "optimizer/model.go:optimizedModel.getFaceIdxWithPoints", "gcode/generator.go:generator.Generate", "cmd/goslice/main.go:main", "cmd/goslice/main.go:printVersion", "handler/handler.go:Named.GetName"]}
{"id": "C142", "title": "How the arguments of the command may be written", "statement": "A call is accepted as far as its form goes exactly if it is made of these words: paths (texts which do not begin with -, or - itself), --name=value, --name value for a flag which is not a switch, --name for a switch, and short flags (-v several times, then nothing, a value for the version, or -o with its value glued, after = or as next argument), possibly followed by -- and further paths. pflag then makes exactly the settings of these words in order, wherever the paths stand. All other calls (unknown flags, a flag without its value at the end, --help) end with status 2 and touch nothing. Two calls which make the same settings of each flag in the same order and have the same first path do the same. Traps: a switch takes no value from the next argument (--support-enabled false model.stl switches the support on and slices the file false); each other flag takes the next argument even if it looks like a flag (--output --support-enabled names the output file --support-enabled).", "quantifier": "for all lists of arguments, libraries and worlds", "why_tests_cant": "The arguments of a command are a list of arbitrary texts. That a list has one reading, that all other lists are refused, and that the spelling and order do not matter, are statements about all lists.", "anchors": ["data/option.go:ParseFlags", "cmd/goslice/main.go:main"]}
{"id": "C143", "title": "Several runs: repeatable, independent of each other, and the model is lost if it is named as output", "statement": "What a run writes depends only on its options, on the content of the model file and on whether the output can be written. It does not depend on other files or on what earlier runs of the same program left in memory. A second run of the same command has the same status and changes nothing, unless the output is the model file. Without the flag output this never happens. If the flag output names the model file, then a successful run replaces the model by its G-code, and the next run takes the G-code as model. The order of two runs does not matter if neither writes the model or the output of the other.", "quantifier": "for all command lines, libraries, contents of files and worlds (including failing runs)", "why_tests_cant": "A test repeats one run. That no run leaves a trace which a later run could notice is a statement about all states and all pairs of runs.", "anchors": ["goslice.go:GoSlice.Process", "writer/writer.go:writer.Write", "reader/reader.go:reader.Read", "gcode/renderer/infill.go:Infill.Init", "cmd/goslice/main.go:main"]}
{"id": "C144", "title": "From the arguments typed to the moves printed, with 64 bit integers", "statement": "For all arguments, the command with 64 bit integers has the same status and leaves the same files as with unbounded integers, if neither the model nor an option is too large. If the arguments are words as in C142 with a path and without the version, and the options they stand for are usual ones, and the model in the file is a closed body of usual size, of which some triangles may be missing, then the command ends with status 0, and its output file contains a text whose moves print the complete body, and its support if that is enabled, where the gaps are small enough.", "quantifier": "for all lists of arguments, all libraries which meet the assumptions, all files, and all bodies with and without missing triangles", "why_tests_cant": "This is one statement from the texts typed to the moves of the printer, for all of them; a test runs one command.", "anchors": ["cmd/goslice/main.go:main", "data/option.go:ParseFlags", "goslice.go:GoSlice.Process", "writer/writer.go:writer.Write"]}
{"id": "C145", "title": "Nil and empty lists of parts give the same result", "statement": "runClipper takes a shortcut only if both lists of parts are nil, not if they are empty. If the library makes nothing of nothing, then the result is the same for nil and for empty lists, so that they need not be told apart. Without that assumption a difference is possible only for two empty lists which are not both nil. The result is nil exactly if it is empty.", "quantifier": "for all libraries, all kinds of clipping, and all lists of parts, nil or not", "why_tests_cant": "Whether a list is nil or empty depends on how it was made; tests with parts never see it.", "anchors": ["clip/clip.go:clipperClipper.runClipper", "clip/clip.go:polyTreeToLayerParts"]}
{"id": "C146", "title": "Holes in the surface are closed by straight lines, or one outline is lost", "statement": "Take a surface with holes: each side of a triangle belongs to it alone or to one other triangle, where it goes in the other direction. Nothing is assumed about what could close the holes. In the plane of a layer each cut which ends at a hole has a partner at which the next cut starts; the way between them is a gap. At most one gap is wider than the smaller one of joinPolygonSnapDistance and finishPolygonSnapDistance (less 4 um). If no gap is wider than finishPolygonSnapDistance (less 4 um), the outlines enclose exactly what the cuts of the triangles and straight lines over the gaps enclose, for each point which is farther than 2 finishPolygonSnapDistance + 2 um from the triangles and 2 um from the lines over the gaps. If a gap is wider than both joinPolygonSnapDistance and finishPolygonSnapDistance (and 4 um), exactly one outline is lost, one which ends at a hole, and the others enclose what is either enclosed by it or by the closed cuts, but not by both. All corners of outlines are on the sides of triangles (rounded), and no line of an outline is more than 2 um away from the cuts and the lines over the gaps.", "quantifier": "for all meshes, all surfaces with holes, all pairings of the loose cuts of a layer, and all layers with at most one wide gap, provided that different sides are met at points farther apart than the meld and the join distance (and 4 um), except for the ends of a gap", "why_tests_cant": "Where the line over a hole goes depends on which ends are nearest to each other and on the order of the triangles; tests only have a few broken models and do not look at each point of a plane.", "anchors": ["slicer/layer.go:layer.makePolygons", "slicer/slicer.go:slicer.Slice", "slicer/segment.go:SliceFace"]}
{"id": "C147", "title": "A body with holes of several triangles is printed like the complete one", "statement": "Let a file have the triangles m, and let patches of any number of triangles be missing which would make it a closed surface. In every layer whose plane meets the sides of each patch within FinishPolygonSnapDistance (less 4 um), in which the patches do not touch each other, each leaves one gap only, at most one gap is wider than JoinPolygonSnapDistance (less 4 um), and which cuts the other faces well, the G-code is that of the complete body: extruding moves stay inside of it or near to its surface, points near to its bottom and top are covered with solid lines, the rest of the inside with infill lines, and every way out of it, also through a hole, crosses each wall. The distances grow with the width of the patches. If support is enabled, it is printed as for the complete body (C138) below each overhang above which all layers are such layers. No move leaves the printing area or goes below something printed.", "quantifier": "for all files, patches of missing triangles, options of usual size, libraries which meet the named assumptions, layers, points and ways", "why_tests_cant": "A test compares the print of one broken model with that of the complete one. How holes of any shape are cut in any plane, and that no way out of the body passes through them, is a statement about all points of a plane and all models.", "anchors": ["slicer/slicer.go:slicer.Slice", "slicer/layer.go:layer.makePolygons", "modifier/perimeter.go:perimeterModifier.Modify", "modifier/infill.go:infillModifier.Modify", "optimizer/optimizer.go:optimizer.Optimize", "goslice.go:GoSlice.Process"]}
{"id": "C148", "title": "An outline with a wide gap is lost as a whole, and nothing else", "statement": "Take a surface with holes as in C146, and a layer in whose plane any number of gaps are wide. Each gap is either at most as wide as joinPolygonSnapDistance and finishPolygonSnapDistance (less 4 um), or wider than joinPolygonSnapDistance (and 4 um), and the ends of the latter are farther apart than finishPolygonSnapDistance (and 4 um), also those of different gaps. Call a cut of a triangle torn if one comes to a wide gap by following the cuts, over small gaps also, in their direction. Then the outlines of the layer enclose exactly what the cuts which are not torn enclose together with straight lines over their gaps, for each point which is farther than 2 finishPolygonSnapDistance + 2 um from these cuts and 2 um from the lines over the gaps.", "quantifier": "for all meshes, all surfaces with holes, all pairings of the loose cuts of a layer, all layers and all points, provided that different sides are met at points farther apart than the meld and the join distance (and 4 um), except for the ends of a gap", "why_tests_cant": "That two pieces with open ends are never connected with each other, and that a piece never changes the outlines beside it, depends on the order in which pieces are joined; tests have single broken models.", "anchors": ["slicer/layer.go:layer.makePolygons", "slicer/slicer.go:slicer.Slice", "slicer/segment.go:SliceFace"]}
{"id": "C149", "title": "Torn bodies vanish, the other bodies are printed as if they were alone", "statement": "Let a file have the triangles of closed bodies and further triangles. In every layer in which each outline of the further triangles has a gap wider than JoinPolygonSnapDistance (as in C148), and all gaps are at these outlines, the G-code is that of the closed bodies alone, at the same place: extruding moves stay inside of the bodies or near to their surface, so that nothing is printed at the place of the further triangles; points near to the bottom and top are covered with solid lines, the rest of the inside with infill lines; every way out crosses each wall. If support is enabled, it is printed as for the closed bodies alone below each overhang above which all layers are such layers, also where the further triangles are. No move leaves the printing area or goes below something printed.", "quantifier": "for all files, sets of closed bodies in them, options of usual size, libraries which meet the named assumptions, layers, points and ways", "why_tests_cant": "A test prints one torn model beside one complete model. That a torn body never changes walls, infill or support of another one is a statement about all models and all points.", "anchors": ["slicer/slicer.go:slicer.Slice", "slicer/layer.go:layer.makePolygons", "modifier/perimeter.go:perimeterModifier.Modify", "modifier/infill.go:infillModifier.Modify", "optimizer/optimizer.go:optimizer.Optimize", "goslice.go:GoSlice.Process"]}
{"id": "C150", "title": "The typed command, for files with holes of any kind", "statement": "For every command line which is typed with valid words, and every file of usual size, the command (with 64 bit integers) ends with status 0 and writes one text, if the file system takes it. Whatever is chosen as missing triangles (C140), as missing patches of triangles (C147) as the closed bodies among further triangles (C149) or as bodies with missing patches among further triangles (C152), the moves of this text print the solid they enclose in all layers which meet the conditions of C140, C147, C149 or C152, and support below its overhangs if it is enabled; all moves end on the area of the model and its margin.", "quantifier": "for all typed commands, files, file systems, libraries which meet the named assumptions, and all ways to complete the surface", "why_tests_cant": "The same text has to be right for every reading of the file; tests fix one model and one command.", "anchors": ["cmd/goslice/main.go:main", "goslice.go:GoSlice.Process", "data/option.go:ParseFlags", "slicer/layer.go:layer.makePolygons", "slicer/slicer.go:slicer.Slice"]}
{"id": "C151", "title": "Infinity and NaN are accepted as lengths", "statement": "A text is accepted as a length exactly if it is a number in the syntax of Go whose float32 value is finite, or one of the words inf and infinity (with an optional sign) or nan (without sign), in small and capital letters. Numbers have the value given by C94, and no number is one of the words. A failed Set leaves infinity with the sign of the number if it is too large, and 0 for every other text. Go ignores the digits of an exponent after its value reaches 10000; for texts of at most 2400 characters this has no effect on value and error. Infinity and NaN are shown as texts which are accepted and have the same value. So the intention that each length is a number is violated: neither the options nor the program check for it.", "quantifier": "for all texts and all values", "why_tests_cant": "All texts in all spellings; single examples do not show that nothing else is accepted.", "anchors": ["data/option.go:Millimeter.Set", "data/option.go:Millimeter.String"]}
{"id": "C152", "title": "Bodies with small holes are repaired while torn bodies vanish", "statement": "Let a file have the triangles of bodies from which patches of triangles are missing, and further triangles. In every layer in which the patches leave gaps narrower than JoinPolygonSnapDistance and FinishPolygonSnapDistance (less 4 um) as in C147, each outline of the further triangles has a gap wider than JoinPolygonSnapDistance (as in C148), and the further triangles share no cut side with the bodies, the G-code is that of the complete bodies alone: extruding moves stay inside of them or near to their surface (without skirt, brim and support), points near to the bottom and top are covered with solid lines, the rest of the inside with infill lines; every way out, also through a hole, crosses each wall. If support is enabled, it is printed as for the complete bodies alone below each overhang above which all layers are such layers.", "quantifier": "for all files, patches and options of usual size, and libraries which meet the named assumptions", "why_tests_cant": "The repair and the loss happen in the same passes over the same list of polygons; a test with one defect does not show that a second one leaves it alone.", "anchors": ["slicer/layer.go:layer.makePolygons", "slicer/slicer.go:slicer.Slice", "goslice.go:GoSlice.Process"]}
{"id": "C153", "title": "Arithmetic of points and vectors", "statement": "Max of a vector is one of its coordinates and none is larger; Max and Min of two lengths are the larger and the smaller one. What was added with Add is taken away by Sub, also if the sum leaves the range of 64 bit integers. Div by 0 panics; any other Div gives in each coordinate a quotient whose product with the divisor is not farther from 0 than the value and differs from it by less than the divisor, and Div after Mul by the same value gives the operand back.", "quantifier": "for all points, vectors and values", "why_tests_cant": "The laws are about all values of three coordinates, also at the limits of the integers.", "anchors": ["data/micrometer.go:microVec3.Max", "data/micrometer.go:Max", "data/micrometer.go:Min", "data/micrometer.go:microVec3.Add", "data/micrometer.go:microVec3.Sub", "data/micrometer.go:microVec3.Div", "data/micrometer.go:microPoint.Div"]}
{"id": "C154", "title": "The text around the layers", "statement": "If no custom line has a percent sign, the text before the first layer is: two comments, the command which heats the bed (exactly if safe start G-code is demanded, the bed can be heated and no start line sets the bed), the command which heats the hot end (exactly if safe start G-code is demanded and no start line sets the hot end), the start lines with the placeholders filled in, and the reset of the E axis. The text after the last layer is: a comment, the commands which switch off hot end and bed (under the same conditions for the end lines), and the end lines. A line sets a heater if a code of the heater is contained in its first word. With the default custom lines the text is written out in full: both temperatures are set exactly once at the start, whether or not safe G-code is demanded, but without safe G-code no heater is switched off at the end.", "quantifier": "for all options", "why_tests_cant": "All combinations of custom lines, white space and options; a golden file shows one of them.", "anchors": ["gcode/renderer/layer.go:PreLayer.Render", "gcode/renderer/layer.go:PostLayer.Render", "data/option.go:GCodeHunk.DoesInstructionContainCodes"]}
