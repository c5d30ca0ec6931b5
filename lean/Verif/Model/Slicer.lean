import Verif.Model.Optimizer
import Verif.Model.PartitionedLayer

/-! # Model of `slicer`

Coordinates are unbounded integers. Segments are values; the flag `addedToPolygon` is kept separately. -/
namespace Verif.Model
open Verif.Go

/-- `slicer/segment.go:8-14` `segment` without the flag `addedToPolygon`. -/
structure SliceSegment where
  start : Pt
  finish : Pt
  faceIndex : Nat
deriving DecidableEq, Repr

/-- One coordinate in `slicer/segment.go:18-31` `SliceFace`: `a0 + (a1-a0)*(z-z0)/(z1-z0)`. -/
def interpolate (z a0 z0 a1 z1 : Micrometer) : Res Micrometer := do
  let q ← quo ((a1 - a0) * (z - z0)) (z1 - z0)
  return a0 + q

/-- `slicer/segment.go:18-31` `SliceFace`: start and end of the segment. -/
def sliceFace (z : Micrometer) (p0 p1 p2 : Vec3) : Res (Pt × Pt) := do
  let sx ← interpolate z p0.x p0.z p1.x p1.z
  let sy ← interpolate z p0.y p0.z p1.y p1.z
  let ex ← interpolate z p0.x p0.z p2.x p2.z
  let ey ← interpolate z p0.y p0.z p2.y p2.z
  return (⟨sx, sy⟩, ⟨ex, ey⟩)

/-- The switch in `slicer/slicer.go:33-125` `Slice`: the arguments for `SliceFace`, or nothing in the default case. -/
def sliceCase (z : Micrometer) (points : Tri Vec3) : Option (Tri Vec3) :=
  if points.a.z < z ∧ points.b.z ≥ z ∧ points.c.z ≥ z then some ⟨points.a, points.c, points.b⟩
  else if points.a.z > z ∧ points.b.z < z ∧ points.c.z < z then some ⟨points.a, points.b, points.c⟩
  else if points.b.z < z ∧ points.a.z ≥ z ∧ points.c.z ≥ z then some ⟨points.b, points.a, points.c⟩
  else if points.b.z > z ∧ points.a.z < z ∧ points.c.z < z then some ⟨points.b, points.c, points.a⟩
  else if points.c.z < z ∧ points.b.z ≥ z ∧ points.a.z ≥ z then some ⟨points.c, points.b, points.a⟩
  else if points.c.z > z ∧ points.b.z < z ∧ points.a.z < z then some ⟨points.c, points.a, points.b⟩
  else none

/-- `slicer/layer.go:7-14` `layer`: the segments and the map from faces to segments. The polygons are results of `makePolygons`. Made by `slicer/layer.go:16-22` `newLayer`. -/
structure SliceLayer where
  segments : List SliceSegment := []
  faceToSegmentIndex : Nat → Option Nat := fun _ => none

/-- The end of the loop body in `slicer/slicer.go:33-125` `Slice`: the segment of face `i` is added to the layer. -/
def SliceLayer.add (layer : SliceLayer) (i : Nat) (seg : Pt × Pt) : SliceLayer :=
  { segments := layer.segments ++ [⟨seg.1, seg.2, i⟩],
    faceToSegmentIndex := fun k => if k = i then some layer.segments.length else layer.faceToSegmentIndex k }

/-- `minZ` in `slicer/slicer.go:33-125` `Slice`; `optimizer/face.go:26-38` `MinZ` is the same code. -/
def faceMinZ (points : Tri Vec3) : Micrometer :=
  let minZ := points.a.z
  let minZ := if points.b.z < minZ then points.b.z else minZ
  if points.c.z < minZ then points.c.z else minZ

/-- `maxZ` in `slicer/slicer.go:33-125` `Slice`; `optimizer/face.go:40-52` `MaxZ` is the same code. -/
def faceMaxZ (points : Tri Vec3) : Micrometer :=
  let maxZ := points.a.z
  let maxZ := if points.b.z > maxZ then points.b.z else maxZ
  if points.c.z > maxZ then points.c.z else maxZ

/-- The height of a layer in `slicer/slicer.go:33-125` `Slice`. -/
def layerZ (o : Options) (layerNr : Int) : Micrometer := layerNr * o.print.layerThickness + o.print.initialLayerThickness

/-- The switch in `slicer/slicer.go:33-125` `Slice` and the following statements. -/
def sliceInto (z : Micrometer) (i : Nat) (points : Tri Vec3) (layer : SliceLayer) : Res SliceLayer :=
  match sliceCase z points with
  | none => .ok layer
  | some t => do
    let seg ← sliceFace z t.a t.b t.c
    return layer.add i seg

/-- The body of the loop over the layers in `slicer/slicer.go:33-125` `Slice` for face `i`. -/
def sliceAt (o : Options) (i : Nat) (points : Tri Vec3) (layers : List (Option SliceLayer)) (layerNr : Int) :
    Res (List (Option SliceLayer)) := do
  if layerZ o layerNr < faceMinZ points then return layers
  if layerNr < 0 then return layers
  let layer ← index layers layerNr
  let layer ← sliceInto (layerZ o layerNr) i points (layer.getD {})
  return layers.set layerNr.toNat (some layer)

/-- The loop over the layers in `slicer/slicer.go:33-125` `Slice`, with `n` iterations left. -/
def sliceLayers (o : Options) (i : Nat) (points : Tri Vec3) : Nat → Int → List (Option SliceLayer) → Res (List (Option SliceLayer))
  | 0, _, layers => .ok layers
  | n + 1, layerNr, layers => do sliceLayers o i points n (layerNr + 1) (← sliceAt o i points layers layerNr)

/-- The body of the loop over the faces in `slicer/slicer.go:33-125` `Slice`. -/
def sliceOneFace (o : Options) (i : Nat) (points : Tri Vec3) (layers : List (Option SliceLayer)) : Res (List (Option SliceLayer)) := do
  let first ← quo (faceMinZ points - o.print.initialLayerThickness) o.print.layerThickness
  let last ← quo (faceMaxZ points - o.print.initialLayerThickness) o.print.layerThickness
  sliceLayers o i points (last - first + 1).toNat first layers

/-- The loop over the faces in `slicer/slicer.go:33-125` `Slice`, starting with face number `i`. -/
def sliceFaces (o : Options) : Nat → List (Tri Vec3) → List (Option SliceLayer) → Res (List (Option SliceLayer))
  | _, [], layers => .ok layers
  | i, f :: fs, layers => do sliceFaces o (i + 1) fs (← sliceOneFace o i f layers)

/-! ## Polygons -/

/-- The loop over the touching faces in `slicer/layer.go:41-185` `makePolygons`. `added` are the segments whose flag is set, `p0` is the end of the
current segment; the result is `nextIndex` (`none` for -1) and `canClose`. -/
def nextSegment (meld : Micrometer) (layer : SliceLayer) (added : List Nat) (startIndex : Nat) (p0 : Pt) :
    List Int → Option Nat × Bool → Res (Option Nat × Bool)
  | [], r => .ok r
  | t :: ts, r =>
    match (if t > -1 then layer.faceToSegmentIndex t.toNat else none) with
    | none => nextSegment meld layer added startIndex p0 ts r
    | some ti => do
      let seg ← index layer.segments (ti : Int)
      if (p0.sub seg.start).shorterThanOrEqual meld then
        nextSegment meld layer added startIndex p0 ts (if ti ∈ added then r.1 else some ti, if ti = startIndex then true else r.2)
      else nextSegment meld layer added startIndex p0 ts r

/-- The loop building one polygon in `slicer/layer.go:41-185` `makePolygons`. Go loops without limit; here the number of rounds is limited and running out is
reported as an error (C57 shows that this never happens). The result are the set flags, the polygon, and `canClose`. -/
def walk (meld : Micrometer) (om : OptModel) (layer : SliceLayer) (startIndex : Nat) :
    (rounds : Nat) → (added : List Nat) → Path → (current : Nat) → Res (List Nat × Path × Bool)
  | 0, _, _, _ => .error (.err "too many rounds")
  | n + 1, added, polygon, current => do
    let seg ← index layer.segments (current : Int)
    let face ← index om.faces (seg.faceIndex : Int)
    let r ← nextSegment meld layer (added ++ [current]) startIndex seg.finish face.touching.corners (none, false)
    match r.1 with
    | none => return (added ++ [current], polygon ++ [seg.finish], r.2)
    | some next => walk meld om layer startIndex n (added ++ [current]) (polygon ++ [seg.finish]) next

/-- An entry of `l.polygons` (which may be nil) and the entry of `l.closed` with the same index. -/
structure Poly where
  path : Option Path
  closed : Bool
deriving DecidableEq, Repr

/-- The first loop in `slicer/layer.go:41-185` `makePolygons`, over the remaining start segments. -/
def buildPolygons (meld : Micrometer) (om : OptModel) (layer : SliceLayer) : List Nat → (added : List Nat) → List Poly → Res (List Poly)
  | [], _, polys => .ok polys
  | i :: is, added, polys =>
    if i ∈ added then buildPolygons meld om layer is added polys
    else do
      let seg ← index layer.segments (i : Int)
      let r ← walk meld om layer i (layer.segments.length + 1) added [seg.start] i
      buildPolygons meld om layer is r.1 (polys ++ [⟨some r.2.1, r.2.2⟩])

/-- The search for the best polygon to connect in `slicer/layer.go:41-185` `makePolygons`; `j` is the index of the first remaining polygon, the result is `best`
(`none` for -1) and `bestScore`. -/
def bestPartner (join : Micrometer) (i : Nat) (last : Pt) : List Poly → (j : Nat) → Option Nat × Micrometer → Res (Option Nat × Micrometer)
  | [], _, best => .ok best
  | ⟨none, _⟩ :: ps, j, best => bestPartner join i last ps (j + 1) best
  | ⟨some polygon2, closed⟩ :: ps, j, best =>
    if closed ∨ i = j then bestPartner join i last ps (j + 1) best
    else do
      let first ← index polygon2 0
      if (last.sub first).shorterThanOrEqual join ∧ (last.sub first).size - (polygon2.length * 10 : Nat) < best.2 then
        bestPartner join i last ps (j + 1) (some j, (last.sub first).size - (polygon2.length * 10 : Nat))
      else bestPartner join i last ps (j + 1) best

/-- `slicer/layer.go:187-189` `removeLastPoint`: the slice expression keeps all points. -/
def removeLastPoint (polygon : Path) : Path := polygon.take polygon.length

/-- "if a matching slicePolygon was found, connect them" in `slicer/layer.go:41-185` `makePolygons`. -/
def joinPolygons (join : Micrometer) (polys : List Poly) (i : Nat) (polygon : Path) (best : Nat) : Res (List Poly) := do
  let other ← index polys (best : Int)
  let joined := polygon ++ other.path.getD []
  let finished ← isAlmostFinished joined join
  let new : Poly := if finished then ⟨some (removeLastPoint joined), true⟩ else ⟨some joined, false⟩
  return (polys.set i new).set best { other with path := none }

/-- One pass of the loop at `RerunConnectPolygons` in `slicer/layer.go:41-185` `makePolygons`, over the remaining polygons, the first of which has index `i`.
The result is `none` if nothing was connected. -/
def joinPass (join : Micrometer) (polys : List Poly) : List Poly → Nat → Res (Option (List Poly))
  | [], _ => .ok none
  | ⟨none, _⟩ :: ps, i => joinPass join polys ps (i + 1)
  | ⟨some polygon, closed⟩ :: ps, i =>
    if closed then joinPass join polys ps (i + 1)
    else do
      let last ← index polygon ((polygon.length : Int) - 1)
      let best ← bestPartner join i last polys 0 (none, join + 1)
      match best.1 with
      | none => joinPass join polys ps (i + 1)
      | some b => do
        let polys' ← joinPolygons join polys i polygon b
        return some polys'

/-- `RerunConnectPolygons` in `slicer/layer.go:41-185` `makePolygons`. The number of rounds is limited here; running out is reported as an error (C58 shows
that this never happens). -/
def joinAll (join : Micrometer) : (rounds : Nat) → List Poly → Res (List Poly)
  | 0, _ => .error (.err "too many rounds")
  | n + 1, polys => do
    match ← joinPass join polys polys 0 with
    | none => return polys
    | some polys' => joinAll join n polys'

/-- The loop summing up the length in `slicer/layer.go:41-185` `makePolygons`; it ends early if the polygon is closed and long enough. -/
def polygonLength (closed : Bool) (finish : Micrometer) : (previous : Pt) → Path → (length : Micrometer) → Micrometer
  | _, [], length => length
  | prev, p :: ps, length =>
    let length := length + (p.sub prev).size
    if closed ∧ length > finish then length else polygonLength closed finish p ps length

/-- The last loop in `slicer/layer.go:41-185` `makePolygons`. -/
def clearPolygons (finish : Micrometer) : List Poly → Res Paths
  | [] => .ok []
  | ⟨none, _⟩ :: ps => clearPolygons finish ps
  | ⟨some poly, closed⟩ :: ps => do
    let almost ← isAlmostFinished poly finish
    let closed := closed || almost
    let length := match poly with
      | [] => 0
      | p :: rest => polygonLength closed finish p rest 0
    let cleared ← clearPolygons finish ps
    return if length > finish ∧ closed then (if almost then removeLastPoint poly else poly) :: cleared else cleared

/-- `slicer/layer.go:41-185` `makePolygons` for a layer which is not nil. -/
def makePolygons (o : Options) (om : OptModel) (layer : SliceLayer) : Res Paths := do
  let polys ← buildPolygons o.slicing.meldDistance om layer (List.range layer.segments.length) [] []
  let polys ← joinAll o.slicing.joinPolygonSnapDistance (polys.length + 1) polys
  clearPolygons o.slicing.finishPolygonSnapDistance polys

/-- The body of the last loop in `slicer/slicer.go:33-125` `Slice`; a nil layer panics in `makePolygons`. The text of the error leaves out
the number of the layer. -/
def finishLayer (lib : ClipperLib) (o : Options) (om : OptModel) : Option SliceLayer → Res Layer
  | none => .error (.panic "nil pointer dereference")
  | some layer => do
    let polygons ← makePolygons o om layer
    match ← lib.generateLayerParts polygons with
    | none => .error (.err "partitioning failed")
    | some parts => return { parts := parts }

/-- The number of layers in `slicer/slicer.go:33-125` `Slice`. -/
def layerCount (o : Options) (om : OptModel) : Res Int := do
  let q ← quo (om.size.z - o.print.initialLayerThickness) o.print.layerThickness
  return q + 1

/-- `make([]*layer, layerCount)` in `slicer/slicer.go:33-125` `Slice`. -/
def makeLayers (n : Int) : Res (List (Option SliceLayer)) :=
  if n < 0 then .error (.panic "makeslice: len out of range") else .ok (List.replicate n.toNat none)

/-- The loose segments (the points of all faces are read first, which never fails, C48): `slicer/slicer.go:33-125` `Slice` up to the last loop. -/
def sliceSegments (o : Options) (om : OptModel) : Res (List (Option SliceLayer)) := do
  let layers ← makeLayers (← layerCount o om)
  let faces ← om.faces.mapM om.facePoints
  sliceFaces o 0 faces layers

/-- `slicer/slicer.go:33-125` `Slice`. -/
def slice (lib : ClipperLib) (o : Options) (om : OptModel) : Res (List Layer) := do
  let layers ← sliceSegments o om
  layers.mapM (finishLayer lib o om)

end Verif.Model
