import Verif.Model.MachineSlice

/-! # `slicer` with int64 arithmetic

The functions of `Verif.Model.Slicer` with the wrap-around of Go's `int64`. The numbers of loop rounds and the lengths of lists stay unbounded. -/
namespace Verif.Model
open Verif.Go

/-- `data/micrometer.go:332-334` `microPoint.Size` with int64 arithmetic in `Size2`; the root of a negative number (NaN in Go) is taken as 0. -/
def sizeM (p : Pt) : Micrometer := truncZ (fsqrt64 (r64 (size2M p : ℚ)))

/-- The height of a layer in `slicer/slicer.go:33-125` `Slice` with int64 arithmetic. -/
def layerZM (o : Options) (layerNr : Int) : Micrometer := wrap (wrap (layerNr * o.print.layerThickness) + o.print.initialLayerThickness)

/-- The switch in `slicer/slicer.go:33-125` `Slice` and the following statements with int64 arithmetic. -/
def sliceIntoM (z : Micrometer) (i : Nat) (points : Tri Vec3) (layer : SliceLayer) : Res SliceLayer :=
  match sliceCase z points with
  | none => .ok layer
  | some t => do
    let seg ← sliceFaceM z t.a t.b t.c
    return layer.add i seg

/-- The body of the loop over the layers in `slicer/slicer.go:33-125` `Slice` with int64 arithmetic. -/
def sliceAtM (o : Options) (i : Nat) (points : Tri Vec3) (layers : List (Option SliceLayer)) (layerNr : Int) :
    Res (List (Option SliceLayer)) := do
  if layerZM o layerNr < faceMinZ points then return layers
  if layerNr < 0 then return layers
  let layer ← index layers layerNr
  let layer ← sliceIntoM (layerZM o layerNr) i points (layer.getD {})
  return layers.set layerNr.toNat (some layer)

/-- The loop over the layers in `slicer/slicer.go:33-125` `Slice` with int64 arithmetic. -/
def sliceLayersM (o : Options) (i : Nat) (points : Tri Vec3) : Nat → Int → List (Option SliceLayer) → Res (List (Option SliceLayer))
  | 0, _, layers => .ok layers
  | n + 1, layerNr, layers => do sliceLayersM o i points n (wrap (layerNr + 1)) (← sliceAtM o i points layers layerNr)

/-- The number of the layer at a height in `slicer/slicer.go:33-125` `Slice` with int64 arithmetic. -/
def layerNrM (o : Options) (z : Micrometer) : Res Int := do
  let q ← quo (wrap (z - o.print.initialLayerThickness)) o.print.layerThickness
  return wrap q

/-- The body of the loop over the faces in `slicer/slicer.go:33-125` `Slice` with int64 arithmetic. The number of rounds is right unless the last number is the
largest `int`. -/
def sliceOneFaceM (o : Options) (i : Nat) (points : Tri Vec3) (layers : List (Option SliceLayer)) : Res (List (Option SliceLayer)) := do
  let first ← layerNrM o (faceMinZ points)
  let last ← layerNrM o (faceMaxZ points)
  sliceLayersM o i points (last - first + 1).toNat first layers

/-- The loop over the faces in `slicer/slicer.go:33-125` `Slice` with int64 arithmetic. -/
def sliceFacesM (o : Options) : Nat → List (Tri Vec3) → List (Option SliceLayer) → Res (List (Option SliceLayer))
  | _, [], layers => .ok layers
  | i, f :: fs, layers => do sliceFacesM o (i + 1) fs (← sliceOneFaceM o i f layers)

/-- The loop over the touching faces in `slicer/layer.go:41-185` `makePolygons` with int64 arithmetic. -/
def nextSegmentM (meld : Micrometer) (layer : SliceLayer) (added : List Nat) (startIndex : Nat) (p0 : Pt) :
    List Int → Option Nat × Bool → Res (Option Nat × Bool)
  | [], r => .ok r
  | t :: ts, r =>
    match (if t > -1 then layer.faceToSegmentIndex t.toNat else none) with
    | none => nextSegmentM meld layer added startIndex p0 ts r
    | some ti => do
      let seg ← index layer.segments (ti : Int)
      if shorterThanOrEqualM (subM p0 seg.start) meld then
        nextSegmentM meld layer added startIndex p0 ts (if ti ∈ added then r.1 else some ti, if ti = startIndex then true else r.2)
      else nextSegmentM meld layer added startIndex p0 ts r

/-- The loop building one polygon in `slicer/layer.go:41-185` `makePolygons` with int64 arithmetic. -/
def walkM (meld : Micrometer) (om : OptModel) (layer : SliceLayer) (startIndex : Nat) :
    (rounds : Nat) → (added : List Nat) → Path → (current : Nat) → Res (List Nat × Path × Bool)
  | 0, _, _, _ => .error (.err "too many rounds")
  | n + 1, added, polygon, current => do
    let seg ← index layer.segments (current : Int)
    let face ← index om.faces (seg.faceIndex : Int)
    let r ← nextSegmentM meld layer (added ++ [current]) startIndex seg.finish face.touching.corners (none, false)
    match r.1 with
    | none => return (added ++ [current], polygon ++ [seg.finish], r.2)
    | some next => walkM meld om layer startIndex n (added ++ [current]) (polygon ++ [seg.finish]) next

/-- The first loop in `slicer/layer.go:41-185` `makePolygons` with int64 arithmetic. -/
def buildPolygonsM (meld : Micrometer) (om : OptModel) (layer : SliceLayer) : List Nat → (added : List Nat) → List Poly → Res (List Poly)
  | [], _, polys => .ok polys
  | i :: is, added, polys =>
    if i ∈ added then buildPolygonsM meld om layer is added polys
    else do
      let seg ← index layer.segments (i : Int)
      let r ← walkM meld om layer i (layer.segments.length + 1) added [seg.start] i
      buildPolygonsM meld om layer is r.1 (polys ++ [⟨some r.2.1, r.2.2⟩])

/-- The search for the best polygon to connect in `slicer/layer.go:41-185` `makePolygons` with int64 arithmetic. -/
def bestPartnerM (join : Micrometer) (i : Nat) (last : Pt) : List Poly → (j : Nat) → Option Nat × Micrometer → Res (Option Nat × Micrometer)
  | [], _, best => .ok best
  | ⟨none, _⟩ :: ps, j, best => bestPartnerM join i last ps (j + 1) best
  | ⟨some polygon2, closed⟩ :: ps, j, best =>
    if closed ∨ i = j then bestPartnerM join i last ps (j + 1) best
    else do
      let first ← index polygon2 0
      let score := wrap (sizeM (subM last first) - wrap (polygon2.length * 10 : Nat))
      if shorterThanOrEqualM (subM last first) join ∧ score < best.2 then bestPartnerM join i last ps (j + 1) (some j, score)
      else bestPartnerM join i last ps (j + 1) best

/-- `data/layer.go:14-16` `Path.IsAlmostFinished` with int64 arithmetic. -/
def isAlmostFinishedM (p : Path) (distance : Micrometer) : Res Bool := do
  let first ← index p 0
  let last ← index p ((p.length : Int) - 1)
  return shorterThanOrEqualM (subM first last) distance

/-- "if a matching slicePolygon was found, connect them" in `slicer/layer.go:41-185` `makePolygons` with int64 arithmetic. -/
def joinPolygonsM (join : Micrometer) (polys : List Poly) (i : Nat) (polygon : Path) (best : Nat) : Res (List Poly) := do
  let other ← index polys (best : Int)
  let joined := polygon ++ other.path.getD []
  let finished ← isAlmostFinishedM joined join
  let new : Poly := if finished then ⟨some (removeLastPoint joined), true⟩ else ⟨some joined, false⟩
  return (polys.set i new).set best { other with path := none }

/-- One pass of the loop at `RerunConnectPolygons` in `slicer/layer.go:41-185` `makePolygons` with int64 arithmetic. -/
def joinPassM (join : Micrometer) (polys : List Poly) : List Poly → Nat → Res (Option (List Poly))
  | [], _ => .ok none
  | ⟨none, _⟩ :: ps, i => joinPassM join polys ps (i + 1)
  | ⟨some polygon, closed⟩ :: ps, i =>
    if closed then joinPassM join polys ps (i + 1)
    else do
      let last ← index polygon ((polygon.length : Int) - 1)
      let best ← bestPartnerM join i last polys 0 (none, wrap (join + 1))
      match best.1 with
      | none => joinPassM join polys ps (i + 1)
      | some b => do
        let polys' ← joinPolygonsM join polys i polygon b
        return some polys'

/-- `RerunConnectPolygons` in `slicer/layer.go:41-185` `makePolygons` with int64 arithmetic. -/
def joinAllM (join : Micrometer) : (rounds : Nat) → List Poly → Res (List Poly)
  | 0, _ => .error (.err "too many rounds")
  | n + 1, polys => do
    match ← joinPassM join polys polys 0 with
    | none => return polys
    | some polys' => joinAllM join n polys'

/-- The loop summing up the length in `slicer/layer.go:41-185` `makePolygons` with int64 arithmetic. -/
def polygonLengthM (closed : Bool) (finish : Micrometer) : (previous : Pt) → Path → (length : Micrometer) → Micrometer
  | _, [], length => length
  | prev, p :: ps, length =>
    let length := wrap (length + sizeM (subM p prev))
    if closed ∧ length > finish then length else polygonLengthM closed finish p ps length

/-- The last loop in `slicer/layer.go:41-185` `makePolygons` with int64 arithmetic. -/
def clearPolygonsM (finish : Micrometer) : List Poly → Res Paths
  | [] => .ok []
  | ⟨none, _⟩ :: ps => clearPolygonsM finish ps
  | ⟨some poly, closed⟩ :: ps => do
    let almost ← isAlmostFinishedM poly finish
    let closed := closed || almost
    let length := match poly with
      | [] => 0
      | p :: rest => polygonLengthM closed finish p rest 0
    let cleared ← clearPolygonsM finish ps
    return if length > finish ∧ closed then (if almost then removeLastPoint poly else poly) :: cleared else cleared

/-- `slicer/layer.go:41-185` `makePolygons` with int64 arithmetic. -/
def makePolygonsM (o : Options) (om : OptModel) (layer : SliceLayer) : Res Paths := do
  let polys ← buildPolygonsM o.slicing.meldDistance om layer (List.range layer.segments.length) [] []
  let polys ← joinAllM o.slicing.joinPolygonSnapDistance (polys.length + 1) polys
  clearPolygonsM o.slicing.finishPolygonSnapDistance polys

/-- The body of the last loop in `slicer/slicer.go:33-125` `Slice` with int64 arithmetic (`generateLayerParts` has it anyway). -/
def finishLayerM (lib : ClipperLib) (o : Options) (om : OptModel) : Option SliceLayer → Res Layer
  | none => .error (.panic "nil pointer dereference")
  | some layer => do
    let polygons ← makePolygonsM o om layer
    match ← lib.generateLayerParts polygons with
    | none => .error (.err "partitioning failed")
    | some parts => return { parts := parts }

/-- The number of layers in `slicer/slicer.go:33-125` `Slice` with int64 arithmetic. -/
def layerCountM (o : Options) (om : OptModel) : Res Int := do
  let q ← layerNrM o om.size.z
  return wrap (q + 1)

/-- The loose segments: `slicer/slicer.go:33-125` `Slice` up to the last loop, with int64 arithmetic. -/
def sliceSegmentsM (o : Options) (om : OptModel) : Res (List (Option SliceLayer)) := do
  let layers ← makeLayers (← layerCountM o om)
  let faces ← om.faces.mapM om.facePoints
  sliceFacesM o 0 faces layers

/-- `slicer/slicer.go:33-125` `Slice` with int64 arithmetic. -/
def sliceM (lib : ClipperLib) (o : Options) (om : OptModel) : Res (List Layer) := do
  let layers ← sliceSegmentsM o om
  layers.mapM (finishLayerM lib o om)

end Verif.Model
