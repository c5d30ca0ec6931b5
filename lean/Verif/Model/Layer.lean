import Verif.Model.Geom2d

/-! # Model of `data/layer.go` -/
namespace Verif.Model
open Verif.Go

/-- `data/layer.go:14-16` `Path.IsAlmostFinished`; panics on an empty path. -/
def isAlmostFinished (p : Path) (distance : Micrometer) : Res Bool := do
  let first ← index p 0
  let last ← index p ((p.length : Int) - 1)
  return (first.sub last).shorterThanOrEqual distance

/-- Loop variables of `data/layer.go:35-139` `Path.Simplify`. -/
structure SimplifyState where
  newPath : Path
  previous : Pt
  areaRemoved : Micrometer

/-- The `switch` statement in `data/layer.go:35-139` `Path.Simplify` that chooses `next`. -/
def simplifyNext (p newPath : Path) (i : Nat) : Res Pt :=
  if i + 1 < p.length then index p (i + 1)
  else if i + 1 = p.length ∧ newPath.length > 1 then index newPath 0
  else index p (Int.tmod (i + 1) p.length)

/-- One iteration (index `i`) of the loop in `data/layer.go:35-139` `Path.Simplify`. -/
def simplifyStep (p : Path) (smallestLineSegmentSquared allowedErrorDistanceSquared : Micrometer)
    (st : SimplifyState) (i : Nat) : Res SimplifyState := do
  let current ← index p (Int.tmod i p.length)
  let next ← simplifyNext p st.newPath i
  let areaRemoveNext := current.x * next.y - current.y * next.x
  let negativeAreaClosing := next.x * st.previous.y - next.y * st.previous.x
  let areaRemoved := st.areaRemoved + areaRemoveNext
  let length2 := (current.sub st.previous).size2
  let nextLength2 := (current.sub next).size2
  let areaRemovedSoFar := areaRemoved + negativeAreaClosing
  let baseLength2 := (next.sub st.previous).size2
  if baseLength2 = 0 then return { st with areaRemoved := areaRemoved }
  else
    let height2 ← quo (areaRemovedSoFar * areaRemovedSoFar) baseLength2
    let distance2 ← perpendicularDistance2R current st.previous next
    if (height2 ≤ 25 ∧ distance2 ≤ 25) ∨
        (length2 < smallestLineSegmentSquared ∧ nextLength2 < smallestLineSegmentSquared ∧
          height2 ≤ allowedErrorDistanceSquared) then
      return { st with areaRemoved := areaRemoved }
    else
      return { newPath := st.newPath ++ [current], previous := current, areaRemoved := areaRemoveNext }

/-- `data/layer.go:35-139` `Path.Simplify`. -/
def simplify (p : Path) (smallestLineSegmentSquared allowedErrorDistanceSquared : Micrometer) : Res Path := do
  let smallest := if smallestLineSegmentSquared = -1 then 100 else smallestLineSegmentSquared
  let allowed := if allowedErrorDistanceSquared = -1 then 25 else allowedErrorDistanceSquared
  if p.length ≤ 2 then return []
  else if p.length = 3 then return p
  else
    let previous ← index p ((p.length : Int) - 1)
    let current ← index p 0
    let areaRemoved := previous.x * current.y - previous.y * current.x
    let st ← (List.range p.length).foldlM (simplifyStep p smallest allowed) ⟨[], previous, areaRemoved⟩
    return st.newPath

/-- Loop variables of the two `Bounds` functions. -/
structure Box where
  minX : Micrometer
  minY : Micrometer
  maxX : Micrometer
  maxY : Micrometer

/-- Loop body of `data/layer.go:143-171` `Path.Bounds`. -/
def Box.extend (b : Box) (point : Pt) : Box :=
  { minX := if point.x < b.minX then point.x else b.minX
    maxX := if point.x > b.maxX then point.x else b.maxX
    minY := if point.y < b.minY then point.y else b.minY
    maxY := if point.y > b.maxY then point.y else b.maxY }

/-- The start values `MaxMicrometer`, `MinMicrometer`. -/
def Box.start : Box := ⟨maxMicrometer, maxMicrometer, minMicrometer, minMicrometer⟩

/-- `data/layer.go:143-171` `Path.Bounds`. -/
def pathBounds (p : Path) : Pt × Pt :=
  if p.length = 0 then (⟨0, 0⟩, ⟨0, 0⟩)
  else
    let b := p.foldl Box.extend Box.start
    (⟨b.minX, b.minY⟩, ⟨b.maxX, b.maxY⟩)

/-- `data/layer.go:206-243` `Paths.Bounds`; the flag `any` is the first component of the loop state. -/
def pathsBounds (p : Paths) : Pt × Pt :=
  if p.length = 0 then (⟨0, 0⟩, ⟨0, 0⟩)
  else
    let (any, b) := p.foldl (fun st path => path.foldl (fun (st : Bool × Box) point => (true, st.2.extend point)) st)
      (false, Box.start)
    if !any then (⟨0, 0⟩, ⟨0, 0⟩) else (⟨b.minX, b.minY⟩, ⟨b.maxX, b.maxY⟩)

/-- `data/layer.go:297-300` `basicLayerPart`: outline and holes. Made by `data/layer.go:303-308` `NewBasicLayerPart`; the getters are `data/layer.go:310-320`. -/
structure LayerPart where
  outline : Path
  holes : Paths
deriving DecidableEq, Repr, Inhabited

/-- `data/layer.go:341-348` `partitionedLayer.Bounds`, for the list of layer parts. -/
def layerBounds (parts : List LayerPart) : Pt × Pt := pathsBounds (parts.map LayerPart.outline)

/-- `data/layer.go:174-182` `Path.Rotate`; `sn`, `cs` are `math.Sin`, `math.Cos` of the angle in radians. The in-place
update of the slice is modelled by returning the new path. -/
def pathRotate (degree : ℚ) (sn cs : ℚ) (p : Path) : Path :=
  if degree = 0 then p else p.map (Pt.rotate sn cs)

/-- `data/layer.go:246-250` `Paths.Rotate`. -/
def pathsRotate (degree : ℚ) (sn cs : ℚ) (p : Paths) : Paths := p.map (pathRotate degree sn cs)

end Verif.Model
