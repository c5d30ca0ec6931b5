import Verif.Model.Layer

/-! # The integer functions of `data` with int64 arithmetic

The other models use unbounded integers. Here the same functions are written with the wrap-around of Go's `int64`
(`Micrometer`). The models of the callers (`clip`, `gcode`) use these versions; `Verif.Props.Machine` and
`Verif.Props.MachineSimplify` show for which inputs they agree with the unbounded ones. -/
namespace Verif.Model
open Verif.Go

/-- Two's complement wrap-around of a 64 bit signed integer. -/
@[irreducible] def wrap (n : Int) : Int := Int.bmod n (2 ^ 64)

/-- `data/micrometer.go:328-330` `microPoint.Size2` with int64 arithmetic. -/
def size2M (p : Pt) : Micrometer := wrap (wrap (p.x * p.x) + wrap (p.y * p.y))

/-- `data/micrometer.go:284-289` `microPoint.Sub` with int64 arithmetic. -/
def subM (p q : Pt) : Pt := ⟨wrap (p.x - q.x), wrap (p.y - q.y)⟩

/-- `data/micrometer.go:319-326` `microPoint.ShorterThanOrEqual` with int64 arithmetic. -/
def shorterThanOrEqualM (p : Pt) (length : Micrometer) : Bool :=
  if p.x > length ∨ p.x < wrap (-length) ∨ p.y > length ∨ p.y < wrap (-length) then false
  else decide (size2M p ≤ wrap (length * length))

/-- `data/micrometer.go:179-181` `microVec3.Size2` with int64 arithmetic. -/
def size2M3 (v : Vec3) : Micrometer := wrap (wrap (wrap (v.x * v.x) + wrap (v.y * v.y)) + wrap (v.z * v.z))

/-- `data/micrometer.go:175-177` `microVec3.ShorterThanOrEqual` with int64 arithmetic. -/
def shorterThanOrEqualM3 (v : Vec3) (length : Micrometer) : Bool := decide (size2M3 v ≤ wrap (length * length))

/-- `data/2d.go:8-10` `DotProduct` with int64 arithmetic. -/
def dotProductM (a b : Pt) : Micrometer := wrap (wrap (a.x * b.x) + wrap (a.y * b.y))

/-- `data/2d.go:13-29` `PerpendicularDistance2` with int64 arithmetic. -/
def perpendicularDistance2M (a b point : Pt) : Micrometer :=
  let vecAB := subM b a
  let vecAP := subM point a
  if size2M vecAB = 0 then size2M vecAP
  else
    let dot := dotProductM vecAB vecAP
    let axSize2 := wrap ((wrap (dot * dot)).tdiv (size2M vecAB))
    maxM 0 (wrap (size2M vecAP - axSize2))

/-- The loop of `data/2d.go:53-66` `seekMostDistantPoint` with int64 arithmetic. -/
def seekLoopM (p1 p2 : Pt) : List Pt → Nat → Nat × Micrometer → Nat × Micrometer
  | [], _, r => r
  | p :: ps, i, (idx, maxDist) =>
    let d := perpendicularDistance2M p1 p2 p
    seekLoopM p1 p2 ps (i + 1) (if d > wrap (maxDist * maxDist) then (i, d) else (idx, maxDist))

/-- `data/2d.go:53-66` `seekMostDistantPoint` with int64 arithmetic. -/
def seekMostDistantPointM (p1 p2 : Pt) (points : Path) : Nat × Micrometer := seekLoopM p1 p2 points 0 (0, 0)

/-- `data/2d.go:33-51` `douglasPeucker` with int64 arithmetic. -/
def douglasPeuckerAuxM (ep : Micrometer) : Nat → Path → Path
  | 0, points => points
  | fuel + 1, points =>
    match points with
    | p0 :: p1 :: p2 :: rest =>
      let last := (p2 :: rest).getLast (by simp)
      let points := p0 :: p1 :: p2 :: rest
      let (idx, maxDist) := seekMostDistantPointM p0 last points
      if maxDist ≥ ep then
        let left := douglasPeuckerAuxM ep fuel (points.take (idx + 1))
        let right := douglasPeuckerAuxM ep fuel (points.drop idx)
        left.dropLast ++ right
      else [p0, last]
    | short => short

/-- `data/2d.go:70-76` `DouglasPeucker` with int64 arithmetic. -/
def douglasPeuckerM (points : Path) (epsilon : Micrometer) : Path :=
  douglasPeuckerAuxM (if epsilon = -1 then 70 else epsilon) 200 points

/-- A term of the shoelace formula in `data/layer.go:35-139` `Path.Simplify` with int64 arithmetic. -/
def crossM (a b : Pt) : Micrometer := wrap (wrap (a.x * b.y) - wrap (a.y * b.x))

/-- One iteration (index `i`) of the loop in `data/layer.go:35-139` `Path.Simplify` with int64 arithmetic. -/
def simplifyStepM (p : Path) (smallestLineSegmentSquared allowedErrorDistanceSquared : Micrometer)
    (st : SimplifyState) (i : Nat) : Res SimplifyState := do
  let current ← index p (Int.tmod i p.length)
  let next ← simplifyNext p st.newPath i
  let areaRemoveNext := crossM current next
  let negativeAreaClosing := crossM next st.previous
  let areaRemoved := wrap (st.areaRemoved + areaRemoveNext)
  let length2 := size2M (subM current st.previous)
  let nextLength2 := size2M (subM current next)
  let areaRemovedSoFar := wrap (areaRemoved + negativeAreaClosing)
  let baseLength2 := size2M (subM next st.previous)
  if baseLength2 = 0 then return { st with areaRemoved := areaRemoved }
  else
    let height2 ← quo (wrap (areaRemovedSoFar * areaRemovedSoFar)) baseLength2
    let height2 := wrap height2
    if (height2 ≤ 25 ∧ perpendicularDistance2M current st.previous next ≤ 25) ∨
        (length2 < smallestLineSegmentSquared ∧ nextLength2 < smallestLineSegmentSquared ∧
          height2 ≤ allowedErrorDistanceSquared) then
      return { st with areaRemoved := areaRemoved }
    else
      return { newPath := st.newPath ++ [current], previous := current, areaRemoved := areaRemoveNext }

/-- `data/layer.go:35-139` `Path.Simplify` with int64 arithmetic. -/
def simplifyM (p : Path) (smallestLineSegmentSquared allowedErrorDistanceSquared : Micrometer) : Res Path := do
  let smallest := if smallestLineSegmentSquared = -1 then 100 else smallestLineSegmentSquared
  let allowed := if allowedErrorDistanceSquared = -1 then 25 else allowedErrorDistanceSquared
  if p.length ≤ 2 then return []
  else if p.length = 3 then return p
  else
    let previous ← index p ((p.length : Int) - 1)
    let current ← index p 0
    let st ← (List.range p.length).foldlM (simplifyStepM p smallest allowed) ⟨[], previous, crossM previous current⟩
    return st.newPath

end Verif.Model
