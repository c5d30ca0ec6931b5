import Verif.Model.Micrometer

/-! # Model of `data/2d.go` -/
namespace Verif.Model
open Verif.Go

/-- `data/2d.go:8-10` `DotProduct`. -/
def dotProduct (a b : Pt) : Micrometer := a.x * b.x + a.y * b.y

/-- `data/2d.go:13-29` `PerpendicularDistance2`, with Go's checked division. -/
def perpendicularDistance2R (a b point : Pt) : Res Micrometer :=
  let vecAB := b.sub a
  let vecAP := point.sub a
  if vecAB.size2 = 0 then .ok vecAP.size2
  else do
    let dot := dotProduct vecAB vecAP
    let axSize2 ← quo (dot * dot) vecAB.size2
    return maxM 0 (vecAP.size2 - axSize2)

/-- `data/2d.go:13-29` `PerpendicularDistance2` as a total function; equal to the checked version by
`Verif.C04_no_panic`. -/
def perpendicularDistance2 (a b point : Pt) : Micrometer :=
  let vecAB := b.sub a
  let vecAP := point.sub a
  if vecAB.size2 = 0 then vecAP.size2
  else
    let dot := dotProduct vecAB vecAP
    let axSize2 := (dot * dot).tdiv vecAB.size2
    maxM 0 (vecAP.size2 - axSize2)

/-- The loop of `data/2d.go:53-66` `seekMostDistantPoint`, from index `i` on. -/
def seekLoop (p1 p2 : Pt) : List Pt → Nat → Nat × Micrometer → Nat × Micrometer
  | [], _, r => r
  | p :: ps, i, (idx, maxDist) =>
    let d := perpendicularDistance2 p1 p2 p
    seekLoop p1 p2 ps (i + 1) (if d > maxDist * maxDist then (i, d) else (idx, maxDist))

/-- `data/2d.go:53-66` `seekMostDistantPoint`. -/
def seekMostDistantPoint (p1 p2 : Pt) (points : Path) : Nat × Micrometer := seekLoop p1 p2 points 0 (0, 0)

/-- `data/2d.go:33-51` `douglasPeucker`, as a function on values (no shared memory, see `Verif.Model.DPHeap` for that).
`fuel` is `200 - depth`; reaching 0 is the code's own depth limit. `left[:len(left)-1]` is `dropLast`
(`left` is never empty: `Verif.C05_left_nonempty`). -/
def douglasPeuckerAux (ep : Micrometer) : Nat → Path → Path
  | 0, points => points
  | fuel + 1, points =>
    match points with
    | p0 :: p1 :: p2 :: rest =>
      let last := (p2 :: rest).getLast (by simp)
      let points := p0 :: p1 :: p2 :: rest
      let (idx, maxDist) := seekMostDistantPoint p0 last points
      if maxDist ≥ ep then
        let left := douglasPeuckerAux ep fuel (points.take (idx + 1))
        let right := douglasPeuckerAux ep fuel (points.drop idx)
        left.dropLast ++ right
      else [p0, last]
    | short => short

/-- `data/2d.go:70-76` `DouglasPeucker`. -/
def douglasPeucker (points : Path) (epsilon : Micrometer) : Path :=
  douglasPeuckerAux (if epsilon = -1 then 70 else epsilon) 200 points

end Verif.Model
