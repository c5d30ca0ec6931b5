import Verif.Model.Machine
import Verif.Model.Optimizer

/-! # `optimizer` with int64 arithmetic

The functions of `Verif.Model.Optimizer` which compute with coordinates, with the wrap-around of int64. -/
namespace Verif.Model
open Verif.Go

/-- `data/micrometer.go:141-147` `microVec3.Sub` with int64 arithmetic. -/
def subM3 (v w : Vec3) : Vec3 := ⟨wrap (v.x - w.x), wrap (v.y - w.y), wrap (v.z - w.z)⟩

/-- The loop over the points with the same hash in `optimizer/optimizer.go:43-163` `Optimize`, with int64 arithmetic. -/
def findPointM (meld : Micrometer) (points : List MPoint) (current : Vec3) : List Nat → Res (Option Nat)
  | [] => .ok none
  | i :: is => do
    let p ← index points (i : Int)
    if shorterThanOrEqualM3 (subM3 p.pos current) meld then return some i
    findPointM meld points current is

/-- The body of the loop over the points of a face in `optimizer/optimizer.go:43-163` `Optimize`, with int64 arithmetic. (The hash is always
computed with 64 bits.) -/
def addPointM (meld : Micrometer) (s : OptState) (current : Vec3) : Res (Nat × OptState) := do
  let hash ← pointHash meld current
  match ← findPointM meld s.points current (s.indices hash) with
  | some i => return (i, s)
  | none => return (s.points.length,
      { s with points := s.points ++ [{ pos := current }],
               indices := fun h => if h = hash then s.indices h ++ [s.points.length] else s.indices h })

/-- The body of `FacesLoop` in `optimizer/optimizer.go:43-163` `Optimize`, with int64 arithmetic. -/
def addFaceM (meld : Micrometer) (s : OptState) (face : Tri Vec3) : Res OptState := do
  let (i0, s) ← addPointM meld s face.a
  let (i1, s) ← addPointM meld s face.b
  let (i2, s) ← addPointM meld s face.c
  addIndices s ⟨i0, i1, i2⟩

/-- `FacesLoop` in `optimizer/optimizer.go:43-163` `Optimize`, with int64 arithmetic. -/
def addFacesM (meld : Micrometer) : OptState → Mesh → Res OptState
  | s, [] => .ok s
  | s, f :: fs => do addFacesM meld (← addFaceM meld s f) fs

/-- `vectorOffset` in `optimizer/optimizer.go:43-163` `Optimize`, with int64 arithmetic. -/
def vectorOffsetM (center min max : Vec3) : Vec3 :=
  subM3 ⟨(wrap (min.x + max.x)).tdiv 2, (wrap (min.y + max.y)).tdiv 2, min.z⟩ center

/-- `optimizer/optimizer.go:43-163` `Optimize` with int64 arithmetic. -/
def optimizeM (o : Options) (m : Mesh) : Res OptModel := do
  let s ← addFacesM o.slicing.meldDistance {} m
  let faces ← touchingFaces s.points 0 s.faces
  let min ← meshMin m
  let max ← meshMax m
  return { points := s.points.map fun p => { p with pos := subM3 p.pos (vectorOffsetM o.printer.center min max) },
           faces := faces, size := subM3 max min }

end Verif.Model
