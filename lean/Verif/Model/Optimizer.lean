import Verif.Model.Options

/-! # Model of `reader` (models) and `optimizer`

Vectors are values; no function here changes a vector it did not create itself (C03). Coordinates are unbounded integers, only the hash is
computed with 64 bit arithmetic as in Go. -/
namespace Verif.Model
open Verif.Go

/-- The arrays `[3]...` used for faces. -/
structure Tri (α : Type) where
  a : α
  b : α
  c : α
deriving DecidableEq, Repr

namespace Tri
variable {α β : Type}
/-- The elements of the array in order. -/
def corners (t : Tri α) : List α := [t.a, t.b, t.c]
/-- A function applied to each element. -/
def map (f : α → β) (t : Tri α) : Tri β := ⟨f t.a, f t.b, f t.c⟩
end Tri

/-- `reader/reader.go:21-23` `Model`: the list of faces, each given by its three points; `reader/reader.go:17-61` collects them (`AppendTriangle`; the name, header and kind of the file are ignored). -/
abbrev Mesh := List (Tri Vec3)

/-- One vertex in the loop of `reader/reader.go:63-83` `Model.Min`. -/
def minVec (ret v : Vec3) : Vec3 :=
  ⟨if ret.x > v.x then v.x else ret.x, if ret.y > v.y then v.y else ret.y, if ret.z > v.z then v.z else ret.z⟩

/-- One vertex in the loop of `reader/reader.go:85-105` `Model.Max`. -/
def maxVec (ret v : Vec3) : Vec3 :=
  ⟨if ret.x < v.x then v.x else ret.x, if ret.y < v.y then v.y else ret.y, if ret.z < v.z then v.z else ret.z⟩

/-- `reader/reader.go:63-83` `Model.Min`; `faces[0]` panics without faces. -/
def meshMin (m : Mesh) : Res Vec3 := do
  let f ← index m 0
  return m.foldl (fun ret face => face.corners.foldl minVec ret) f.a

/-- `reader/reader.go:85-105` `Model.Max`. -/
def meshMax (m : Mesh) : Res Vec3 := do
  let f ← index m 0
  return m.foldl (fun ret face => face.corners.foldl maxVec ret) f.a

/-- `optimizer/point.go:9-12` `point`. -/
structure MPoint where
  pos : Vec3
  faceIndices : List Nat := []
deriving DecidableEq, Repr

/-- `optimizer/face.go:7-12` `optimizedFace`, without the model pointer and its own index, which is not read by any code. The getter is `optimizer/face.go:22-24`. -/
structure OptFace where
  indices : Tri Nat
  touching : Tri Int := ⟨0, 0, 0⟩
deriving DecidableEq, Repr

/-- `optimizer/model.go:10-14` `optimizedModel`. The getters are `optimizer/model.go:16-30`. -/
structure OptModel where
  points : List MPoint := []
  faces : List OptFace := []
  size : Vec3 := ⟨0, 0, 0⟩
deriving DecidableEq, Repr

/-- The conversion of an int64 to `optimizer/optimizer.go:41` `pointHash` (a 64 bit unsigned integer). -/
def toHash (m : Micrometer) : BitVec 64 := BitVec.ofInt 64 m

/-- One coordinate of the hash in `optimizer/optimizer.go:43-163` `Optimize`. -/
def cell (meld : BitVec 64) (m : Micrometer) : BitVec 64 := (toHash m + meld / 2) / meld

/-- The hash of a point in `optimizer/optimizer.go:43-163` `Optimize`, for a meld distance other than 0. -/
def hashOf (meld : Micrometer) (p : Vec3) : BitVec 64 :=
  cell (toHash meld) p.x ^^^ (cell (toHash meld) p.y <<< 10) ^^^ (cell (toHash meld) p.z <<< 20)

/-- The hash of a point in `optimizer/optimizer.go:43-163` `Optimize`; Go panics for a division by 0. -/
def pointHash (meld : Micrometer) (p : Vec3) : Res (BitVec 64) :=
  if toHash meld = 0 then .error (.panic "integer divide by zero") else .ok (hashOf meld p)

/-- The local variables of `optimizer/optimizer.go:43-163` `Optimize`: points and faces of the new model, and the map of point indices. -/
structure OptState where
  points : List MPoint := []
  faces : List OptFace := []
  indices : BitVec 64 → List Nat := fun _ => []

/-- The loop over the points with the same hash in `optimizer/optimizer.go:43-163` `Optimize`. -/
def findPoint (meld : Micrometer) (points : List MPoint) (current : Vec3) : List Nat → Res (Option Nat)
  | [] => .ok none
  | i :: is => do
    let p ← index points (i : Int)
    if (p.pos.sub current).shorterThanOrEqual meld then return some i
    findPoint meld points current is

/-- The body of the loop over the points of a face in `optimizer/optimizer.go:43-163` `Optimize`: the index of the point and the changed state. -/
def addPoint (meld : Micrometer) (s : OptState) (current : Vec3) : Res (Nat × OptState) := do
  let hash ← pointHash meld current
  match ← findPoint meld s.points current (s.indices hash) with
  | some i => return (i, s)
  | none => return (s.points.length,
      { s with points := s.points ++ [{ pos := current }],
               indices := fun h => if h = hash then s.indices h ++ [s.points.length] else s.indices h })

/-- The search for a face with the same points in `optimizer/optimizer.go:43-163` `Optimize`. -/
def sameFace (f0 f1 f2 : List Nat) : Bool := f0.any fun i => f1.any fun j => f2.any fun k => i == j && i == k

/-- `om.points[i].faceIndices = append(om.points[i].faceIndices, face)` in `optimizer/optimizer.go:43-163` `Optimize`; `i` is a valid index,
as it was read before. -/
def addFaceIndex (face : Nat) (i : Nat) (points : List MPoint) : List MPoint :=
  points.modify i fun p => { p with faceIndices := p.faceIndices ++ [face] }

/-- The body of `FacesLoop` after the three points are found in `optimizer/optimizer.go:43-163` `Optimize`. -/
def addIndices (s : OptState) (t : Tri Nat) : Res OptState := do
  if t.a = t.b ∨ t.a = t.c ∨ t.b = t.c then return s
  let p0 ← index s.points (t.a : Int)
  let p1 ← index s.points (t.b : Int)
  let p2 ← index s.points (t.c : Int)
  if sameFace p0.faceIndices p1.faceIndices p2.faceIndices then return s
  return { s with points := addFaceIndex s.faces.length t.c (addFaceIndex s.faces.length t.b (addFaceIndex s.faces.length t.a s.points)),
                  faces := s.faces ++ [{ indices := t }] }

/-- The body of `FacesLoop` in `optimizer/optimizer.go:43-163` `Optimize`. -/
def addFace (meld : Micrometer) (s : OptState) (face : Tri Vec3) : Res OptState := do
  let (i0, s) ← addPoint meld s face.a
  let (i1, s) ← addPoint meld s face.b
  let (i2, s) ← addPoint meld s face.c
  addIndices s ⟨i0, i1, i2⟩

/-- `FacesLoop` in `optimizer/optimizer.go:43-163` `Optimize`. -/
def addFaces (meld : Micrometer) : OptState → Mesh → Res OptState
  | s, [] => .ok s
  | s, f :: fs => do addFaces meld (← addFace meld s f) fs

/-- `optimizer/model.go:76-91` `getFaceIdxWithPoints`. -/
def getFaceIdxWithPoints (points : List MPoint) (idx0 idx1 notFaceIdx : Nat) : Res Int := do
  let p0 ← index points (idx0 : Int)
  let p1 ← index points (idx1 : Int)
  match p0.faceIndices.find? (fun f0 => f0 != notFaceIdx && p1.faceIndices.any fun f1 => f1 != notFaceIdx && f0 == f1) with
  | some f => return (f : Int)
  | none => return -1

/-- The body of the loop counting open faces in `optimizer/optimizer.go:43-163` `Optimize`. -/
def touchingFace (points : List MPoint) (i : Nat) (face : OptFace) : Res OptFace := do
  let t0 ← getFaceIdxWithPoints points face.indices.a face.indices.b i
  let t1 ← getFaceIdxWithPoints points face.indices.b face.indices.c i
  let t2 ← getFaceIdxWithPoints points face.indices.c face.indices.a i
  return { face with touching := ⟨t0, t1, t2⟩ }

/-- The loop counting open faces in `optimizer/optimizer.go:43-163` `Optimize`; the number is only logged (`Model/Log.lean`). -/
def touchingFaces (points : List MPoint) : Nat → List OptFace → Res (List OptFace)
  | _, [] => .ok []
  | i, f :: fs => do
    let g ← touchingFace points i f
    let gs ← touchingFaces points (i + 1) fs
    return g :: gs

/-- `vectorOffset` in `optimizer/optimizer.go:43-163` `Optimize`. -/
def vectorOffset (center min max : Vec3) : Vec3 :=
  Vec3.sub ⟨(min.x + max.x).tdiv 2, (min.y + max.y).tdiv 2, min.z⟩ center

/-- `optimizer/optimizer.go:43-163` `Optimize`. -/
def optimize (o : Options) (m : Mesh) : Res OptModel := do
  let s ← addFaces o.slicing.meldDistance {} m
  let faces ← touchingFaces s.points 0 s.faces
  let min ← meshMin m
  let max ← meshMax m
  return { points := s.points.map fun p => { p with pos := p.pos.sub (vectorOffset o.printer.center min max) },
           faces := faces, size := max.sub min }

/-- `optimizer/face.go:14-20` `optimizedFace.Points`. -/
def OptModel.facePoints (om : OptModel) (f : OptFace) : Res (Tri Vec3) := do
  let a ← index om.points (f.indices.a : Int)
  let b ← index om.points (f.indices.b : Int)
  let c ← index om.points (f.indices.c : Int)
  return ⟨a.pos, b.pos, c.pos⟩

end Verif.Model
