import Verif.Model.Machine

/-!
# `data/2d.go` Douglas-Peucker with Go's slice memory

Backing arrays are modelled as rows of a memory; a slice is a window with a length and a capacity. Elements are the
points themselves: in Go they are pointers to points, but no point is modified by this code.
The guarantee of the Go run time that `off + cap` is within the backing array is not modelled (rows are infinite).
-/
namespace Verif.Model
open Verif.Go

/-- Memory: `cell a k` is element `k` of backing array `a`; arrays with number `next` and above are not allocated yet. -/
structure Mem where
  next : Nat
  cell : Nat → Nat → Pt

/-- A Go slice header. -/
structure Slice where
  arr : Nat
  off : Nat
  len : Nat
  cap : Nat
deriving DecidableEq, Repr

/-- The elements a slice shows. -/
def Mem.read (m : Mem) (s : Slice) : List Pt := (List.range s.len).map (fun i => m.cell s.arr (s.off + i))

/-- Copy `vs` into array `a` from position `pos` on (`memmove`: the source was read before). -/
def Mem.write (m : Mem) (a pos : Nat) (vs : List Pt) : Mem :=
  { m with cell := fun a' k => if a' = a ∧ pos ≤ k ∧ k < pos + vs.length then vs.getD (k - pos) default else m.cell a' k }

/-- Allocation of a new backing array which starts with `vs`. -/
def Mem.alloc (m : Mem) (vs : List Pt) (cap : Nat) : Mem × Slice :=
  ({ (m.write m.next 0 vs) with next := m.next + 1 }, ⟨m.next, 0, vs.length, cap⟩)

/-- Go's `append(s, vs...)`: in place if the capacity suffices, otherwise into a new array.
`grow n` is the unused extra capacity the run time adds to a new array for `n` elements. -/
def Mem.append (grow : Nat → Nat) (m : Mem) (s : Slice) (vs : List Pt) : Mem × Slice :=
  if s.len + vs.length ≤ s.cap then
    (m.write s.arr (s.off + s.len) vs, { s with len := s.len + vs.length })
  else
    m.alloc (m.read s ++ vs) (s.len + vs.length + grow (s.len + vs.length))

/-- `s[:n]`, panics if `n` exceeds the capacity. -/
def Slice.upTo (s : Slice) (n : Nat) : Res Slice :=
  if n ≤ s.cap then .ok { s with len := n } else .error (.panic "slice bounds out of range")

/-- `s[n:]`, panics if `n` exceeds the length. -/
def Slice.from (s : Slice) (n : Nat) : Res Slice :=
  if n ≤ s.len then .ok { s with off := s.off + n, len := s.len - n, cap := s.cap - n }
  else .error (.panic "slice bounds out of range")

/-- `data/2d.go:33-51` `douglasPeucker` on memory. `fuel = 200 - depth`. -/
def dpMem (grow : Nat → Nat) (ep : Micrometer) : Nat → Mem → Slice → Res (Mem × Slice)
  | 0, m, points => .ok (m, points)
  | fuel + 1, m, points =>
    if points.len ≤ 2 then .ok (m, points)
    else do
      let first := m.cell points.arr points.off
      let last := m.cell points.arr (points.off + (points.len - 1))
      let (idx, maxDist) := seekMostDistantPointM first last (m.read points)
      if maxDist ≥ ep then
        let (m, left) ← dpMem grow ep fuel m (← points.upTo (idx + 1))
        let (m, right) ← dpMem grow ep fuel m (← points.from idx)
        if left.len = 0 then .error (.panic "slice bounds out of range")
        else
          let left' ← left.upTo (left.len - 1)
          .ok (m.append grow left' (m.read right))
      else .ok (m.alloc [first, last] 2)

/-- `data/2d.go:70-76` `DouglasPeucker` on memory. -/
def douglasPeuckerMem (grow : Nat → Nat) (m : Mem) (points : Slice) (epsilon : Micrometer) : Res (Mem × Slice) :=
  dpMem grow (if epsilon = -1 then 70 else epsilon) 200 m points

end Verif.Model
