import Verif.Model.Micrometer

/-!
# `data/micrometer.go` with pointers

The Go methods work on pointers to `microVec3` / `microPoint`. Here a heap of such objects is explicit, and each method
is the same sequence of `Copy`, getters and setters as in Go.
-/
namespace Verif.Model.Ptr
open Verif.Go Verif.Model

/-- A heap object: a `microVec3` or a `microPoint`. -/
inductive Obj where
  | vec (v : Vec3)
  | pt (p : Pt)
deriving DecidableEq, Repr

/-- The heap; an address is a position. -/
abbrev Heap := List Obj

/-- Coordinates. -/
inductive Axis where
  | x | y | z
deriving DecidableEq, Repr

/-- Getters `X()`, `Y()`, `Z()` (`data/micrometer.go:102-112`, `261-267`). A point has no `Z`; the interfaces make
such a call impossible in Go, in the model it is a panic, as are dangling addresses. -/
def getC (h : Heap) (a : Nat) (c : Axis) : Res Micrometer :=
  match h[a]?, c with
  | some (.vec v), .x => .ok v.x
  | some (.vec v), .y => .ok v.y
  | some (.vec v), .z => .ok v.z
  | some (.pt p), .x => .ok p.x
  | some (.pt p), .y => .ok p.y
  | _, _ => .error (.panic "invalid memory address or nil pointer dereference")

/-- Setters `SetX`, `SetY`, `SetZ` (`data/micrometer.go:114-124`, `269-275`). -/
def setC (h : Heap) (a : Nat) (c : Axis) (value : Micrometer) : Res Heap :=
  match h[a]?, c with
  | some (.vec v), .x => .ok (h.set a (.vec { v with x := value }))
  | some (.vec v), .y => .ok (h.set a (.vec { v with y := value }))
  | some (.vec v), .z => .ok (h.set a (.vec { v with z := value }))
  | some (.pt p), .x => .ok (h.set a (.pt { p with x := value }))
  | some (.pt p), .y => .ok (h.set a (.pt { p with y := value }))
  | _, _ => .error (.panic "invalid memory address or nil pointer dereference")

/-- `Copy` (`data/micrometer.go:187-193` `microVec3.Copy`, `data/micrometer.go:342-346` `microPoint.Copy`): a new object. -/
def copy (h : Heap) (a : Nat) : Res (Nat × Heap) :=
  match h[a]? with
  | some o => .ok (h.length, h ++ [o])
  | none => .error (.panic "invalid memory address or nil pointer dereference")

/-- The statement `result.SetC(f(result.C()))`, e.g. `result.SetX(result.X() + vec.X())`. -/
def update (h : Heap) (r : Nat) (c : Axis) (f : Heap → Micrometer → Res Micrometer) : Res Heap := do
  let old ← getC h r c
  let value ← f h old
  setC h r c value

/-- The common shape of `Add`, `Sub`, `Mul` and `Div`:
copy the receiver, then update each coordinate of the copy. -/
def copyAndUpdate (axes : List Axis) (f : Axis → Heap → Micrometer → Res Micrometer) (h : Heap) (a : Nat) :
    Res (Nat × Heap) := do
  let (r, h) ← copy h a
  let h ← axes.foldlM (fun h c => update h r c (f c)) h
  return (r, h)

/-- The vector operations of `MicroVec3` and `MicroPoint` on addresses. -/
inductive Op where
  /-- `data/micrometer.go:133-139` `microVec3.Add` -/
  | addVec (a b : Nat)
  /-- `data/micrometer.go:141-147` `microVec3.Sub` -/
  | subVec (a b : Nat)
  /-- `data/micrometer.go:149-155` `microVec3.Mul` -/
  | mulVec (a : Nat) (value : Micrometer)
  /-- `data/micrometer.go:157-163` `microVec3.Div` -/
  | divVec (a : Nat) (value : Micrometer)
  /-- `data/micrometer.go:126-131` `PointXY` -/
  | pointXY (a : Nat)
  /-- `data/micrometer.go:277-282` `microPoint.Add` -/
  | addPt (a b : Nat)
  /-- `data/micrometer.go:284-289` `microPoint.Sub` -/
  | subPt (a b : Nat)
  /-- `data/micrometer.go:291-296` `microPoint.Mul` -/
  | mulPt (a : Nat) (value : Micrometer)
  /-- `data/micrometer.go:298-303` `microPoint.Div` -/
  | divPt (a : Nat) (value : Micrometer)
  /-- `Copy` of both types -/
  | copy (a : Nat)
deriving Repr

/-- Execution of one operation: address of the result and the new heap. -/
def Op.run (h : Heap) : Op → Res (Nat × Heap)
  | .addVec a b => copyAndUpdate [.x, .y, .z] (fun c h v => do return v + (← getC h b c)) h a
  | .subVec a b => copyAndUpdate [.x, .y, .z] (fun c h v => do return v - (← getC h b c)) h a
  | .mulVec a value => copyAndUpdate [.x, .y, .z] (fun _ _ v => .ok (v * value)) h a
  | .divVec a value => copyAndUpdate [.x, .y, .z] (fun _ _ v => quo v value) h a
  | .pointXY a => do return (h.length, h ++ [.pt ⟨← getC h a .x, ← getC h a .y⟩])
  | .addPt a b => copyAndUpdate [.x, .y] (fun c h v => do return v + (← getC h b c)) h a
  | .subPt a b => copyAndUpdate [.x, .y] (fun c h v => do return v - (← getC h b c)) h a
  | .mulPt a value => copyAndUpdate [.x, .y] (fun _ _ v => .ok (v * value)) h a
  | .divPt a value => copyAndUpdate [.x, .y] (fun _ _ v => quo v value) h a
  | .copy a => Ptr.copy h a

/-- Execution of a sequence of operations; the results are the new objects at the end of the heap. -/
def runAll (h : Heap) (ops : List Op) : Res Heap :=
  ops.foldlM (fun h op => do return (← op.run h).2) h

end Verif.Model.Ptr
