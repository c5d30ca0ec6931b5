import Verif.Spec.GCode
import Verif.Model.Micrometer

/-! # Specification: the moves a sequence of requests must lead to

A request asks the G-code builder for one move. `effect` says which moves the machine has to make for a list of requests; it only uses the
float rounding functions. -/
namespace Verif.Spec
open Verif.Go Verif.Model Verif.Spec.GCode

/-- A requested move: target, amount of filament, speed in mm/s. -/
structure Request where
  target : Vec3
  extrusion : ℚ
  speed : Int
deriving DecidableEq

/-- A number rounded to `k` decimals (nearest, ties to even). -/
def decimals (k : Nat) (x : ℚ) : ℚ := (roundEven (x * 10 ^ k) : ℚ) / 10 ^ k

/-- What is known about the print head: the last requested target, the total filament, the feed rate. -/
structure Head where
  pos : Option Vec3 := none
  total : ℚ := 0
  feed : Option ℚ := none
  e : Option ℚ := none

/-- A request is useless if it asks for the position where the head already is, without extruding. -/
def Head.useless (h : Head) (r : Request) : Bool := decide (h.pos = some r.target ∧ r.extrusion = 0)

/-- Head after a request which is not useless. The total is accumulated in float32. The feed rate stays unknown as long as only the speed 0
was requested. -/
def Head.after (h : Head) (r : Request) : Head :=
  { pos := some r.target
    total := r32 (h.total + r.extrusion)
    feed := if h.feed = none ∧ r.speed = 0 then none else some (60 * r.speed)
    e := if r.extrusion = 0 then h.e else some (decimals 4 (r32 (h.total + r.extrusion))) }

/-- What the machine knows: coordinates in millimetres with two decimals, filament with four decimals. -/
def Head.machine (h : Head) : Machine :=
  { x := h.pos.map fun p => decimals 2 (toMillimeter p.x)
    y := h.pos.map fun p => decimals 2 (toMillimeter p.y)
    z := h.pos.map fun p => decimals 2 (toMillimeter p.z)
    e := h.e
    f := h.feed }

/-- Head and moves after one more request. -/
def effectStep (st : Head × List Move) (r : Request) : Head × List Move :=
  if st.1.useless r then st
  else (st.1.after r, st.2 ++ [⟨decide (r.extrusion ≠ 0), decide (r.extrusion ≠ 0), (st.1.after r).machine⟩])

/-- The head and the moves for a list of requests. -/
def effect (rs : List Request) : Head × List Move := rs.foldl effectStep ({}, [])

/-- The requests that must lead to a move: all which extrude or ask for another position than the previous request (and the first one).
`prev` is the target of the previous request. -/
def emittedFrom : Option Vec3 → List Request → List Request
  | _, [] => []
  | prev, r :: rs => if prev = some r.target ∧ r.extrusion = 0 then emittedFrom (some r.target) rs else r :: emittedFrom (some r.target) rs

/-- The requests that must lead to a move. -/
def emitted (rs : List Request) : List Request := emittedFrom none rs

/-- Float32 running total of the requested filament. -/
def sum32 (rs : List Request) : ℚ := rs.foldl (fun t r => r32 (t + r.extrusion)) 0

end Verif.Spec
