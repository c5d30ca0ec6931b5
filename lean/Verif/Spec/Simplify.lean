import Verif.Model.Geom2d

/-! # Specification of path simplification

A path together with a flag for each vertex (kept or removed) is judged vertex by vertex. -/
namespace Verif.Spec
open Verif.Model

def cross (a b : Pt) : Int := a.x * b.y - a.y * b.x

/-- Sum of the cross products along an open chain of points. -/
def chainArea : List Pt → Int
  | a :: b :: l => cross a b + chainArea (b :: l)
  | _ => 0

/-- Twice the signed area of the polygon with the corners `a`, `l`, `b`. -/
def polyArea2 (a : Pt) (l : List Pt) (b : Pt) : Int := chainArea (a :: l ++ [b]) + cross b a

/-- The last kept vertex (or `d` if there is none), and the removed vertices after it. -/
def lastKept (d : Pt) (flags : List (Pt × Bool)) : Pt × List Pt :=
  flags.foldl (fun s q => if q.2 then (q.1, []) else (s.1, s.2 ++ [q.1])) (d, [])

/-- The kept vertices. -/
def kept (flags : List (Pt × Bool)) : List Pt := (flags.filter (·.2)).map (·.1)

/-- Squared distance of two points. -/
def dist2 (a b : Pt) : Int := (a.x - b.x) ^ 2 + (a.y - b.y) ^ 2

/-- The documented criteria for the removal of a vertex `cur` between the last kept vertex `prev` and the following vertex
`next`, when the vertices `chain` between `prev` and `cur` are already removed. The removed area divided by the length of the
shortcut is the height of the removed area. -/
def Removable (smallest allowed : Int) (prev : Pt) (chain : List Pt) (cur next : Pt) : Prop :=
  dist2 next prev = 0 ∨
  (polyArea2 prev (chain ++ [cur]) next ^ 2 / dist2 next prev ≤ 25 ∧ perpendicularDistance2 cur prev next ≤ 25) ∨
  (dist2 cur prev < smallest ∧ dist2 cur next < smallest ∧
    polyArea2 prev (chain ++ [cur]) next ^ 2 / dist2 next prev ≤ allowed)

/-- The vertex after position `i`: the next one of the path; behind the end the first kept one if at least two are kept,
otherwise the first of the path. -/
def nextVertex (path : List Pt) (before : List (Pt × Bool)) : Option Pt :=
  match path[before.length + 1]? with
  | some q => some q
  | none => if 1 < (kept before).length then (kept before).head? else path.head?

end Verif.Spec
