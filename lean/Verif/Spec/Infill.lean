import Mathlib.Analysis.Real.Sqrt
import Verif.Model.Clip

/-! # Specification of the order of infill lines -/
namespace Verif.Spec
open Verif.Model

/-- A line with its two ends. -/
abbrev Segment := Pt × Pt

/-- The end of a line at which it would be entered or left: the first one for even `k`, the second one for odd `k`. -/
def side (k : Nat) (l : Segment) : Pt := if k % 2 = 0 then l.1 else l.2

/-- The line number `k` of a route: every second line is turned around. -/
def turned (k : Nat) (l : Segment) : Segment := if k % 2 = 0 then l else (l.2, l.1)

/-- The lines with the given indices, every second one turned around. -/
def route (lines : List Segment) (order : List Nat) : List Segment :=
  order.zipIdx.map fun (i, k) => turned k (lines.getD i default)

/-- Distance of two points. -/
noncomputable def distance (a b : Pt) : ℝ := Real.sqrt (((a.x - b.x : Int) : ℝ) ^ 2 + ((a.y - b.y : Int) : ℝ) ^ 2)

/-- The connection drawn from the end of a line to the start of the next one: it is drawn if `connect` (zig zag is on), the gap is at most
`limit` and the connection does not cross a perimeter. -/
def link (connect : Bool) (limit : Int) (crosses : Path → Bool) (a b : Segment) : Paths :=
  if connect ∧ 0 ≤ limit ∧ (a.2.x - b.1.x) ^ 2 + (a.2.y - b.1.y) ^ 2 ≤ limit ^ 2 ∧ crosses [a.2, b.1] = false then [[a.2, b.1]] else []

/-- The lines of a route with their connections. -/
def weave (link : Segment → Segment → Paths) : List Segment → Paths
  | [] => []
  | [a] => [[a.1, a.2]]
  | a :: b :: rest => [a.1, a.2] :: (link a b ++ weave link (b :: rest))

/-- `order` uses each of the indices below `n` exactly once. -/
def UsesAll (n : Nat) (order : List Nat) : Prop := List.Perm order (List.range n)

/-- In each step the next line is one of those with the smallest distance in whole micrometres, between the sides number `k`. -/
def Greedy (lines : List Segment) (order : List Nat) : Prop :=
  ∀ k i next, order[k]? = some i → order[k + 1]? = some next →
    ∀ j, j < lines.length → j ∉ order.take (k + 1) →
      ⌊distance (side k (lines.getD i default)) (side k (lines.getD next default))⌋ ≤
        ⌊distance (side k (lines.getD i default)) (side k (lines.getD j default))⌋

end Verif.Spec
