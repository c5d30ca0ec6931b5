import Verif.Spec.Request

/-! # Specification: which lines are printed by the moves of a machine -/
namespace Verif.Spec
open Verif.Go Verif.Model Verif.Spec.GCode

/-- The machine is at a point (micrometres), printed with two decimals of a millimetre. -/
def At (m : Machine) (p : Pt) (z : Int) : Prop :=
  m.x = some (decimals 2 (toMillimeter p.x)) ∧ m.y = some (decimals 2 (toMillimeter p.y)) ∧ m.z = some (decimals 2 (toMillimeter z))

/-- A line is printed: after some move the machine is at its first point, and the next move extrudes and goes to its last point. -/
def Printed (moves : List Move) (z : Int) (a b : Pt) : Prop :=
  ∃ (k : Nat) (before line : Move), moves[k]? = some before ∧ moves[k + 1]? = some line ∧ At before.after a z ∧
    line.g1 = true ∧ line.hasE = true ∧ At line.after b z

/-- The lines of a path: from each point to the next one; for a closed path also from the last to the first. -/
def pathLines (isOpen : Bool) : Path → List (Pt × Pt)
  | [] => []
  | p :: rest => (p :: rest).zip (rest ++ if isOpen then [] else [p])

example : pathLines false [⟨0, 0⟩, ⟨1, 0⟩, ⟨1, 1⟩] = [(⟨0, 0⟩, ⟨1, 0⟩), (⟨1, 0⟩, ⟨1, 1⟩), (⟨1, 1⟩, ⟨0, 0⟩)] := by decide
example : pathLines true [⟨0, 0⟩, ⟨1, 0⟩, ⟨1, 1⟩] = [(⟨0, 0⟩, ⟨1, 0⟩), (⟨1, 0⟩, ⟨1, 1⟩)] := by decide

end Verif.Spec
