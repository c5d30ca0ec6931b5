import Verif.Spec.Mesh

/-! # The grid of the optimizer -/
namespace Verif.Spec
open Verif.Model

/-- Two coordinates are in the same cell of a grid with the distance `d`. Its cells are centred at the multiples of `d`; below the cell of 0 the grid is shifted, as it is counted from -2^64. -/
def SameSlot (d a b : Int) : Prop :=
  (0 ≤ a + d / 2 ∧ 0 ≤ b + d / 2 ∧ ∃ k : Int, k * d ≤ a + d / 2 ∧ a + d / 2 < (k + 1) * d ∧ k * d ≤ b + d / 2 ∧ b + d / 2 < (k + 1) * d) ∨
  (a + d / 2 < 0 ∧ b + d / 2 < 0 ∧ ∃ k : Int, k * d ≤ 2 ^ 64 + a + d / 2 ∧ 2 ^ 64 + a + d / 2 < (k + 1) * d ∧ k * d ≤ 2 ^ 64 + b + d / 2 ∧ 2 ^ 64 + b + d / 2 < (k + 1) * d)

/-- Two points are in the same cell of the grid. -/
def SameCell (d : Int) (p q : Vec3) : Prop := SameSlot d p.x q.x ∧ SameSlot d p.y q.y ∧ SameSlot d p.z q.z

end Verif.Spec
