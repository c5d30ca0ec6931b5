import Verif.Spec.Deep

/-! # Specification: ways through the plane of a layer -/
namespace Verif.Spec
open Verif.Go Verif.Model Verif.Spec.GCode

/-- A way of straight pieces through the given points leads from `x` to `y`. -/
def WayFrom (x y : ℚ × ℚ) (way : List (ℚ × ℚ)) : Prop := way.head? = some x ∧ way.getLast? = some y

/-- The point `z` is on a piece of the way. -/
def OnWay (way : List (ℚ × ℚ)) (z : ℚ × ℚ) : Prop := ∃ s ∈ way.zip way.tail, OnSegment s.1 s.2 z

example : WayFrom (0, 0) (2, 2) [(0, 0), (2, 0), (2, 2)] ∧ OnWay [(0, 0), (2, 0), (2, 2)] (1, 0) :=
  ⟨⟨rfl, rfl⟩, ((0, 0), (2, 0)), by simp, 1 / 2, by norm_num, by norm_num, by simp [lineAt]⟩

end Verif.Spec
