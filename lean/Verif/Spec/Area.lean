import Verif.Spec.Simplify
import Mathlib.Analysis.Real.Sqrt

/-! # Specification: area and perimeter of closed paths -/
namespace Verif.Spec
open Verif.Model

/-- Twice the signed area of a closed path. -/
def area2 : Path → Int
  | [] => 0
  | a :: l => chainArea (a :: l) + cross ((a :: l).getLast (List.cons_ne_nil _ _)) a

/-- The distance of two points. -/
noncomputable def euclid (a b : Pt) : ℝ := Real.sqrt (dist2 a b)

/-- The length of an open path. -/
noncomputable def lengthOf : Path → ℝ
  | a :: b :: l => euclid a b + lengthOf (b :: l)
  | _ => 0

/-- The length of a closed path. -/
noncomputable def perimeter : Path → ℝ
  | [] => 0
  | a :: l => lengthOf (a :: l) + euclid ((a :: l).getLast (List.cons_ne_nil _ _)) a

end Verif.Spec
