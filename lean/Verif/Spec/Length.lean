import Mathlib.Analysis.Real.Sqrt

/-! # Specification: lengths -/
namespace Verif.Spec

/-- Euclidean length of a planar vector. -/
noncomputable def euclid2 (x y : Int) : ℝ := Real.sqrt ((x : ℝ) ^ 2 + (y : ℝ) ^ 2)
/-- Euclidean length of a vector in space. -/
noncomputable def euclid3 (x y z : Int) : ℝ := Real.sqrt ((x : ℝ) ^ 2 + (y : ℝ) ^ 2 + (z : ℝ) ^ 2)

end Verif.Spec
