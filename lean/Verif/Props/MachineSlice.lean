import Verif.Model.MachineSlice
import Verif.Props.MachineSimplify

/-! # C52 with int64 arithmetic -/
namespace Verif
open Verif.Go Verif.Model

theorem interpolateM_eq {z a0 z0 a1 z1 : Int} (h1 : |z| < 2 ^ 30) (h2 : |a0| < 2 ^ 30) (h3 : |z0| < 2 ^ 30) (h4 : |a1| < 2 ^ 30)
    (h5 : |z1| < 2 ^ 30) : interpolateM z a0 z0 a1 z1 = interpolate z a0 z0 a1 z1 := by
  have d1 : |a1 - a0| ≤ 2 ^ 31 := by rw [abs_lt] at *; rw [abs_le]; omega
  have d2 : |z - z0| ≤ 2 ^ 31 := by rw [abs_lt] at *; rw [abs_le]; omega
  have d3 : |z1 - z0| ≤ 2 ^ 31 := by rw [abs_lt] at *; rw [abs_le]; omega
  have m := mul_bounds d1 d2
  unfold interpolateM interpolate
  rw [wrap_of_abs d1 (by norm_num), wrap_of_abs d2 (by norm_num), wrap_of_abs d3 (by norm_num),
    wrap_of_lt (n := (a1 - a0) * (z - z0)) (by omega) (by omega)]
  unfold quo
  split
  · rfl
  · rename_i hz
    simp only [bind, Except.bind, pure, Except.pure]
    have hq : |((a1 - a0) * (z - z0)).tdiv (z1 - z0)| ≤ 2 ^ 62 := by
      have := Int.natAbs_tdiv_le_natAbs ((a1 - a0) * (z - z0)) (z1 - z0)
      rw [Int.abs_eq_natAbs]
      omega
    generalize ((a1 - a0) * (z - z0)).tdiv (z1 - z0) = q at *
    rw [abs_le] at hq
    rw [abs_lt] at h2
    rw [wrap_of_lt (n := q) (by omega) (by omega), wrap_of_lt (by omega) (by omega)]

/-- **C52** For coordinates below `2^30` µm (1 km) `SliceFace` is free of overflow. -/
theorem C52_int64 (z : Int) (p0 p1 p2 : Vec3) (hz : |z| < 2 ^ 30)
    (h : ∀ p ∈ [p0, p1, p2], |p.x| < 2 ^ 30 ∧ |p.y| < 2 ^ 30 ∧ |p.z| < 2 ^ 30) : sliceFaceM z p0 p1 p2 = sliceFace z p0 p1 p2 := by
  obtain ⟨a1, a2, a3⟩ := h p0 (by simp)
  obtain ⟨b1, b2, b3⟩ := h p1 (by simp)
  obtain ⟨c1, c2, c3⟩ := h p2 (by simp)
  unfold sliceFaceM sliceFace
  rw [interpolateM_eq hz a1 a3 b1 b3, interpolateM_eq hz a2 a3 b2 b3, interpolateM_eq hz a1 a3 c1 c3, interpolateM_eq hz a2 a3 c2 c3]

/-- **C52** Far outside of this range the point can be anywhere: here half of the way from 0 to 2^33 µm is -2^32 µm. -/
theorem C52_int64_limit :
    interpolateM (2 ^ 30) 0 0 (2 ^ 33) (2 ^ 31) = .ok (-2 ^ 32) ∧ interpolate (2 ^ 30) 0 0 (2 ^ 33) (2 ^ 31) = .ok (2 ^ 32) := by
  decide +kernel

example : sliceFaceM 500 ⟨0, 0, 0⟩ ⟨1000, 0, 1000⟩ ⟨0, 1000, 1000⟩ = .ok (⟨500, 0⟩, ⟨0, 500⟩) := by decide +kernel

end Verif
