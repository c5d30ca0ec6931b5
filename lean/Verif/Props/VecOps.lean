import Verif.Model.Micrometer
import Verif.Props.MachineSimplify
import Mathlib.Tactic.Ring
import Mathlib.Tactic.Linarith

/-! # C153: the arithmetic of points and vectors -/
namespace Verif
open Verif.Go Verif.Model

/-- **C153** The largest coordinate. -/
theorem C153_max (v : Vec3) : (v.max = v.x ∨ v.max = v.y ∨ v.max = v.z) ∧ v.x ≤ v.max ∧ v.y ≤ v.max ∧ v.z ≤ v.max := by
  unfold Vec3.max
  split
  · omega
  · split <;> omega

/-- **C153** The larger and the smaller of two lengths. -/
theorem C153_two (a b : Micrometer) : maxM a b = max a b ∧ minM a b = min a b := by
  unfold maxM minM
  constructor <;> split <;> omega

/-- **C153** What is added can be subtracted. -/
theorem C153_back (p q : Pt) (v w : Vec3) : (p.add q).sub q = p ∧ (v.add w).sub w = v := by
  obtain ⟨px, py⟩ := p
  obtain ⟨vx, vy, vz⟩ := v
  constructor
  · unfold Pt.add Pt.sub
    simp
  · unfold Vec3.add Vec3.sub
    simp

/-- **C153** This also holds for each coordinate if the sum leaves the range of 64 bits. -/
theorem C153_back_int64 (a b : Int) (h1 : -2 ^ 63 ≤ a) (h2 : a < 2 ^ 63) : wrap (wrap (a + b) - b) = a := by
  rw [sub_eq_add_neg, wrap_add_wrap, add_neg_cancel_right, wrap_of_lt h1 h2]

theorem tdiv_mul_near (x a : Int) (h : a ≠ 0) : |x.tdiv a * a| ≤ |x| ∧ |x - x.tdiv a * a| < |a| := by
  have h1 := Int.mul_tdiv_add_tmod x a
  have h2 : (x.tmod a).natAbs = x.natAbs % a.natAbs := Int.natAbs_tmod x a
  have h3 : (x.tdiv a).natAbs = x.natAbs / a.natAbs := Int.natAbs_tdiv x a
  have h4 : x - x.tdiv a * a = x.tmod a := by rw [mul_comm]; omega
  constructor
  · rw [Int.abs_eq_natAbs, Int.abs_eq_natAbs, Int.natAbs_mul, h3]
    exact_mod_cast Nat.div_mul_le_self _ _
  · rw [h4, Int.abs_eq_natAbs, Int.abs_eq_natAbs, h2]
    exact_mod_cast Nat.mod_lt _ (Int.natAbs_pos.2 h)

/-- **C153** Division by 0 panics; any other division gives in each coordinate the nearest multiple towards 0. -/
theorem C153_div (p : Pt) (v : Vec3) (a : Micrometer) :
    (a = 0 → (∃ m, p.div a = .error (.panic m)) ∧ ∃ m, v.div a = .error (.panic m)) ∧
    (a ≠ 0 → (∃ q, p.div a = .ok q ∧ (|q.x * a| ≤ |p.x| ∧ |p.x - q.x * a| < |a|) ∧ |q.y * a| ≤ |p.y| ∧ |p.y - q.y * a| < |a|) ∧
      ∃ w, v.div a = .ok w ∧ (|w.x * a| ≤ |v.x| ∧ |v.x - w.x * a| < |a|) ∧ (|w.y * a| ≤ |v.y| ∧ |v.y - w.y * a| < |a|) ∧ |w.z * a| ≤ |v.z| ∧ |v.z - w.z * a| < |a|) := by
  unfold Pt.div Vec3.div
  constructor
  · intro h
    rw [if_pos h, if_pos h]
    exact ⟨⟨_, rfl⟩, _, rfl⟩
  · intro h
    rw [if_neg h, if_neg h]
    exact ⟨⟨_, rfl, tdiv_mul_near _ _ h, tdiv_mul_near _ _ h⟩, _, rfl, tdiv_mul_near _ _ h, tdiv_mul_near _ _ h, tdiv_mul_near _ _ h⟩

/-- **C153** What is multiplied can be divided, except by 0. -/
theorem C153_mul_div (p : Pt) (v : Vec3) {a : Micrometer} (h : a ≠ 0) : (p.mul a).div a = .ok p ∧ (v.mul a).div a = .ok v := by
  unfold Pt.mul Pt.div Vec3.mul Vec3.div
  rw [if_neg h, if_neg h]
  simp only [Int.mul_tdiv_cancel _ h, and_self]

/-- Non-vacuity: a value below 0 is rounded up. -/
example : (⟨-7, 8⟩ : Pt).div 3 = .ok ⟨-2, 2⟩ ∧ (⟨-7, -3, -5⟩ : Vec3).max = -3 := by decide

end Verif
