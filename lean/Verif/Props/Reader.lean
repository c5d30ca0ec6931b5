import Verif.Props.Units
import Verif.Model.Process
import Verif.Spec.Mesh

/-! # C89: reading models -/
namespace Verif
open Verif.Go Verif.Model Verif.Spec

/-- **C89** A coordinate is read with an error of at most half a micrometre, plus the rounding error of one float32 operation. -/
theorem C89_accuracy (v : ℚ) : |(toMicrometer v : ℚ) - 1000 * v| ≤ 1 / 2 + |1000 * v| / 2 ^ 24 := by
  unfold toMicrometer
  rw [mul_comm v]
  set x := 1000 * v
  rcases le_or_gt (1 / 4) |x| with h | h
  · have h1 := r32_rel' (x := x) (e := 1 / 4) (by norm_num) h
    have h2 := roundEven_abs_sub_le (r32 x)
    have h3 := abs_add_le ((roundEven (r32 x) : ℚ) - r32 x) (r32 x - x)
    rw [show ((roundEven (r32 x) : ℚ) - r32 x) + (r32 x - x) = roundEven (r32 x) - x by ring] at h3
    linarith
  · have hq : r32 (1 / 4 : ℚ) = 1 / 4 := by decide +kernel
    have hx := abs_lt.1 h
    have h1 : r32 x ≤ 1 / 4 := hq ▸ r32_mono hx.2.le
    have h2 : -(1 / 4) ≤ r32 x := by
      have := r32_mono hx.1.le
      rw [r32_neg, hq] at this
      exact this
    have h0 : roundEven (r32 x) = 0 := roundEven_eq_of_lt (by rw [abs_lt]; push_cast; constructor <;> linarith)
    rw [h0]
    have : (0 : ℚ) ≤ |x| / 2 ^ 24 := by positivity
    rw [Int.cast_zero, zero_sub, abs_neg]
    linarith

/-- **C89** The order of coordinates is kept. -/
theorem C89_order (v w : ℚ) (h : v ≤ w) : toMicrometer v ≤ toMicrometer w :=
  roundEven_mono (r32_mono (by linarith))

/-- **C89** Coordinates with three decimals are read exactly, up to 4.19 m: `r32 (n / 1000)` is the float32 value in the file. -/
theorem C89_exact (n : Int) (hn : |n| < 2 ^ 22) : toMicrometer (r32 ((n : ℚ) / 1000)) = n := by
  rcases eq_or_ne n 0 with h0 | h0
  · subst h0; simp [toMicrometer]
  have hmq : |(n : ℚ)| ≤ 2 ^ 22 - 1 := by
    have : |n| ≤ 2 ^ 22 - 1 := by omega
    have : ((|n| : Int) : ℚ) ≤ ((2 ^ 22 - 1 : Int) : ℚ) := by exact_mod_cast this
    push_cast at this; linarith
  have h1 : (1 : ℚ) ≤ |(n : ℚ)| := by
    have : (1 : Int) ≤ |n| := Int.one_le_abs h0
    exact_mod_cast this
  have ha : |(n : ℚ) / 1000| = |(n : ℚ)| / 1000 := by rw [abs_div]; norm_num
  have e1 := r32_rel' (x := (n : ℚ) / 1000) (e := 1 / 1000) (by norm_num) (by rw [ha]; linarith)
  rw [ha] at e1
  set a := r32 ((n : ℚ) / 1000)
  unfold toMicrometer
  apply roundEven_eq_of_lt
  have e1' : |a * 1000 - n| ≤ |(n : ℚ)| / 2 ^ 24 := by
    rw [show a * 1000 - (n : ℚ) = 1000 * (a - n / 1000) by ring, abs_mul, abs_of_pos (by norm_num : (0 : ℚ) < 1000)]
    linarith
  have hb : |a * 1000| ≤ |(n : ℚ)| * (1 + 1 / 2 ^ 24) := by
    have := abs_sub_abs_le_abs_sub (a * 1000) (n : ℚ)
    linarith
  have hb' : |(n : ℚ)| * (1 - 1 / 2 ^ 24) ≤ |a * 1000| := by
    have := abs_sub_abs_le_abs_sub (n : ℚ) (a * 1000)
    rw [abs_sub_comm] at this; linarith
  have e2 := r32_rel' (x := a * 1000) (e := 1 / 2) (by norm_num) (by
    refine le_trans ?_ hb'; norm_num; linarith)
  have := abs_add_le (r32 (a * 1000) - a * 1000) (a * 1000 - n)
  rw [show r32 (a * 1000) - a * 1000 + (a * 1000 - n) = r32 (a * 1000) - n by ring] at this
  norm_num at *
  linarith

/-- **C89** Reading an existing file gives all triangles which the package delivers, in this order, with each coordinate of each corner converted; nothing is changed. -/
theorem C89_mesh (stl : Str → List StlTriangle) (path content : Str) (w : World) (h : w.files path = some content) :
    ∃ m, readModel stl path w = (w, .ok m) ∧ List.Forall₂ (fun (t : StlTriangle) (f : Tri Vec3) =>
      List.Forall₂ (fun c p => p.x = toMicrometer c.1 ∧ p.y = toMicrometer c.2.1 ∧ p.z = toMicrometer c.2.2) t.corners f.corners) (stl content) m := by
  refine ⟨(stl content).map stlTriangleToFace, by simp only [readModel, h], ?_⟩
  generalize stl content = ts
  induction ts with
  | nil => exact .nil
  | cons t ts ih =>
    refine .cons ?_ ih
    exact .cons ⟨rfl, rfl, rfl⟩ (.cons ⟨rfl, rfl, rfl⟩ (.cons ⟨rfl, rfl, rfl⟩ .nil))

example : |(toMicrometer (123456 / 7) : ℚ) - 1000 * (123456 / 7)| ≤ 1 / 2 + |1000 * (123456 / 7)| / 2 ^ 24 := C89_accuracy _
example : toMicrometer (r32 (((12345 : Int) : ℚ) / 1000)) = 12345 := C89_exact 12345 (by norm_num)
example : toMicrometer (1 / 10) ≤ toMicrometer (2 / 10) := C89_order _ _ (by norm_num)
/-- A file with one triangle. -/
example : ∃ w : World, w.files [] = some [] ∧ (readModel (fun _ => [⟨(0, 0, 0), (1, 0, 0), (0, 1, 3 / 2)⟩]) [] w).2 = .ok [⟨⟨0, 0, 0⟩, ⟨1000, 0, 0⟩, ⟨0, 1000, 1500⟩⟩] :=
  ⟨{ files := fun _ => some [], space := 0 }, rfl, by decide +kernel⟩

end Verif
