import Mathlib.Data.Nat.Prime.Basic
import Mathlib.Data.Nat.Factorization.PrimePow
import Mathlib.Tactic.FieldSimp
import Mathlib.Tactic.Positivity
import Verif.Model.Patterns
import Verif.Props.Infill

/-! # Properties of the infill patterns (C80, C81) -/
namespace Verif
open Verif.Go Verif.Model Verif.Spec

/-! ## C80: the distance of infill lines -/

theorem mm10_eq : toMicrometer 10 = 10000 := by decide +kernel

/-- Rounded quotient, for the divisors of 10^6. -/
theorem quotient_divisor (N : Nat) (h : N ∣ 1000000) :
    ⌊r64 (10000 / r64 ((N : ℚ) / 100))⌋ = ((1000000 / N : Nat) : Int) := by
  have h' : N ∣ 2 ^ 6 * 5 ^ 6 := by simpa using h
  obtain ⟨⟨⟨y, hy⟩, ⟨z, hz⟩⟩, rfl⟩ := (Nat.dvd_mul (k := N)).1 h' |> fun ⟨a, b, ha, hb, hab⟩ =>
    (⟨⟨⟨a, ha⟩, ⟨b, hb⟩⟩, hab⟩ : ∃ q : {a // a ∣ 2 ^ 6} × {b // b ∣ 5 ^ 6}, q.1.1 * q.2.1 = N)
  obtain ⟨a, ha, rfl⟩ := (Nat.dvd_prime_pow Nat.prime_two).1 hy
  obtain ⟨b, hb, rfl⟩ := (Nat.dvd_prime_pow Nat.prime_five).1 hz
  have key : ∀ a : Fin 7, ∀ b : Fin 7, ⌊r64 (10000 / r64 (((2 ^ a.1 * 5 ^ b.1 : Nat) : ℚ) / 100))⌋ =
      ((1000000 / (2 ^ a.1 * 5 ^ b.1) : Nat) : Int) := by decide +kernel
  exact key ⟨a, by omega⟩ ⟨b, by omega⟩

theorem quotient_eq (N : Nat) (h0 : 0 < N) (h1 : N ≤ 1000000) :
    ⌊r64 (10000 / r64 ((N : ℚ) / 100))⌋ = ((1000000 / N : Nat) : Int) := by
  by_cases hd : N ∣ 1000000
  · exact quotient_divisor N hd
  have hN : (0 : ℚ) < N := by exact_mod_cast h0
  have hN1 : (1 : ℚ) ≤ N := by exact_mod_cast h0
  have hN' : (N : ℚ) ≤ 1000000 := by exact_mod_cast h1
  set x : ℚ := (N : ℚ) / 100 with hx
  have hx0 : 0 < x := by positivity
  have hxlow : (1 : ℚ) / 100 ≤ x := by rw [hx]; linarith
  set q := r64 x with hq
  have hqerr : |q - x| ≤ x / 2 ^ 53 := by
    have := r64_rel' (x := x) (e := 1 / 100) (by norm_num) (by rw [abs_of_pos hx0]; exact hxlow)
    rwa [abs_of_pos hx0] at this
  rw [abs_le] at hqerr
  have hqlow : x * (1 - 1 / 2 ^ 53) ≤ q := by linarith [hqerr.1]
  have hqhigh : q ≤ x * (1 + 1 / 2 ^ 53) := by linarith [hqerr.2]
  have hq0 : 0 < q := lt_of_lt_of_le (by positivity) hqlow
  set t : ℚ := 1000000 / N with ht
  have htx : t = 10000 / x := by rw [ht, hx]; field_simp; norm_num
  have ht0 : 0 < t := by positivity
  have hdl : t * (1 - 1 / 2 ^ 52) ≤ 10000 / q := by
    rw [le_div_iff₀ hq0, htx]
    have : 10000 / x * (1 - 1 / 2 ^ 52) * q ≤ 10000 / x * (1 - 1 / 2 ^ 52) * (x * (1 + 1 / 2 ^ 53)) :=
      mul_le_mul_of_nonneg_left hqhigh (by positivity)
    refine this.trans ?_
    have e : 10000 / x * (1 - 1 / 2 ^ 52) * (x * (1 + 1 / 2 ^ 53)) = 10000 * ((1 - 1 / 2 ^ 52) * (1 + 1 / 2 ^ 53)) := by
      field_simp
    rw [e]
    norm_num
  have hdh : 10000 / q ≤ t * (1 + 1 / 2 ^ 52) := by
    rw [div_le_iff₀ hq0, htx]
    have : 10000 / x * (1 + 1 / 2 ^ 52) * (x * (1 - 1 / 2 ^ 53)) ≤ 10000 / x * (1 + 1 / 2 ^ 52) * q :=
      mul_le_mul_of_nonneg_left hqlow (by positivity)
    refine le_trans ?_ this
    have e : 10000 / x * (1 + 1 / 2 ^ 52) * (x * (1 - 1 / 2 ^ 53)) = 10000 * ((1 + 1 / 2 ^ 52) * (1 - 1 / 2 ^ 53)) := by
      field_simp
    rw [e]
    norm_num
  have ht1 : 1 ≤ t := by rw [ht, le_div_iff₀ hN]; linarith
  have hdpos : 0 < 10000 / q := by positivity
  have hdlow : (1 : ℚ) / 2 ≤ 10000 / q := by
    refine le_trans ?_ hdl
    have : (1 : ℚ) * (1 - 1 / 2 ^ 52) ≤ t * (1 - 1 / 2 ^ 52) := mul_le_mul_of_nonneg_right ht1 (by norm_num)
    refine le_trans ?_ this
    norm_num
  have hverr : |r64 (10000 / q) - 10000 / q| ≤ (10000 / q) / 2 ^ 53 := by
    have := r64_rel' (x := 10000 / q) (e := 1 / 2) (by norm_num) (by rw [abs_of_pos hdpos]; exact hdlow)
    rwa [abs_of_pos hdpos] at this
  rw [abs_le] at hverr
  set v := r64 (10000 / q) with hv
  have hvl : t * (1 - 1 / 2 ^ 50) ≤ v := by
    have : 10000 / q * (1 - 1 / 2 ^ 53) ≤ v := by linarith [hverr.1]
    refine le_trans ?_ this
    have : t * (1 - 1 / 2 ^ 52) * (1 - 1 / 2 ^ 53) ≤ 10000 / q * (1 - 1 / 2 ^ 53) := mul_le_mul_of_nonneg_right hdl (by norm_num)
    refine le_trans ?_ this
    rw [mul_assoc]
    exact mul_le_mul_of_nonneg_left (by norm_num) (by positivity)
  have hvh : v ≤ t * (1 + 1 / 2 ^ 50) := by
    have : v ≤ 10000 / q * (1 + 1 / 2 ^ 53) := by linarith [hverr.2]
    refine this.trans ?_
    have : 10000 / q * (1 + 1 / 2 ^ 53) ≤ t * (1 + 1 / 2 ^ 52) * (1 + 1 / 2 ^ 53) := mul_le_mul_of_nonneg_right hdh (by norm_num)
    refine this.trans ?_
    rw [mul_assoc]
    exact mul_le_mul_of_nonneg_left (by norm_num) (by positivity)
  -- `t` is at least `1/N` away from all integers
  set m := 1000000 / N with hm
  have hmod : 0 < 1000000 % N := Nat.pos_of_ne_zero fun h => hd (Nat.dvd_of_mod_eq_zero h)
  have hdm : N * m + 1000000 % N = 1000000 := Nat.div_add_mod 1000000 N
  have hml : N * m + 1 ≤ 1000000 := by omega
  have hmh : 1000000 + 1 ≤ N * m + N := by have := Nat.mod_lt 1000000 h0; omega
  have hml' : (N : ℚ) * m + 1 ≤ 1000000 := by exact_mod_cast hml
  have hmh' : (1000000 : ℚ) + 1 ≤ N * m + N := by exact_mod_cast hmh
  have htN : t * N = 1000000 := by rw [ht]; field_simp
  rw [Int.floor_eq_iff]
  constructor
  · show ((m : Int) : ℚ) ≤ v
    refine le_trans ?_ hvl
    have : ((m : Int) : ℚ) * N ≤ t * (1 - 1 / 2 ^ 50) * N := by
      have e : t * (1 - 1 / 2 ^ 50) * N = (t * N) * (1 - 1 / 2 ^ 50) := by ring
      rw [e, htN]
      push_cast
      have : (1000000 : ℚ) * (1 - 1 / 2 ^ 50) ≥ 1000000 - 1 := by norm_num
      linarith
    exact le_of_mul_le_mul_right this hN
  · show v < ((m : Int) : ℚ) + 1
    refine lt_of_le_of_lt hvh ?_
    have : t * (1 + 1 / 2 ^ 50) * N < (((m : Int) : ℚ) + 1) * N := by
      have e : t * (1 + 1 / 2 ^ 50) * N = (t * N) * (1 + 1 / 2 ^ 50) := by ring
      rw [e, htN]
      push_cast
      have : (1000000 : ℚ) * (1 + 1 / 2 ^ 50) < 1000000 + 1 := by norm_num
      linarith
    exact lt_of_mul_lt_mul_right this hN.le

/-- C80: for widths up to 10 mm and 1 to 100 percent the line distance is exactly `10^6 / (lines * percent)`, rounded down, where
`lines` is the whole number of lines on 10 mm. -/
theorem C80_distance (width percent : Nat) (hw : 0 < width) (hw' : width ≤ 10000) (hp : 0 < percent) (hp' : percent ≤ 100) :
    infillDistance width percent = .ok ((1000000 / (10000 / width * percent) : Nat) : Int) := by
  have hn : 0 < 10000 / width := Nat.div_pos hw' hw
  have hn' : 10000 / width ≤ 10000 := Nat.div_le_self _ _
  set n := 10000 / width with hnd
  have hN : 0 < n * percent := Nat.mul_pos hn hp
  have hN' : n * percent ≤ 1000000 := le_trans (Nat.mul_le_mul hn' hp') (by norm_num)
  have hq : quo 10000 (width : Int) = .ok ((n : Nat) : Int) := by
    unfold quo
    rw [if_neg (by omega), Int.tdiv_eq_ediv_of_nonneg (by norm_num)]
    norm_cast
  have e1 : r64 (((n : Nat) : Int) : ℚ) = (n : ℚ) := by
    rw [r64_intCast]
    · simp
    · rw [abs_of_nonneg (by positivity)]; norm_num; omega
  have e2 : r64 (((percent : Nat) : Int) : ℚ) = (percent : ℚ) := by
    rw [r64_intCast]
    · simp
    · rw [abs_of_nonneg (by positivity)]; norm_num; omega
  have e3 : r64 ((n : ℚ) * (percent : ℚ)) = ((n * percent : Nat) : ℚ) := by
    have : ((n : ℚ) * (percent : ℚ)) = (((n * percent : Nat) : Int) : ℚ) := by push_cast; ring
    rw [this, r64_intCast]
    · push_cast; ring
    · rw [abs_of_nonneg (by positivity)]; norm_num; exact_mod_cast le_trans hN' (by norm_num)
  have e4 : r64 ((10000 : Int) : ℚ) = 10000 := by rw [r64_intCast (by norm_num)]; norm_num
  have hpos : 0 < r64 (((n * percent : Nat) : ℚ) / 100) := by
    have h1 : (1 : ℚ) ≤ ((n * percent : Nat) : ℚ) := by exact_mod_cast hN
    have h2 : (1 : ℚ) / 100 ≤ ((n * percent : Nat) : ℚ) / 100 := by linarith
    have h3 := r64_mono h2
    have h4 : (0 : ℚ) < r64 ((1 : ℚ) / 100) := by decide +kernel
    linarith
  unfold infillDistance
  rw [mm10_eq]
  simp only []
  rw [hq]
  simp only [bind, Except.bind]
  rw [e1, e2, e3, e4, if_neg (ne_of_gt hpos)]
  show Except.ok _ = _
  congr 1
  unfold truncZ
  rw [if_pos (r64_nonneg (by positivity))]
  exact quotient_eq (n * percent) hN hN'

/-- C80: the lines are never closer than solid lines: the distance is at least the width. -/
theorem C80_not_denser (width percent : Nat) (hw : 0 < width) (hw' : width ≤ 10000) (hp : 0 < percent) (hp' : percent ≤ 100) :
    ∃ d : Nat, infillDistance width percent = .ok (d : Int) ∧ width ≤ d := by
  refine ⟨_, C80_distance width percent hw hw' hp hp', ?_⟩
  have hn : 0 < 10000 / width := Nat.div_pos hw' hw
  rw [Nat.le_div_iff_mul_le (Nat.mul_pos hn hp)]
  have h1 : width * (10000 / width) ≤ 10000 := Nat.mul_div_le _ _
  calc width * (10000 / width * percent) = (width * (10000 / width)) * percent := by ring
    _ ≤ 10000 * 100 := Nat.mul_le_mul h1 hp'
    _ = 1000000 := by norm_num

/-- C80: the density of the infill is the requested one up to the rounding to whole lines on 10 mm and whole micrometres: for the ideal distance
`100 * width / percent`, the distance lies between the ideal one minus 1 and the ideal one times `10000 / (10000 - width)`. -/
theorem C80_density (width percent : Nat) (hw : 0 < width) (hw' : width < 10000) (hp : 0 < percent) (hp' : percent ≤ 100) :
    ∃ d : Nat, infillDistance width percent = .ok (d : Int) ∧
      (100 * width : ℚ) / percent - 1 < d ∧ (d : ℚ) ≤ (100 * width : ℚ) / percent * (10000 / (10000 - width)) := by
  refine ⟨_, C80_distance width percent hw hw'.le hp hp', ?_, ?_⟩
  all_goals
    have hn : 0 < 10000 / width := Nat.div_pos hw'.le hw
    set n := 10000 / width with hnd
    have hN : 0 < n * percent := Nat.mul_pos hn hp
    set d := 1000000 / (n * percent) with hd
    have h1 : width * n ≤ 10000 := Nat.mul_div_le _ _
    have h2 : 10000 < width * n + width := by
      have := Nat.div_add_mod 10000 width
      have := Nat.mod_lt 10000 hw
      rw [← hnd] at *
      omega
    have h3 : n * percent * d ≤ 1000000 := Nat.mul_div_le _ _
    have h4 : 1000000 < n * percent * d + n * percent := by
      have := Nat.div_add_mod 1000000 (n * percent)
      have := Nat.mod_lt 1000000 hN
      rw [← hd] at *
      omega
    have hpq : (0 : ℚ) < percent := by exact_mod_cast hp
    have hnq : (0 : ℚ) < n := by exact_mod_cast hn
    have h1q : (width : ℚ) * n ≤ 10000 := by exact_mod_cast h1
    have h2q : (10000 : ℚ) < width * n + width := by exact_mod_cast h2
    have h3q : (n : ℚ) * percent * d ≤ 1000000 := by exact_mod_cast h3
    have h4q : (1000000 : ℚ) < n * percent * d + n * percent := by exact_mod_cast h4
    have hwq : (0 : ℚ) < width := by exact_mod_cast hw
  · rw [sub_lt_iff_lt_add, div_lt_iff₀ hpq]
    have h5 : (100 * width : ℚ) * n < (d + 1) * percent * n := by nlinarith
    exact lt_of_mul_lt_mul_right h5 hnq.le
  · have hw'q : (0 : ℚ) < 10000 - width := by
      have : (width : ℚ) < 10000 := by exact_mod_cast hw'
      linarith
    rw [div_mul_div_comm, le_div_iff₀ (mul_pos hpq hw'q)]
    have h6 : (10000 - width : ℚ) ≤ width * n := by linarith
    have h7 : (d : ℚ) * percent * (10000 - width) ≤ d * percent * (width * n) := mul_le_mul_of_nonneg_left h6 (by positivity)
    have h8 : (d : ℚ) * percent * (width * n) ≤ 1000000 * width := by nlinarith
    linarith

/-- C80, violation: for line widths above 10 mm the distance is negative (on amd64), and the generation of lines does not end for any box which is
not empty. -/
theorem C80_wide (width percent : Int) (hw : 10000 < width) (min max : Pt) (h : min.x ≤ max.x) :
    ∃ d, infillDistance width percent = .ok d ∧ Linear.scanLines d min max = none := by
  refine ⟨minMicrometer, ?_, C43_endless _ _ _ (by decide) h _⟩
  unfold infillDistance
  rw [mm10_eq]
  have hq : quo 10000 width = .ok 0 := by
    unfold quo
    rw [if_neg (by omega), Int.tdiv_eq_ediv_of_nonneg (by norm_num), Int.ediv_eq_zero_of_lt (by norm_num) hw]
  simp only []
  rw [hq]
  simp [bind, Except.bind, pure, Except.pure]

/-- C80, violation: a negative percentage is not rejected; the generation of lines does not end. -/
theorem C80_negative (width percent : Int) (hw : 0 < width) (hp : percent < 0) (min max : Pt) (h : min.x ≤ max.x) :
    ∃ d, infillDistance width percent = .ok d ∧ Linear.scanLines d min max = none := by
  suffices hs : ∃ d, infillDistance width percent = .ok d ∧ d ≤ 0 by
    obtain ⟨d, h1, h2⟩ := hs
    exact ⟨d, h1, C43_endless _ _ _ h2 h _⟩
  unfold infillDistance
  rw [mm10_eq]
  have hq : quo 10000 width = .ok ((10000 : Int) / width) := by
    unfold quo
    rw [if_neg (by omega), Int.tdiv_eq_ediv_of_nonneg (by norm_num)]
  simp only []
  rw [hq]
  simp only [bind, Except.bind]
  set l := r64 (r64 (r64 (((10000 : Int) / width : Int) : ℚ) * r64 (percent : ℚ)) / 100) with hl
  have hnonpos : ∀ {x : ℚ}, x ≤ 0 → r64 x ≤ 0 := fun {x} hx => by have := r64_mono hx; rwa [r64_zero] at this
  have hl0 : l ≤ 0 := by
    apply hnonpos
    apply div_nonpos_of_nonpos_of_nonneg _ (by norm_num)
    apply hnonpos
    apply mul_nonpos_of_nonneg_of_nonpos
    · exact r64_nonneg (by exact_mod_cast Int.ediv_nonneg (by norm_num) hw.le)
    · exact hnonpos (by exact_mod_cast hp.le)
  by_cases hz : l = 0
  · rw [if_pos hz]; exact ⟨_, rfl, by decide⟩
  · rw [if_neg hz]
    refine ⟨_, rfl, ?_⟩
    have hneg : r64 (r64 ((10000 : Int) : ℚ) / l) ≤ 0 := by
      apply hnonpos
      exact div_nonpos_of_nonneg_of_nonpos (r64_nonneg (by norm_num)) hl0
    unfold truncZ
    split
    · rename_i h0
      rw [le_antisymm hneg h0]; simp
    · have : 0 ≤ ⌊-r64 (r64 ((10000 : Int) : ℚ) / l)⌋ := Int.floor_nonneg.2 (by linarith)
      omega

/-- C80, violation: the width 0 makes the setup of the internal infill panic. -/
theorem C80_zero_width (percent : Int) : infillDistance 0 percent = .error (.panic "integer divide by zero") := by
  unfold infillDistance
  rw [mm10_eq]
  rfl

example : infillDistance 400 20 = .ok 2000 := C80_distance 400 20 (by norm_num) (by norm_num) (by norm_num) (by norm_num)

/-! ## C81: the infill of a part -/

/-- Assumption about the library: clipping of open lines never fails, and the clipped parts of two-point lines are two-point lines. -/
structure OpenClipping (lib : ClipperLib) : Prop where
  ok : ∀ t s c, ∃ tree, lib.executeOpen t s c = some tree
  lines : ∀ s c tree, lib.executeOpen .intersection s c = some tree → (∀ l ∈ s, l.length = 2) → ∀ n ∈ tree, n.contour.length = 2

theorem crossing_ok (lib : ClipperLib) (h : OpenClipping lib) (parts : List LayerPart) (line : Path) :
    (lib.isCrossingPerimeter parts line).2 = true := by
  unfold ClipperLib.isCrossingPerimeter
  obtain ⟨tree, ht⟩ := h.ok .difference [clipperPath line] (parts.flatMap fun p => clipperPaths p.holes ++ [clipperPath p.outline])
  rw [ht]

/-- The line with the given points of the library. -/
def segOf (p1 p2 : IntPoint) : Segment := (⟨p1.x, p1.y⟩, ⟨p2.x, p2.y⟩)

/-- A clipped line after the shortening for zig zag infill. -/
def shortened (w : Int) (l : Segment) : Segment :=
  if w = 0 then l
  else if l.1.y - w.tdiv 2 > l.2.y then (⟨l.1.x, l.1.y - w.tdiv 2⟩, ⟨l.2.x, l.2.y + w.tdiv 2⟩) else l

theorem infillLine_eq (w : Int) (p1 p2 : IntPoint) (cs : List PolyNode) :
    ∃ q1 q2, Linear.infillLine w (.node [p1, p2] cs) = .ok [q1, q2] ∧ segOf q1 q2 = shortened w (segOf p1 p2) := by
  unfold Linear.infillLine shortened
  by_cases hw : w = 0
  · rw [if_neg (by simpa using hw), if_pos hw]; exact ⟨p1, p2, rfl, rfl⟩
  · rw [if_pos hw, if_neg hw]
    simp only [PolyNode.contour]
    have h0 : index [p1, p2] 0 = .ok p1 := rfl
    have h1 : index [p1, p2] 1 = .ok p2 := rfl
    rw [h0, h1]
    simp only [bind, Except.bind, pure, Except.pure, Linear.shorten]
    by_cases h : p1.y - w.tdiv 2 > p2.y
    · have h' : (segOf p1 p2).1.y - w.tdiv 2 > (segOf p1 p2).2.y := h
      rw [if_pos h, if_pos h']; exact ⟨_, _, rfl, rfl⟩
    · have h' : ¬ (segOf p1 p2).1.y - w.tdiv 2 > (segOf p1 p2).2.y := h
      rw [if_neg h, if_neg h']; exact ⟨_, _, rfl, rfl⟩

theorem mapM_infillLine (w : Int) (tree : List PolyNode) (h : ∀ n ∈ tree, n.contour.length = 2) :
    ∃ lines : List Segment, tree.map (fun n => asPath n.contour) = lines.map seg ∧
      ∃ r, tree.mapM (Linear.infillLine w) = .ok r ∧ r.map asPath = (lines.map (shortened w)).map seg := by
  induction tree with
  | nil => exact ⟨[], rfl, [], rfl, rfl⟩
  | cons n tree ih =>
    obtain ⟨lines, h1, r, h2, h3⟩ := ih (fun m hm => h m (List.mem_cons_of_mem _ hm))
    obtain ⟨c, cs⟩ := n
    have hc := h _ (List.mem_cons_self ..)
    simp only [PolyNode.contour] at hc
    match c, hc with
    | [p1, p2], _ =>
      obtain ⟨q1, q2, hq, hs⟩ := infillLine_eq w p1 p2 cs
      refine ⟨segOf p1 p2 :: lines, ?_, [q1, q2] :: r, ?_, ?_⟩
      · simp only [List.map_cons, h1]; rfl
      · rw [List.mapM_cons, hq, h2]; rfl
      · simp only [List.map_cons, h3, ← hs]; rfl

/-- The infill for given scan lines. -/
theorem fill_of_scan (p : Linear) (lib : ClipperLib) (hlib : OpenClipping lib) (trig : ℚ → ℚ × ℚ) (layerNr : Nat) (part : LayerPart)
    {rot : ℚ} (hrot : rot = p.rotation layerNr) {turn : Path → Path} (hturn : turn = fun path : Path => pathRotate rot (trig rot).1 (trig rot).2 path)
    {box : Pt × Pt} (hbox : box = pathBounds (turn [p.min, ⟨p.max.x, p.min.y⟩, p.max, ⟨p.min.x, p.max.y⟩]))
    {scan : List (List IntPoint)} (hscan : Linear.scanLines p.lineDistance box.1 box.2 = some scan) (hlen : ∀ l ∈ scan, l.length = 2) :
    ∃ (tree : List PolyNode) (lines : List Segment) (order : List Nat),
      lib.executeOpen .intersection scan ((turn part.outline :: part.holes.map turn).map clipperPath) = some tree ∧
      tree.map (fun n => asPath n.contour) = lines.map (fun l => [l.1, l.2]) ∧
      UsesAll lines.length order ∧
      p.fill lib trig layerNr part = .ok ((weave
          (link p.zigZag (p.lineWidth + 2 * p.lineDistance)
            (fun q => (lib.isCrossingPerimeter [⟨turn part.outline, part.holes.map turn⟩] q).1))
          (route (lines.map (shortened (if p.zigZag then p.lineWidth else 0))) order)).map
        (pathRotate (-rot) (trig (-rot)).1 (trig (-rot)).2)) := by
  obtain ⟨tree, htree⟩ := hlib.ok .intersection scan ((turn part.outline :: part.holes.map turn).map clipperPath)
  have htwo := hlib.lines _ _ _ htree hlen
  obtain ⟨lines, hlines, r, hr, hr'⟩ := mapM_infillLine (if p.zigZag then p.lineWidth else 0) tree htwo
  obtain ⟨order, horder, hsort⟩ := C44_each_once p (lib.isCrossingPerimeter [⟨turn part.outline, part.holes.map turn⟩])
    (crossing_ok lib hlib _) (lines.map (shortened (if p.zigZag then p.lineWidth else 0)))
  refine ⟨tree, lines, order, htree, hlines, by simpa using horder, ?_⟩
  have hget : Linear.getInfill lib p.lineDistance box.1 box.2 (clipperPath (turn part.outline)) (clipperPaths (part.holes.map turn))
      (if p.zigZag then p.lineWidth else 0) = .ok r := by
    unfold Linear.getInfill
    rw [hscan]
    simp only []
    have : (clipperPath (turn part.outline) :: clipperPaths (part.holes.map turn)) =
        (turn part.outline :: part.holes.map turn).map clipperPath := rfl
    rw [this, htree]
    exact hr
  have hmicro := microPaths_false r
  rw [hr'] at hmicro
  have hfill : p.fill lib trig layerNr part = (do
    let infill ← Linear.getInfill lib p.lineDistance box.1 box.2 (clipperPath (turn part.outline)) (clipperPaths (part.holes.map turn))
      (if p.zigZag then p.lineWidth else 0)
    let paths ← microPaths infill false
    let result ← p.sortInfill (fun line => lib.isCrossingPerimeter [⟨turn part.outline, part.holes.map turn⟩] line) paths
    return pathsRotate (-rot) (trig (-rot)).1 (trig (-rot)).2 result) := by
    subst hrot hturn hbox; rfl
  rw [hfill, hget]
  simp only [bind, Except.bind]
  rw [hmicro]
  simp only []
  have e : (fun l : Segment => [l.1, l.2]) = seg := rfl
  rw [e] at hsort
  rw [hsort]
  rfl

/-- C81: the infill of a part. If the library does its work (`OpenClipping`) and the line distance is positive, `Fill` does not fail. It clips
the lines of C43 (over the rotated limits of the model) by the outline and the holes of the rotated part, and returns the clipped
lines, shortened for zig zag, each exactly once, with connections as in C44, rotated back. -/
theorem C81_fill (p : Linear) (lib : ClipperLib) (hlib : OpenClipping lib) (trig : ℚ → ℚ × ℚ) (hd : 0 < p.lineDistance) (layerNr : Nat)
    (part : LayerPart) :
    let rot := p.rotation layerNr
    let turn := fun path : Path => pathRotate rot (trig rot).1 (trig rot).2 path
    let box := pathBounds (turn [p.min, ⟨p.max.x, p.min.y⟩, p.max, ⟨p.min.x, p.max.y⟩])
    ∃ (scan : List (List IntPoint)) (tree : List PolyNode) (lines : List Segment) (order : List Nat),
      Linear.scanLines p.lineDistance box.1 box.2 = some scan ∧
      lib.executeOpen .intersection scan ((turn part.outline :: part.holes.map turn).map clipperPath) = some tree ∧
      tree.map (fun n => asPath n.contour) = lines.map (fun l => [l.1, l.2]) ∧
      UsesAll lines.length order ∧
      p.fill lib trig layerNr part = .ok ((weave
          (link p.zigZag (p.lineWidth + 2 * p.lineDistance)
            (fun q => (lib.isCrossingPerimeter [⟨turn part.outline, part.holes.map turn⟩] q).1))
          (route (lines.map (shortened (if p.zigZag then p.lineWidth else 0))) order)).map
        (pathRotate (-rot) (trig (-rot)).1 (trig (-rot)).2)) := by
  intro rot turn box
  obtain ⟨scan, hscan, hlen⟩ : ∃ scan, Linear.scanLines p.lineDistance box.1 box.2 = some scan ∧ ∀ l ∈ scan, l.length = 2 := by
    obtain ⟨n, hscan, -⟩ := C43_lines p.lineDistance box.1 box.2 hd
    refine ⟨_, hscan, fun l hl => ?_⟩
    obtain ⟨k, -, rfl⟩ := List.mem_map.1 hl
    rfl
  obtain ⟨tree, lines, order, h⟩ := fill_of_scan p lib hlib trig layerNr part rfl rfl rfl hscan hlen
  exact ⟨scan, tree, lines, order, hscan, h⟩

/-- C81: the lines are turned by the configured angle, and for rectilinear patterns by 90° more on every second layer, starting with the first
one. -/
theorem C81_rotation (p : Linear) (h : |p.degree| ≤ 2 ^ 31) (layerNr : Nat) :
    p.rotation layerNr = if p.rectlinear ∧ layerNr % 2 = 0 then (p.degree : ℚ) + 90 else p.degree := by
  unfold Linear.rotation
  rw [r64_intCast (le_trans h (by norm_num))]
  have e : (p.degree : ℚ) + 90 = ((p.degree + 90 : Int) : ℚ) := by push_cast; ring
  rw [e, r64_intCast]
  rw [abs_le] at h ⊢
  norm_num at h ⊢
  omega

/-- A library without effect on open lines: everything is inside and nothing crosses. -/
def insideClipper : ClipperLib where
  execute := fun _ _ _ => some []
  executeOpen := fun t s _ => some (if t = .intersection then s.map (fun l => .node (l.take 2) []) else [])
  offset := fun _ _ => []
  hull := id

example : OpenClipping insideClipper where
  ok := fun t s c => ⟨_, rfl⟩
  lines := by
    intro s c tree h hs n hn
    simp only [insideClipper, if_true, Option.some.injEq] at h
    subst h
    obtain ⟨l, hl, rfl⟩ := List.mem_map.1 hn
    simp [PolyNode.contour, hs l hl]

end Verif
