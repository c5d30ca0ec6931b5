import Verif.Lemmas.Float
import Verif.Props.Modifiers

/-! # C101: the border between perimeters and infill -/
namespace Verif
open Verif.Go Verif.Model

/-- For an extrusion width below 16.7 cm and a percentage between 0 and 100 the float32 calculation of the overlap is exact. -/
theorem C101_distance (p : Int) (w : Micrometer) (h0 : 0 ≤ p) (h1 : p ≤ 100) (hw0 : 0 ≤ w) (hw : w ≤ 167772) :
    perimeterOverlap p w = w * (100 - p) / 100 := by
  have hn0 : 0 ≤ w * (100 - p) := mul_nonneg hw0 (by omega)
  have hn1 : w * (100 - p) ≤ 167772 * 100 := mul_le_mul hw (by omega) (by omega) (by omega)
  unfold perimeterOverlap
  have e1 : r32 (w : ℚ) = w := r32_intCast (by rw [abs_le]; constructor <;> omega)
  have e2 : r32 (p : ℚ) = p := r32_intCast (by rw [abs_le]; constructor <;> omega)
  have e3 : r32 (100 - (p : ℚ)) = ((100 - p : Int) : ℚ) := by
    have := r32_intCast (n := 100 - p) (by rw [abs_le]; constructor <;> omega)
    rw [← this]; push_cast; rfl
  have e4 : r32 ((w : ℚ) * ((100 - p : Int) : ℚ)) = ((w * (100 - p) : Int) : ℚ) := by
    have := r32_intCast (n := w * (100 - p)) (by rw [abs_le]; constructor <;> omega)
    rw [← this]; push_cast; rfl
  rw [e1, e2, e3, e4]
  generalize hn : w * (100 - p) = n at *
  have hq := Int.mul_ediv_add_emod n 100
  have hm0 := Int.emod_nonneg n (b := 100) (by norm_num)
  have hm1 := Int.emod_lt_of_pos n (b := 100) (by norm_num)
  have hlow : ((n / 100 : Int) : ℚ) ≤ r32 ((n : ℚ) / 100) := by
    have e : r32 ((n / 100 : Int) : ℚ) = ((n / 100 : Int) : ℚ) := r32_intCast (by rw [abs_le]; constructor <;> omega)
    rw [← e]
    refine r32_mono ?_
    rw [le_div_iff₀ (by norm_num)]
    have : n / 100 * 100 ≤ n := by omega
    exact_mod_cast this
  have hupp : r32 ((n : ℚ) / 100) < ((n / 100 : Int) : ℚ) + 1 := by
    rcases eq_or_lt_of_le hn0 with h | h
    · subst h; simp
    · have hpos : (1 : ℚ) ≤ n := by exact_mod_cast h
      have hx : 0 ≤ (n : ℚ) / 100 := by positivity
      have herr := r32_rel' (x := (n : ℚ) / 100) (e := 1 / 100) (by norm_num) (by
        rw [abs_of_nonneg hx]; exact div_le_div_of_nonneg_right hpos (by norm_num))
      rw [abs_of_nonneg hx] at herr
      have h2 := (abs_le.1 herr).2
      have h3 : (n : ℚ) ≤ 167772 * 100 := by exact_mod_cast hn1
      have h4 : (n : ℚ) ≤ ((n / 100 : Int) : ℚ) * 100 + 99 := by
        have : n ≤ n / 100 * 100 + 99 := by omega
        exact_mod_cast this
      have h5 : (n : ℚ) / 100 / 2 ^ 24 ≤ 167772 / 2 ^ 24 := by
        refine div_le_div_of_nonneg_right ?_ (by positivity)
        rw [div_le_iff₀ (by norm_num)]; exact h3
      have h6 : (n : ℚ) / 100 ≤ ((n / 100 : Int) : ℚ) + 99 / 100 := by
        rw [div_le_iff₀ (by norm_num)]; linarith
      have h7 : (167772 : ℚ) / 2 ^ 24 < 1 / 100 := by norm_num
      linarith
  have hnn : 0 ≤ r32 ((n : ℚ) / 100) := le_trans (by exact_mod_cast (by omega : 0 ≤ n / 100)) hlow
  unfold truncZ
  rw [if_pos hnn, Int.floor_eq_iff]
  exact ⟨hlow, hupp⟩

/-- Specification: the area which infill may fill inside of the innermost perimeter `q`, which is a centre line. An overlap of 100 percent reaches the
centre line itself, an overlap of 0 percent stays half a line width (rounded down to whole micrometers) inside of it. -/
def overlapBorder (lib : ClipperLib) (p : Int) (w : Micrometer) (q : LayerPart) : List LayerPart :=
  if w * (100 - p) < 100 then [q]
  else polyTreeToLayerParts (lib.offset (clipperPaths [q.outline] ++ clipperPaths q.holes) (-((w * (100 - p) / 100 / 2 : Int) : ℚ)))

theorem overlap_border (lib : ClipperLib) (p : Int) (w : Micrometer) (q : LayerPart) (h0 : 0 ≤ p) (h1 : p ≤ 100) (hw0 : 0 ≤ w)
    (hw : w ≤ 167772) : calculateOverlapPerimeter lib q p w = overlapBorder lib p w q := by
  have hn0 : 0 ≤ w * (100 - p) := mul_nonneg hw0 (by omega)
  have hn1 : w * (100 - p) ≤ 167772 * 100 := mul_le_mul hw (by omega) (by omega) (by omega)
  unfold calculateOverlapPerimeter overlapBorder
  rw [C101_distance p w h0 h1 hw0 hw]
  generalize w * (100 - p) = n at *
  by_cases h : n < 100
  · rw [if_neg (by omega), if_pos h]
  · rw [if_pos (by omega), if_neg h]
    unfold ClipperLib.inset1
    have e : (-(n / 100)).tdiv 2 = -(n / 100 / 2) := by
      rw [Int.neg_tdiv, Int.tdiv_eq_ediv_of_nonneg (by omega)]
    have e2 : r64 (((-(n / 100 / 2) : Int)) : ℚ) = ((-(n / 100 / 2) : Int) : ℚ) := r64_intCast (by rw [abs_le]; constructor <;> omega)
    rw [e, e2, Int.cast_neg]

/-- C101: after the perimeter modifier, the border of the infill of each part is made from its innermost perimeters, with the documented overlap. -/
theorem C101_border (lib : ClipperLib) (o : Options) (ls ls' : List Layer) (hi : 1 ≤ o.print.insetCount)
    (h0 : 0 ≤ o.print.infillOverlapPercent) (h1 : o.print.infillOverlapPercent ≤ 100) (hw0 : 0 ≤ o.printer.extrusionWidth)
    (hw : o.printer.extrusionWidth ≤ 167772) (h : perimeterModifier lib o ls = .ok ls') (k : Nat) (l' : Layer) (hk : ls'[k]? = some l') :
    ∃ perimeters borders, l'.perimeters = .ok perimeters ∧ l'.overlapPerimeters = .ok borders ∧
      List.Forall₂ (fun part border => border = (part.getLastD []).flatMap
        (overlapBorder lib o.print.infillOverlapPercent o.printer.extrusionWidth)) perimeters borders := by
  obtain ⟨l, _, _, _, h3, h4⟩ := perimeterModifier_get lib o ls ls' hi h k l' hk
  refine ⟨_, _, h3, h4, ?_⟩
  rw [List.forall₂_map_right_iff, List.forall₂_same]
  intro part _
  congr 1
  funext q
  exact overlap_border lib _ _ q h0 h1 hw0 hw

/-- The default: 50 percent of 400 µm, so the border is 100 µm inside of the centre line. -/
example (lib : ClipperLib) (q : LayerPart) : overlapBorder lib 50 400 q =
    polyTreeToLayerParts (lib.offset (clipperPaths [q.outline] ++ clipperPaths q.holes) (-100)) := by
  norm_num [overlapBorder]

/-- 100 percent: the centre line itself. -/
example (lib : ClipperLib) (q : LayerPart) : overlapBorder lib 100 400 q = [q] := by norm_num [overlapBorder]

example (lib : ClipperLib) (l : Layer) : ∃ ls', perimeterModifier lib {} [l] = .ok ls' := C69_succeeds lib {} [l] (by norm_num)
