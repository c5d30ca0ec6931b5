import Verif.Props.Optimizer
import Verif.Spec.Grid

/-! # C49: vertices in the same cell of the grid -/
namespace Verif
open Verif.Go Verif.Model Verif.Spec

theorem cell_toNat {d a : Int} (hd : 0 < d) (hd' : d < 2 ^ 62) : ((cell (toHash d) a).toNat : Int) = ((a + d / 2) % 2 ^ 64) / d := by
  have hp : ((2 ^ 64 : Nat) : Int) = 2 ^ 64 := by norm_num
  have h1 : (((BitVec.ofInt 64 d).toNat : Nat) : Int) = d := by
    rw [BitVec.toNat_ofInt, hp, Int.toNat_of_nonneg (Int.emod_nonneg _ (by norm_num)), Int.emod_eq_of_lt (by omega) (by omega)]
  have h2 : (((BitVec.ofInt 64 a).toNat : Nat) : Int) = a % 2 ^ 64 := by
    rw [BitVec.toNat_ofInt, hp, Int.toNat_of_nonneg (Int.emod_nonneg _ (by norm_num))]
  unfold cell toHash
  rw [BitVec.toNat_udiv, BitVec.toNat_add, BitVec.toNat_udiv]
  have h3 : BitVec.toNat (2 : BitVec 64) = 2 := rfl
  rw [h3]
  push_cast
  have h4 : (2 : Int) ^ 64 = 18446744073709551616 := by norm_num
  rw [h1, h2, h4, Int.emod_add_emod]

theorem cell_same {d a b : Int} (hd : 0 < d) (hd' : d < 2 ^ 62) (ha : |a| < 2 ^ 62) (hb : |b| < 2 ^ 62) (h : SameSlot d a b) :
    cell (toHash d) a = cell (toHash d) b := by
  apply BitVec.eq_of_toNat_eq
  have key : ((cell (toHash d) a).toNat : Int) = (cell (toHash d) b).toNat := by
    rw [cell_toNat hd hd', cell_toNat hd hd']
    rw [abs_lt] at ha hb
    have slot : ∀ {x k : Int}, k * d ≤ x → x < (k + 1) * d → x / d = k := fun h1 h2 => Int.ediv_eq_iff_of_pos hd |>.2 ⟨h1, by linarith⟩
    rcases h with ⟨h1, h2, k, h3, h4, h5, h6⟩ | ⟨h1, h2, k, h3, h4, h5, h6⟩
    · rw [Int.emod_eq_of_lt h1 (by omega), Int.emod_eq_of_lt h2 (by omega), slot h3 h4, slot h5 h6]
    · have e : ∀ x : Int, x < 0 → -2 ^ 64 ≤ x → x % 2 ^ 64 = 2 ^ 64 + x := by
        intro x hx hx'
        omega
      rw [e _ h1 (by omega), e _ h2 (by omega), ← add_assoc, ← add_assoc, slot h3 h4, slot h5 h6]
  exact_mod_cast key

/-- **C49** The points of the optimized model are vertices of the model (moved to their place), and two of them which are in the same cell of the grid are farther apart than the meld distance. So of the vertices in a cell
which are within the meld distance of each other only one is kept. -/
theorem C49_grid (o : Options) (m : Mesh) (om : OptModel) (h : optimize o m = .ok om) (hd : 0 < o.slicing.meldDistance) (hd' : o.slicing.meldDistance < 2 ^ 62)
    (hm : ∀ v ∈ vertices m, |v.x| < 2 ^ 62 ∧ |v.y| < 2 ^ 62 ∧ |v.z| < 2 ^ 62) :
    ∃ (kept : List Vec3) (lo hi : Vec3), IsBox (vertices m) lo hi ∧ (∀ v ∈ kept, v ∈ vertices m) ∧
      om.points.map MPoint.pos = kept.map (placed o.printer.center lo hi) ∧
      kept.Pairwise fun p q => SameCell o.slicing.meldDistance p q → o.slicing.meldDistance ^ 2 < vecDist2 p q := by
  obtain ⟨s, lo, hi, ts, p, f, hts, hfaces, hbox, hsize, hpos, htouch⟩ := optimize_ok h
  refine ⟨posOf s, lo, hi, hbox, p.mem, hpos, ?_⟩
  refine p.apart.imp_of_mem fun {a b} ha hb hab hc => ?_
  obtain ⟨a1, a2, a3⟩ := hm a (p.mem a ha)
  obtain ⟨b1, b2, b3⟩ := hm b (p.mem b hb)
  have hh : hashOf o.slicing.meldDistance a = hashOf o.slicing.meldDistance b := by
    unfold hashOf
    rw [cell_same hd hd' a1 b1 hc.1, cell_same hd hd' a2 b2 hc.2.1, cell_same hd hd' a3 b3 hc.2.2]
  by_contra hn
  rw [not_lt] at hn
  have : meldHit o.slicing.meldDistance b a = true := by
    unfold meldHit
    rw [hh]
    rw [beq_self_eq_true, Bool.true_and, shorter_iff]
    simp only [Vec3.size2, Vec3.sub]
    unfold vecDist2 at hn
    nlinarith
  rw [this] at hab
  cases hab

/-- Non-vacuity: with a meld distance of 30 µm, -15 and 14 are in the same cell, but 14 and 15 are not. -/
example : SameSlot 30 (-15) 14 ∧ ¬ SameSlot 30 14 15 := by
  refine ⟨.inl ⟨by norm_num, by norm_num, 0, by norm_num, by norm_num, by norm_num, by norm_num⟩, ?_⟩
  rintro (⟨-, -, k, h1, h2, h3, h4⟩ | ⟨h, -⟩)
  · omega
  · omega
example : ∃ (kept : List Vec3) (lo hi : Vec3), IsBox (vertices tetra) lo hi ∧ (∀ v ∈ kept, v ∈ vertices tetra) ∧
    tetraOpt.points.map MPoint.pos = kept.map (placed ⟨100000, 100000, 0⟩ lo hi) ∧ kept.Pairwise fun p q => SameCell 30 p q → 30 ^ 2 < vecDist2 p q :=
  C49_grid {} tetra tetraOpt tetra_ok (by decide) (by decide) (by decide)

end Verif
