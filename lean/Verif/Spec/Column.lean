/-! # Specification: columns of support -/
namespace Verif.Spec

/-- The layer `i + gap + 1` is inside of the solid at the point, the layer below is not. -/
def Overhang (gap count : Nat) (inside : Nat → Prop) (i : Nat) : Prop := i + gap + 1 < count ∧ inside (i + gap + 1) ∧ ¬ inside (i + gap)

/-- There is a column of support at the point in layer `m`, of `count` layers: in the layer or one above, `gap` layers below an overhang, it starts, and down to the layer it does not meet
the solid. (For the topmost two layers the solid is not subtracted by the program.) -/
def Column (gap count : Nat) (inside : Nat → Prop) (m : Nat) : Prop :=
  ∃ k, m ≤ k ∧ k + 2 ≤ count ∧ Overhang gap count inside k ∧ ∀ i, m ≤ i → i ≤ k → i + 2 < count → ¬ inside i

/-- There is also a column `layers` layers above. -/
def ColumnAbove (layers : Int) (count : Nat) (col : Nat → Prop) (m : Nat) : Prop := 0 < layers ∧ m + layers.toNat + 2 < count ∧ col (m + layers.toNat)

/-- A table with the layers 0 to 4 as foot, no solid up to layer 8 and the board from 9 to 12, with one layer left out: the columns are in the layers 5 to 7. -/
example : (Column 1 13 (fun i => i < 5 ∨ 9 ≤ i) 7) ∧ (Column 1 13 (fun i => i < 5 ∨ 9 ≤ i) 5) ∧ ¬ (Column 1 13 (fun i => i < 5 ∨ 9 ≤ i) 8) ∧
    ¬ (Column 1 13 (fun i => i < 5 ∨ 9 ≤ i) 4) := by
  refine ⟨⟨7, ?_⟩, ⟨7, ?_⟩, ?_, ?_⟩
  · refine ⟨Nat.le_refl _, by decide, ⟨by decide, .inr (by decide), by decide⟩, fun i h1 h2 h3 => by omega⟩
  · refine ⟨by decide, by decide, ⟨by decide, .inr (by decide), by decide⟩, fun i h1 h2 h3 => by omega⟩
  · rintro ⟨k, h1, h2, ⟨h3, h4, h5⟩, h6⟩
    omega
  · rintro ⟨k, h1, h2, ⟨h3, h4, h5⟩, h6⟩
    exact h6 4 (Nat.le_refl _) h1 (by decide) (.inl (by decide))

end Verif.Spec
