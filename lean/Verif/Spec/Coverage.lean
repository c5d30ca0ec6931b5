import Verif.Spec.Region

/-! # Specification: lines which cover an area -/
namespace Verif.Spec
open Verif.Model

/-- The library keeps what is inside: if a piece of one of the given vertical lines and one more micrometre at both ends are inside of the region,
then it is part of one of the resulting lines. -/
def KeepsInside (inside : List IntPoint → Set (ℚ × ℚ)) (lib : ClipperLib) : Prop :=
  ∀ lines clip tree, lib.executeOpen .intersection lines clip = some tree →
    ∀ x top bottom : Int, [⟨x, top⟩, ⟨x, bottom⟩] ∈ lines → ∀ lo hi : ℚ, lo ≤ hi → bottom ≤ lo → hi ≤ top →
      (∀ y, lo - 1 ≤ y → y ≤ hi + 1 → ((x : ℚ), y) ∈ evenOdd inside clip) →
      ∃ n ∈ tree, ∃ c d : IntPoint, n.contour = [c, d] ∧ c.x = x ∧ d.x = x ∧ ((d.y ≤ lo ∧ hi ≤ c.y) ∨ (c.y ≤ lo ∧ hi ≤ d.y))

/-- The vertical line from `a` to `b` passes through a point. -/
def PassesThrough (a b : Pt) (x : Int) (y : ℚ) : Prop := a.x = x ∧ b.x = x ∧ ((b.y ≤ y ∧ y ≤ a.y) ∨ (a.y ≤ y ∧ y ≤ b.y))

end Verif.Spec
