import Verif.Go.Base
import Mathlib.Data.List.Forall2

/-! # Lemmas about Go results -/
namespace Verif
open Verif.Go

theorem index_ok {α : Type} {l : List α} {i : Int} {a : α} (h : index l i = .ok a) : 0 ≤ i ∧ l[i.toNat]? = some a := by
  unfold index at h
  split at h
  · next hi =>
    split at h
    · next b hb => cases h; exact ⟨hi, hb⟩
    · cases h
  · cases h

theorem bind_ok {α β : Type} {x : Res α} {f : α → Res β} {b : β} : (x >>= f) = .ok b ↔ ∃ a, x = .ok a ∧ f a = .ok b := by
  cases x with
  | error e => simp [bind, Except.bind]
  | ok a => simp [bind, Except.bind]

theorem mapM_ok {α β : Type} {f : α → Res β} {l : List α} {r : List β} : l.mapM f = .ok r ↔ List.Forall₂ (fun a b => f a = .ok b) l r := by
  induction l generalizing r with
  | nil =>
    simp only [List.mapM_nil, pure, Except.pure, Except.ok.injEq]
    constructor
    · rintro rfl; exact .nil
    · intro h; cases h; rfl
  | cons a l ih =>
    simp only [List.mapM_cons, bind_ok, pure, Except.pure, Except.ok.injEq]
    constructor
    · rintro ⟨b, hb, bs, hbs, rfl⟩
      exact .cons hb (ih.1 hbs)
    · intro h
      cases h with
      | cons hb hbs => exact ⟨_, hb, _, ih.2 hbs, rfl⟩

theorem index_of {α : Type} {l : List α} {i : Nat} {a : α} (h : l[i]? = some a) : index l (i : Int) = .ok a := by
  unfold index
  rw [if_pos (Int.natCast_nonneg i), Int.toNat_natCast, h]

theorem index_nat {α : Type} {l : List α} {i : Nat} {a : α} : index l (i : Int) = .ok a ↔ l[i]? = some a :=
  ⟨fun h => (index_ok h).2, index_of⟩

end Verif
