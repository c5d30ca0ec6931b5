import Verif.Spec.PrintArea
import Verif.Props.Region
import Verif.Props.Success
import Verif.Props.Height
import Verif.Props.Patterns
import Verif.Props.Rotation

/-! # C102: the area used by a print -/
namespace Verif
open Verif.Go Verif.Model Verif.Spec Verif.Spec.GCode

/-! ## Rectangles -/

theorem has_mono {R : Rect} {n m : Int} (h : n ≤ m) {x y : Int} (hx : (R.grow n).Has x y) : (R.grow m).Has x y := by
  obtain ⟨h1, h2, h3, h4⟩ := hx
  simp only [Rect.grow] at *
  exact ⟨by simp only; omega, by simp only; omega, by simp only; omega, by simp only; omega⟩

theorem hasParts_mono {R : Rect} {n m : Int} (h : n ≤ m) {ps : List LayerPart} (hp : (R.grow n).HasParts ps) : (R.grow m).HasParts ps :=
  fun p hm => ⟨fun q hq => has_mono h ((hp p hm).1 q hq), fun c hc q hq => has_mono h ((hp p hm).2 c hc q hq)⟩

theorem grow_zero (R : Rect) : R.grow 0 = R := by simp [Rect.grow]

theorem grow_grow (R : Rect) (a b : Int) : (R.grow a).grow b = R.grow (a + b) := by
  simp only [Rect.grow, Rect.mk.injEq]; omega

theorem reach_nonneg (d : ℚ) : 0 ≤ reach d := by
  unfold reach
  split
  · exact le_refl _
  · rename_i h
    have : 0 ≤ ⌈3 / 2 * d⌉ := Int.ceil_nonneg (by linarith [not_le.1 h])
    omega

theorem reach_mono {d e : ℚ} (h : d ≤ e) : reach d ≤ reach e := by
  by_cases hd : d ≤ 0
  · rw [show reach d = 0 from if_pos hd]; exact reach_nonneg e
  · unfold reach
    rw [if_neg hd, if_neg (by linarith [not_le.1 hd])]
    have := Int.ceil_mono (show 3 / 2 * d ≤ 3 / 2 * e by linarith)
    omega

theorem reach_nonpos {d : ℚ} (h : d ≤ 0) : reach d = 0 := if_pos h

theorem hasPart_contours {R : Rect} {p : LayerPart} : R.HasPart p ↔ R.HasContours (partContours p) := by
  unfold Rect.HasPart Rect.HasContours partContours Rect.HasPath
  simp

theorem hasParts_contours {R : Rect} {ps : List LayerPart} : R.HasParts ps ↔ R.HasContours (ps.flatMap partContours) := by
  constructor
  · intro h c hc
    obtain ⟨p, hp, hc⟩ := List.mem_flatMap.1 hc
    exact hasPart_contours.1 (h p hp) c hc
  · intro h p hp
    exact hasPart_contours.2 fun c hc => h c (List.mem_flatMap.2 ⟨p, hp, hc⟩)

theorem hasParts_tree {R : Rect} {tree : List PolyNode} (h : R.HasContours (treesContours tree)) : R.HasParts (polyTreeToLayerParts tree) :=
  hasParts_contours.2 fun c hc => h c ((polyTree_contours tree).mem_iff.1 hc)

theorem hasParts_append {R : Rect} {a b : List LayerPart} (ha : R.HasParts a) (hb : R.HasParts b) : R.HasParts (a ++ b) :=
  fun p hp => (List.mem_append.1 hp).elim (ha p) (hb p)

theorem hasParts_nil (R : Rect) : R.HasParts [] := by intro p hp; cases hp

theorem hasParts_flatMap {α : Type} {R : Rect} {l : List α} {f : α → List LayerPart} (h : ∀ a ∈ l, R.HasParts (f a)) : R.HasParts (l.flatMap f) := by
  intro p hp
  obtain ⟨a, ha, hp⟩ := List.mem_flatMap.1 hp
  exact h a ha p hp

/-! ## The library -/

/-- If the computation succeeds, its result has the property. -/
def Yields {α : Type} (x : Res α) (P : α → Prop) : Prop := ∀ a, x = .ok a → P a

theorem yields_bind {α β : Type} {x : Res α} {f : α → Res β} {P : α → Prop} {Q : β → Prop} (hx : Yields x P) (hf : ∀ a, P a → Yields (f a) Q) :
    Yields (x >>= f) Q := by
  intro b hb
  obtain ⟨a, ha, hb⟩ := bind_ok.1 hb
  exact hf a (hx a ha) b hb

theorem yields_pure {α : Type} {a : α} {P : α → Prop} (h : P a) : Yields (pure a : Res α) P := by
  intro b hb; cases hb; exact h

theorem yields_ok {α : Type} {a : α} {P : α → Prop} (h : P a) : Yields (.ok a : Res α) P := yields_pure h

theorem yields_any {α : Type} (x : Res α) : Yields x fun _ => True := fun _ _ => trivial

theorem yields_mono {α : Type} {x : Res α} {P Q : α → Prop} (h : Yields x P) (hq : ∀ a, P a → Q a) : Yields x Q := fun a ha => hq a (h a ha)

theorem yields_index {α : Type} {l : List α} {i : Int} : Yields (index l i) (· ∈ l) := fun _ ha => List.mem_of_getElem? (index_ok ha).2

theorem yields_foldlM {α β : Type} {f : β → α → Res β} {P : β → Prop} (l : List α) (hf : ∀ b, ∀ a ∈ l, P b → Yields (f b a) P) :
    ∀ b, P b → Yields (l.foldlM f b) P := by
  induction l with
  | nil => intro b hb; exact yields_pure hb
  | cons a l ih =>
    intro b hb
    rw [List.foldlM_cons]
    exact yields_bind (hf b a List.mem_cons_self hb) fun b' hb' => ih (fun b a ha => hf b a (List.mem_cons_of_mem _ ha)) b' hb'

theorem yields_mapM {α β : Type} {f : α → Res β} {P : β → Prop} (l : List α) (hf : ∀ a ∈ l, Yields (f a) P) :
    Yields (l.mapM f) fun r => ∀ b ∈ r, P b := by
  intro r hr
  have h := mapM_ok.1 hr
  clear hr
  induction h with
  | nil => intro b hb; cases hb
  | cons h _ ih =>
    intro b hb
    rcases List.mem_cons.1 hb with rfl | hb
    · exact hf _ List.mem_cons_self _ h
    · exact ih (fun a ha => hf a (List.mem_cons_of_mem _ ha)) b hb

section Lib
variable {lib : ClipperLib} (hl : StaysInside lib) {R : Rect}
include hl

theorem union_in {a b r : List LayerPart} (h : lib.union a b = some r) (ha : R.HasParts a) (hb : R.HasParts b) : R.HasParts r := by
  unfold ClipperLib.union ClipperLib.runClipper at h
  split at h
  · cases h; exact hasParts_nil R
  · obtain ⟨tree, ht, rfl⟩ := Option.map_eq_some_iff.1 h
    exact hasParts_tree (hl.union R _ _ _ ht (hasParts_contours.1 ha) (hasParts_contours.1 hb))

theorem difference_in {a b r : List LayerPart} (h : lib.difference a b = some r) (ha : R.HasParts a) : R.HasParts r := by
  unfold ClipperLib.difference ClipperLib.runClipper at h
  split at h
  · cases h; exact hasParts_nil R
  · obtain ⟨tree, ht, rfl⟩ := Option.map_eq_some_iff.1 h
    exact hasParts_tree (hl.difference R _ _ _ ht (hasParts_contours.1 ha))

theorem intersection_in {a b r : List LayerPart} (h : lib.intersection a b = some r) (hb : R.HasParts b) : R.HasParts r := by
  unfold ClipperLib.intersection ClipperLib.runClipper at h
  split at h
  · cases h; exact hasParts_nil R
  · obtain ⟨tree, ht, rfl⟩ := Option.map_eq_some_iff.1 h
    exact hasParts_tree (hl.intersection R _ _ _ ht (hasParts_contours.1 hb))

theorem inset1_in {p : LayerPart} (hp : R.HasPart p) (d : ℚ) : (R.grow (reach d)).HasParts (lib.inset1 p d) := by
  unfold ClipperLib.inset1
  exact hasParts_tree (hl.offset R _ d (hasPart_contours.1 hp))

theorem inset_shrinks {p : LayerPart} (hp : R.HasPart p) {w : Int} (hw : 0 ≤ w) (n : Nat) : ∀ {d : ℚ}, d ≤ 0 →
    ∀ ps ∈ lib.insetLoop p w n d, R.HasParts ps := by
  induction n with
  | zero => intro d _ ps h; cases h
  | succ n ih =>
    intro d hd ps h
    rcases List.mem_cons.1 h with rfl | h
    · have := inset1_in hl hp d
      rwa [reach_nonpos hd, grow_zero] at this
    · refine ih ?_ ps h
      have h1 : r64 ((-w : Int) : ℚ) ≤ 0 := by
        rw [← r64_zero]; refine r64_mono ?_
        exact_mod_cast (by omega : -w ≤ 0)
      rw [← r64_zero]; exact r64_mono (by linarith)

theorem inset_grows {p : LayerPart} (hp : R.HasPart p) {w count initial : Int} (hw : 0 ≤ w) (h : |initial| + count * w ≤ 2 ^ 53) :
    ∀ ps ∈ lib.inset p (-w) count initial, (R.grow (reach ((initial + (count - 1) * w : Int) : ℚ))).HasParts ps := by
  intro ps hm
  obtain ⟨k, hk, rfl⟩ := List.mem_iff_getElem.1 hm
  have hc : (k : Int) < count := by rw [C39_count] at hk; omega
  have hd := C39_distance lib p (-w) count initial (by rwa [abs_neg, abs_of_nonneg hw]) k hc
  rw [List.getElem?_eq_getElem hk, Option.some_inj] at hd
  rw [hd]
  refine hasParts_mono (reach_mono ?_) (hasParts_tree (hl.offset R _ _ (hasPart_contours.1 hp)))
  have : (k : Int) * w ≤ (count - 1) * w := mul_le_mul_of_nonneg_right (by omega) hw
  have h2 : initial - k * -w ≤ initial + (count - 1) * w := by rw [mul_neg]; omega
  exact_mod_cast h2

end Lib
end Verif
