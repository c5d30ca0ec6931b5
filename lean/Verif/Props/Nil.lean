import Verif.Model.Nil
import Verif.Props.TogetherExample

/-! # C145: nil and empty slices -/
namespace Verif
open Verif.Go Verif.Model Verif.Spec CellSide

/-- Specification: the library makes nothing of nothing. -/
def NothingFromNothing (lib : ClipperLib) : Prop := ∀ t, lib.execute t [] [] = some []

theorem polyTreeNil_getD (c : List PolyNode) : (polyTreeToLayerPartsNil c).getD [] = polyTreeToLayerParts c := by
  unfold polyTreeToLayerPartsNil
  split
  · rename_i h; rw [h]; rfl
  · rfl

/-- **C145** The result of clipping is nil exactly if it is empty. -/
theorem C145_result (lib : ClipperLib) (t : ClipType) (p q r : Option (List LayerPart)) (h : lib.runClipperNil t p q = some r) : r ≠ some [] := by
  have key : ∀ c, polyTreeToLayerPartsNil c ≠ some [] := by
    intro c
    unfold polyTreeToLayerPartsNil
    split
    · simp
    · rename_i hc
      simpa using hc
  unfold ClipperLib.runClipperNil at h
  split at h
  · cases h; simp
  · obtain ⟨c, -, rfl⟩ := Option.map_eq_some_iff.1 h
    exact key c

/-- **C145** If the library makes nothing of nothing, then it does not matter which of the empty slices are nil: the parts are those of the model with lists. -/
theorem C145_nil (lib : ClipperLib) (hlib : NothingFromNothing lib) (t : ClipType) (p q : Option (List LayerPart)) :
    (lib.runClipperNil t p q).map (·.getD []) = lib.runClipper t (p.getD []) (q.getD []) := by
  have key : ∀ a b : List LayerPart, ((lib.execute t (a.flatMap ClipperLib.partPaths) (b.flatMap ClipperLib.partPaths)).map polyTreeToLayerPartsNil).map (·.getD []) =
      lib.runClipper t a b := by
    intro a b
    rw [Option.map_map, show (fun r : Option (List LayerPart) => r.getD []) ∘ polyTreeToLayerPartsNil = polyTreeToLayerParts from funext polyTreeNil_getD]
    unfold ClipperLib.runClipper
    split
    · rename_i h
      obtain ⟨rfl, rfl⟩ := h
      simp only [List.flatMap_nil, hlib t, Option.map_some]
      unfold polyTreeToLayerParts polyRounds
      rfl
    · rfl
  unfold ClipperLib.runClipperNil
  split
  · simp [ClipperLib.runClipper]
  · exact key _ _

/-- **C145** So all slices which stand for the same parts give the same result. -/
theorem C145_same (lib : ClipperLib) (hlib : NothingFromNothing lib) (t : ClipType) {p p' q q' : Option (List LayerPart)} (hp : p.getD [] = p'.getD []) (hq : q.getD [] = q'.getD []) :
    lib.runClipperNil t p q = lib.runClipperNil t p' q' := by
  have h := (C145_nil lib hlib t p q).trans ((hp ▸ hq ▸ (C145_nil lib hlib t p' q')).symm)
  cases h1 : lib.runClipperNil t p q with
  | none =>
    cases h2 : lib.runClipperNil t p' q' with
    | none => rfl
    | some r => rw [h1, h2] at h; simp at h
  | some r =>
    cases h2 : lib.runClipperNil t p' q' with
    | none => rw [h1, h2] at h; simp at h
    | some r' =>
      rw [h1, h2] at h
      have h : r.getD [] = r'.getD [] := by simpa using h
      have n1 := C145_result lib t p q r h1
      have n2 := C145_result lib t p' q' r' h2
      cases r <;> cases r' <;> simp_all

/-- **C145** The assumption is needed, and it is needed only for two empty slices which are not both nil. -/
theorem C145_needed (lib : ClipperLib) (t : ClipType) (p q : Option (List LayerPart)) (h : (lib.runClipperNil t p q).map (·.getD []) ≠ lib.runClipper t (p.getD []) (q.getD [])) :
    p.getD [] = [] ∧ q.getD [] = [] ∧ (p ≠ none ∨ q ≠ none) ∧ lib.execute t [] [] ≠ some [] := by
  by_contra hn
  apply h
  by_cases h1 : p.getD [] = [] ∧ q.getD [] = []
  · by_cases h2 : p = none ∧ q = none
    · rw [h2.1, h2.2]; simp [ClipperLib.runClipperNil, ClipperLib.runClipper]
    · have h3 : lib.execute t [] [] = some [] := by
        by_contra h3
        exact hn ⟨h1.1, h1.2, by tauto, h3⟩
      have h4 : lib.runClipperNil t p q = (lib.execute t ((p.getD []).flatMap ClipperLib.partPaths) ((q.getD []).flatMap ClipperLib.partPaths)).map polyTreeToLayerPartsNil := by
        unfold ClipperLib.runClipperNil
        split
        · exact absurd ⟨rfl, rfl⟩ h2
        · rfl
      rw [h4, h1.1, h1.2]
      simp only [List.flatMap_nil, h3, Option.map_some, polyTreeNil_getD]
      unfold ClipperLib.runClipper polyTreeToLayerParts polyRounds
      simp
  · have h4 : lib.runClipperNil t p q = (lib.execute t ((p.getD []).flatMap ClipperLib.partPaths) ((q.getD []).flatMap ClipperLib.partPaths)).map polyTreeToLayerPartsNil := by
      unfold ClipperLib.runClipperNil
      split
      · exact absurd ⟨rfl, rfl⟩ h1
      · rfl
    rw [h4, Option.map_map, show (fun r : Option (List LayerPart) => r.getD []) ∘ polyTreeToLayerPartsNil = polyTreeToLayerParts from funext polyTreeNil_getD]
    unfold ClipperLib.runClipper
    rw [if_neg h1]

/-! ## Examples -/

theorem contours_none {S : Set Cell} (hS : S.Finite) (h : S = ∅) : contoursOf hS = [] := by
  cases hk : contoursOf hS with
  | nil => rfl
  | cons k ks =>
    have hm : k ∈ contoursOf hS := by rw [hk]; exact List.mem_cons_self
    obtain ⟨l, hl, -⟩ := List.mem_map.1 hm
    obtain ⟨e, t, rfl⟩ := List.exists_cons_of_ne_nil ((cycles_ok hS).choose_spec.1 l hl).1
    exact absurd e.2.1 (by simp [h])

theorem pixelate_none {A : Set (ℚ × ℚ)} (h : A = ∅) : pixelate A = [] := by
  have hc : cellsIn A = ∅ := by rw [h]; rfl
  unfold pixelate pixelContours
  rw [dif_pos (by rw [hc]; exact Set.finite_empty), contours_none _ hc]
  rfl

/-- The library which meets all assumptions of the large theorems makes nothing of nothing. -/
theorem square_empty : NothingFromNothing squareLib := by
  intro t
  show some (pixelate _) = _
  rw [pixelate_none]
  rw [Set.eq_empty_iff_forall_notMem]
  intro x hx
  cases t with
  | union => exact hx.elim (evenOdd_none x) (evenOdd_none x)
  | difference => exact evenOdd_none x hx.1
  | intersection => exact evenOdd_none x hx.1

example (t : ClipType) : squareLib.runClipperNil t (some []) none = some none :=
  C145_same squareLib square_empty t (p := some []) (p' := none) (q := none) (q' := none) rfl rfl

/-- A library which fails for nothing makes a difference. -/
example : (({ trivialLib with execute := fun _ _ _ => none } : ClipperLib).runClipperNil .difference (some []) none).map (·.getD []) ≠
    ({ trivialLib with execute := fun _ _ _ => none } : ClipperLib).runClipper .difference [] [] := by
  simp [ClipperLib.runClipperNil, ClipperLib.runClipper]

end Verif
