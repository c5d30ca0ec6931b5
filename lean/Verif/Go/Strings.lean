import Verif.Go.Base
import Mathlib.Data.List.Basic
import Mathlib.Data.List.Infix

/-! # Go's `strings` package, as far as the code uses it

A Go string is modelled by its list of Unicode characters. Strings which are not valid UTF-8 are not modelled. -/
namespace Verif.Go

/-- A Go string. -/
abbrev Str := List Char

/-- `strings.Split` for a separator of one character. -/
def split (sep : Char) : Str → List Str
  | [] => [[]]
  | c :: cs =>
    if c = sep then [] :: split sep cs
    else match split sep cs with
      | h :: t => (c :: h) :: t
      | [] => [[c]]

/-- `strings.Join` for a separator of one character. -/
def join (sep : Char) : List Str → Str
  | [] => []
  | [s] => s
  | s :: t => s ++ sep :: join sep t

/-- `unicode.IsSpace`. -/
def isSpace (c : Char) : Bool :=
  c.toNat ∈ [9, 10, 11, 12, 13, 32, 0x85, 0xA0, 0x1680, 0x2028, 0x2029, 0x202f, 0x205f, 0x3000] ||
    (0x2000 ≤ c.toNat && c.toNat ≤ 0x200a)

/-- `strings.TrimSpace`. -/
def trimSpace (s : Str) : Str := ((s.dropWhile isSpace).reverse.dropWhile isSpace).reverse

/-- `strings.Contains`. -/
def contains : Str → Str → Bool
  | [], sub => sub.isEmpty
  | c :: cs, sub => sub.isPrefixOf (c :: cs) || contains cs sub

/-- `strings.Replace` with n = -1 for a non-empty `old`: scan from the left, no overlaps. The fuel is the length of the string. -/
def replaceFuel (old new : Str) : Nat → Str → Str
  | 0, s => s
  | _ + 1, [] => []
  | n + 1, c :: s => if old.isPrefixOf (c :: s) then new ++ replaceFuel old new n ((c :: s).drop old.length) else c :: replaceFuel old new n s

/-- `strings.Replace(s, old, new, -1)` for a non-empty `old`. -/
def replaceAll (old new s : Str) : Str := replaceFuel old new (s.length + 1) s

/-! ## Laws -/

theorem split_ne_nil (sep : Char) (s : Str) : split sep s ≠ [] := by
  cases s with
  | nil => simp [split]
  | cons c cs => simp only [split]; split <;> [simp; (split <;> simp)]

theorem split_eq_singleton {sep : Char} {s : Str} (h : sep ∉ s) : split sep s = [s] := by
  induction s with
  | nil => rfl
  | cons c cs ih =>
    simp only [List.mem_cons, not_or] at h
    simp only [split]
    rw [if_neg (fun h' => h.1 h'.symm), ih h.2]

theorem split_append {sep : Char} {a : Str} (h : sep ∉ a) (b : Str) : split sep (a ++ sep :: b) = a :: split sep b := by
  induction a with
  | nil => simp [split]
  | cons c cs ih =>
    simp only [List.mem_cons, not_or] at h
    simp only [List.cons_append, split]
    rw [if_neg (fun h' => h.1 h'.symm), ih h.2]

theorem join_split (sep : Char) (s : Str) : join sep (split sep s) = s := by
  induction s with
  | nil => rfl
  | cons c cs ih =>
    simp only [split]
    split
    · rename_i h
      obtain ⟨x, t, hx⟩ := List.exists_cons_of_ne_nil (split_ne_nil sep cs)
      rw [hx] at ih ⊢
      simp [join, ih, h]
    · split
      · rename_i h t hs
        rw [hs] at ih
        cases t with
        | nil => simp only [join] at ih ⊢; rw [ih]
        | cons y t => simp only [join, List.cons_append] at ih ⊢; rw [ih]
      · rename_i hs; exact absurd hs (split_ne_nil sep cs)

theorem split_join {sep : Char} {l : List Str} (hl : l ≠ []) (h : ∀ s ∈ l, sep ∉ s) : split sep (join sep l) = l := by
  induction l with
  | nil => exact absurd rfl hl
  | cons s t ih =>
    cases t with
    | nil => simp only [join]; exact split_eq_singleton (h s (by simp))
    | cons s' t =>
      simp only [join]
      rw [split_append (h s (by simp)), ih (by simp) (fun x hx => h x (List.mem_cons_of_mem _ hx))]

theorem sep_not_mem_split {sep : Char} {s p : Str} (h : p ∈ split sep s) : sep ∉ p := by
  induction s generalizing p with
  | nil => simp only [split, List.mem_singleton] at h; subst h; simp
  | cons c cs ih =>
    simp only [split] at h
    split at h
    · rcases List.mem_cons.1 h with rfl | h
      · simp
      · exact ih h
    · rename_i hc
      split at h
      · rename_i x t hs
        rcases List.mem_cons.1 h with rfl | h
        · simp only [List.mem_cons, not_or]
          exact ⟨fun h' => hc h'.symm, ih (by rw [hs]; simp)⟩
        · exact ih (by rw [hs]; exact List.mem_cons_of_mem _ h)
      · rename_i hs; exact absurd hs (split_ne_nil sep cs)

theorem contains_iff (s sub : Str) : contains s sub = true ↔ sub <:+: s := by
  induction s with
  | nil => simp [contains]
  | cons c cs ih => simp only [contains, Bool.or_eq_true, List.isPrefixOf_iff_prefix, ih, List.infix_cons_iff]

theorem contains_char (s : Str) (c : Char) : contains s [c] = true ↔ c ∈ s := by
  rw [contains_iff]
  exact List.singleton_infix_iff ..

/-- A string is blank if it consists of white space only. -/
def Blank (s : Str) : Prop := ∀ c ∈ s, isSpace c = true

theorem dropWhile_nil {α : Type} (p : α → Bool) (l : List α) : l.dropWhile p = [] ↔ ∀ x ∈ l, p x = true := by
  induction l with
  | nil => simp
  | cons a l ih => rw [List.dropWhile_cons]; split <;> simp_all

theorem takeWhile_all {α : Type} (p : α → Bool) (l : List α) : ∀ x ∈ l.takeWhile p, p x = true := by
  induction l with
  | nil => simp
  | cons a l ih => rw [List.takeWhile_cons]; split <;> simp_all

theorem trimSpace_eq_nil (s : Str) : trimSpace s = [] ↔ Blank s := by
  unfold trimSpace Blank
  rw [List.reverse_eq_nil_iff, dropWhile_nil]
  simp only [List.mem_reverse]
  constructor
  · intro h
    have h2 := List.takeWhile_append_dropWhile (p := isSpace) (l := s)
    intro c hc
    rw [← h2] at hc
    rcases List.mem_append.1 hc with hc | hc
    · exact takeWhile_all isSpace s c hc
    · exact h c hc
  · intro h c hc
    exact h c (List.dropWhile_sublist _ |>.subset hc)

theorem trimSpace_head {s : Str} {c : Char} {t : Str} (h : trimSpace s = c :: t) : isSpace c = false := by
  unfold trimSpace at h
  set d := s.dropWhile isSpace with hd
  -- the trimmed string is a prefix of `d`, whose first character is no space
  have hp : (d.reverse.dropWhile isSpace).reverse <+: d := by
    have := List.dropWhile_suffix (l := d.reverse) isSpace
    have h' := List.reverse_prefix.2 this
    simpa using h'
  rw [h] at hp
  obtain ⟨r, hr⟩ := hp
  have hne : s.dropWhile isSpace ≠ [] := by rw [← hd, ← hr]; simp
  have := List.head_dropWhile_not isSpace hne
  have hh : (s.dropWhile isSpace).head hne = c := by
    simp only [← hd, ← hr]; rfl
  rw [hh] at this
  simpa using this

end Verif.Go
