import Verif.Model.Builder
import Verif.Spec.Request
import Verif.Lemmas.Float

/-! # Reading back printed numbers and lines -/
namespace Verif.Go
open Verif.Model Verif.Spec Verif.Spec.GCode

theorem gdigit_of_isDigit {c : Char} (h : IsDigit c) : GCode.digit c = some (dval c) := by
  unfold GCode.digit
  rw [if_pos ⟨Char.le_def.2 h.1, Char.le_def.2 h.2⟩, dval_def]
  rfl

theorem gdigits_of_isDigit {s : Str} (hs : ∀ c ∈ s, IsDigit c) (n : Nat) : GCode.digits n s = some (digitsFrom n s) := by
  induction s generalizing n with
  | nil => rfl
  | cons c s ih =>
    rw [GCode.digits, gdigit_of_isDigit (hs c (by simp))]
    simp only
    rw [ih (fun x hx => hs x (List.mem_cons_of_mem _ hx)), mul_comm]
    rfl

theorem IsDigit.ne_of {c d : Char} (h : IsDigit c) (hd : d.toNat < 48 ∨ 57 < d.toNat) : c ≠ d := by
  rintro rfl
  have h1 := h.1
  have h2 := h.2
  omega

theorem not_mem_of_digits {s : Str} (hs : ∀ c ∈ s, IsDigit c) {d : Char} (hd : d.toNat < 48 ∨ 57 < d.toNat) : d ∉ s :=
  fun h => (hs d h).ne_of hd rfl

/-- The part of `%0.<k>f` after the sign. -/
theorem unsigned_fixed (k n : Nat) (hk : 1 ≤ k) : unsigned (decNat (n / 10 ^ k) ++ '.' :: decPad k n) = some ((n : ℚ) / 10 ^ k) := by
  unfold unsigned
  have h1 := decNat_digits (n / 10 ^ k)
  have h2 := decPad_digits k n
  rw [split_append (not_mem_of_digits h1 (by decide)), split_eq_singleton (not_mem_of_digits h2 (by decide))]
  have hp : decPad k n ≠ [] := by
    intro h; have := decPad_length k n; rw [h] at this; simp at this; omega
  simp only
  rw [if_neg (by rintro (h | h); exacts [decNat_ne_nil _ h, hp h]), gdigits_of_isDigit h1, gdigits_of_isDigit h2]
  simp only [decPad_length, Option.some.injEq]
  have e1 := digitsVal_decNat (n / 10 ^ k)
  have e2 := digitsVal_decPad k n
  unfold digitsVal at e1 e2
  rw [e1, e2]
  have := Nat.div_add_mod n (10 ^ k)
  have h3 : (n : ℚ) = (10 : ℚ) ^ k * ((n / 10 ^ k : Nat) : ℚ) + ((n % 10 ^ k : Nat) : ℚ) := by
    exact_mod_cast this.symm
  have hp : (10 : ℚ) ^ k ≠ 0 := by positivity
  field_simp
  rw [h3]; ring

theorem number_of_head {s : Str} {c : Char} {t : Str} (h : s = c :: t) (hc : c ≠ '-') : number s = unsigned s := by
  subst h
  unfold number
  split
  · rename_i heq; injection heq with h _; exact absurd h hc
  · rfl

/-- A printed fixed point number is read back as the rounded value. -/
theorem number_formatFixed (k : Nat) (hk : 1 ≤ k) (x : ℚ) : number (formatFixed k x) = some (decimals k x) := by
  unfold formatFixed decimals
  simp only
  have hnn : 0 ≤ roundEven (|x| * 10 ^ k) := int_le_roundEven (by push_cast; positivity)
  obtain ⟨n, hn⟩ := Int.eq_ofNat_of_zero_le hnn
  rw [hn]
  simp only [Int.toNat_natCast]
  by_cases hx : x < 0
  · rw [if_pos hx]
    simp only [List.cons_append, List.nil_append, number, unsigned_fixed k n hk, Option.map_some, Option.some.injEq]
    rw [abs_of_neg hx, neg_mul, roundEven_neg] at hn
    have : roundEven (x * 10 ^ k) = -(n : Int) := by omega
    rw [this]; push_cast; ring
  · rw [if_neg hx]
    simp only [List.nil_append]
    obtain ⟨c, t, hd, _⟩ := decNat_head (n / 10 ^ k)
    have hc : IsDigit c := decNat_digits (n / 10 ^ k) c (by rw [hd]; simp)
    rw [number_of_head (c := c) (t := t ++ '.' :: decPad k n) (by rw [hd]; rfl) hc.ne_minus, unsigned_fixed k n hk]
    rw [abs_of_nonneg (not_lt.1 hx)] at hn
    rw [hn]; push_cast; rfl

theorem unsigned_decNat (n : Nat) : unsigned (decNat n) = some (n : ℚ) := by
  unfold unsigned
  have h1 := decNat_digits n
  rw [split_eq_singleton (not_mem_of_digits h1 (by decide))]
  simp only
  rw [if_neg (decNat_ne_nil n), gdigits_of_isDigit h1]
  have e1 := digitsVal_decNat n
  unfold digitsVal at e1
  rw [e1]; rfl

/-- A printed integer is read back. -/
theorem number_formatInt (m : Int) : number (formatInt m) = some (m : ℚ) := by
  unfold formatInt
  split
  · rename_i h
    simp only [number, unsigned_decNat, Option.map_some, Option.some.injEq]
    have : (m.natAbs : Int) = -m := by omega
    have h2 : ((m.natAbs : Int) : ℚ) = ((-m : Int) : ℚ) := by rw [this]
    push_cast at h2
    rw [Nat.cast_natAbs]; push_cast; rw [h2]; ring
  · rename_i h
    obtain ⟨c, t, hd, _⟩ := decNat_head m.natAbs
    have hc : IsDigit c := decNat_digits m.natAbs c (by rw [hd]; simp)
    rw [number_of_head hd hc.ne_minus, unsigned_decNat]
    have : (m.natAbs : Int) = m := by omega
    have h2 : ((m.natAbs : Int) : ℚ) = ((m : Int) : ℚ) := by rw [this]
    rw [Nat.cast_natAbs]; push_cast at h2 ⊢; rw [h2]

/-- Characters of a printed fixed point number. -/
theorem formatFixed_chars (k : Nat) (x : ℚ) : ∀ c ∈ formatFixed k x, c = '-' ∨ c = '.' ∨ IsDigit c := by
  intro c hc
  unfold formatFixed at hc
  simp only at hc
  rcases List.mem_append.1 hc with hc | hc
  · rcases List.mem_append.1 hc with hc | hc
    · split at hc
      · left; simpa using hc
      · simp at hc
    · exact Or.inr (Or.inr (decNat_digits _ c hc))
  · rcases List.mem_cons.1 hc with hc | hc
    · exact Or.inr (Or.inl hc)
    · exact Or.inr (Or.inr (decPad_digits _ _ c hc))

theorem not_mem_formatFixed (k : Nat) (x : ℚ) {d : Char} (h1 : d ≠ '-') (h2 : d ≠ '.') (hd : d.toNat < 48 ∨ 57 < d.toNat) : d ∉ formatFixed k x := by
  intro h
  rcases formatFixed_chars k x d h with h | h | h
  · exact h1 h
  · exact h2 h
  · exact h.ne_of hd rfl

theorem not_mem_formatInt (m : Int) {d : Char} (h1 : d ≠ '-') (hd : d.toNat < 48 ∨ 57 < d.toNat) : d ∉ formatInt m := by
  intro h
  rcases formatInt_chars m d h with h | h
  · exact h1 h
  · exact h.ne_of hd rfl

/-! ## Lines -/

theorem split_append' (sep : Char) (a b : Str) : split sep (a ++ sep :: b) = split sep a ++ split sep b := by
  induction a with
  | nil => simp [split]
  | cons c a ih =>
    simp only [List.cons_append, split]
    split
    · rw [ih]; rfl
    · rw [ih]
      obtain ⟨x, t, hx⟩ := List.exists_cons_of_ne_nil (split_ne_nil sep a)
      rw [hx]; rfl

/-- A text that is empty or ends with a newline. -/
def Closed (b : Str) : Prop := b = [] ∨ ∃ p, b = p ++ ['\n']

theorem closed_append_newline (b : Str) : Closed (b ++ ['\n']) := Or.inr ⟨b, rfl⟩

theorem line_nil (st : State) : line st [] = st := by
  unfold line
  cases st with
  | none => rfl
  | some r => simp [split]

/-- Interpreting one more text after complete lines. -/
theorem run_append {b : Str} (hb : Closed b) (l : Str) : run (b ++ l) = (split '\n' l).foldl line (run b) := by
  rcases hb with rfl | ⟨p, rfl⟩
  · simp [run, split, line_nil]
  · unfold run
    rw [List.append_assoc, List.singleton_append, split_append', List.foldl_append, split_append', List.foldl_append]
    simp [split, line_nil]

/-- Interpreting one more line. -/
theorem run_append_line {b : Str} (hb : Closed b) {l : Str} (hl : '\n' ∉ l) : run (b ++ l ++ ['\n']) = line (run b) l := by
  rw [List.append_assoc, run_append hb, split_append hl]
  simp [split, line_nil]

/-- A line made of words. -/
theorem split_words {a : Str} {ws : List Str} (ha : ' ' ∉ a) (hw : ∀ w ∈ ws, ' ' ∉ w) :
    split ' ' (a ++ ws.flatMap (fun w => ' ' :: w)) = a :: ws := by
  induction ws generalizing a with
  | nil => simpa using split_eq_singleton ha
  | cons w ws ih =>
    simp only [List.flatMap_cons, List.cons_append]
    rw [split_append ha, ih (hw w (by simp)) (fun x hx => hw x (List.mem_cons_of_mem _ hx))]

end Verif.Go
