import Verif.Go.Strings
import Verif.Go.Float

/-! # Go's `strconv` package, as far as the code uses it -/
namespace Verif.Go

/-- Decimal digit character. -/
def digitChar (d : Nat) : Char := Char.ofNat (48 + d)

/-- Decimal digits of a natural number, with a bound for the number of recursive calls. -/
def decNatAux : Nat → Nat → Str
  | 0, n => [digitChar n]
  | k + 1, n => if n < 10 then [digitChar n] else decNatAux k (n / 10) ++ [digitChar (n % 10)]

/-- Decimal digits of a natural number, see `decNat_eq`. -/
def decNat (n : Nat) : Str := decNatAux n n

theorem decNatAux_eq (k k' n : Nat) (h : n ≤ k) (h' : n ≤ k') : decNatAux k n = decNatAux k' n := by
  induction k generalizing k' n with
  | zero =>
    obtain rfl : n = 0 := by omega
    cases k' <;> rfl
  | succ k ih =>
    cases k' with
    | zero =>
      obtain rfl : n = 0 := by omega
      rfl
    | succ k' =>
      unfold decNatAux
      split
      · rfl
      · rw [ih k' (n / 10) (by omega) (by omega)]

/-- The usual recursion for decimal digits. -/
theorem decNat_eq (n : Nat) : decNat n = if n < 10 then [digitChar n] else decNat (n / 10) ++ [digitChar (n % 10)] := by
  unfold decNat
  cases n with
  | zero => rfl
  | succ n =>
    rw [decNatAux]
    split
    · rfl
    · rw [decNatAux_eq n ((n + 1) / 10) _ (by omega) (by omega)]

/-- `strconv.FormatInt(m, 10)`, `strconv.Itoa` and the verb `%d`. -/
def formatInt (m : Int) : Str := if m < 0 then '-' :: decNat m.natAbs else decNat m.natAbs

/-- Exactly `k` decimal digits of `n % 10^k`, with leading zeros. -/
def decPad : Nat → Nat → Str
  | 0, _ => []
  | k + 1, n => decPad k (n / 10) ++ [digitChar (n % 10)]

/-- The verb `%0.<prec>f` (prec ≥ 1) for a finite float value: the exact value rounded to the nearest multiple of `10^-prec`, ties to the
even digit. A negative value keeps its sign even if all digits are zero. Negative zero is not modelled. -/
def formatFixed (prec : Nat) (x : ℚ) : Str :=
  let n := (roundEven (|x| * 10 ^ prec)).toNat
  (if x < 0 then ['-'] else []) ++ decNat (n / 10 ^ prec) ++ '.' :: decPad prec n

/-- Kinds of `strconv.NumError`. -/
inductive NumError where
  | syntaxError
  | range
deriving DecidableEq, Repr

/-- Value of a digit or letter in `strconv.ParseUint`. -/
def digitVal (c : Char) : Option Nat :=
  if '0' ≤ c ∧ c ≤ '9' then some (c.toNat - 48)
  else if 'a' ≤ c ∧ c ≤ 'z' then some (c.toNat - 97 + 10)
  else if 'A' ≤ c ∧ c ≤ 'Z' then some (c.toNat - 65 + 10)
  else none

/-- The digit loop of `strconv.ParseUint` for 64 bits. The second result tells whether an underscore was skipped. -/
def parseDigits (base : Nat) (base0 : Bool) : Str → Nat → Bool → Except NumError (Nat × Bool)
  | [], n, us => .ok (n, us)
  | c :: cs, n, us =>
    if c = '_' ∧ base0 then parseDigits base base0 cs n true
    else match digitVal c with
      | none => .error .syntaxError
      | some d =>
        if d ≥ base then .error .syntaxError
        else if n ≥ (2 ^ 64 - 1) / base + 1 then .error .range
        else if n * base + d > 2 ^ 64 - 1 then .error .range
        else parseDigits base base0 cs (n * base + d) us

/-- The loop of `strconv.underscoreOK`; `i` is the class of the previous character. -/
def underscoreLoop (hex : Bool) : Str → Char → Bool
  | [], i => i != '_'
  | c :: cs, i =>
    if ('0' ≤ c ∧ c ≤ '9') ∨ (hex ∧ (('a' ≤ c ∧ c ≤ 'f') ∨ ('A' ≤ c ∧ c ≤ 'F'))) then underscoreLoop hex cs '0'
    else if c = '_' then (if i ≠ '0' then false else underscoreLoop hex cs '_')
    else if i = '_' then false
    else underscoreLoop hex cs '!'

/-- `strconv.underscoreOK` (for a string without sign, as passed by `ParseUint`). -/
def underscoreOK (s : Str) : Bool :=
  match s with
  | '0' :: c :: rest =>
    if c = 'b' ∨ c = 'o' ∨ c = 'x' ∨ c = 'B' ∨ c = 'O' ∨ c = 'X' then underscoreLoop (c = 'x' ∨ c = 'X') rest '0'
    else underscoreLoop false s '^'
  | _ => underscoreLoop false s '^'

/-- Base and digits of a literal for base 0 in `strconv.ParseUint`. -/
def basePrefix (s : Str) : Nat × Str :=
  match s with
  | '0' :: c :: d :: rest =>
    if c = 'b' ∨ c = 'B' then (2, d :: rest)
    else if c = 'o' ∨ c = 'O' then (8, d :: rest)
    else if c = 'x' ∨ c = 'X' then (16, d :: rest)
    else (8, c :: d :: rest)
  | '0' :: rest => (8, rest)
  | s => (10, s)

/-- `strconv.ParseUint(s, base, 64)` for base 0 (`base0 = true`) or base 10. A failing result carries only the kind of error; the value
is 0 for a syntax error and the largest uint64 for a range error. -/
def parseUint (base0 : Bool) (s : Str) : Except NumError Nat :=
  if s = [] then .error .syntaxError
  else
    let (base, digits) := if base0 then basePrefix s else (10, s)
    match parseDigits base base0 digits 0 false with
    | .error e => .error e
    | .ok (n, us) => if us ∧ !underscoreOK s then .error .syntaxError else .ok n

/-- `strconv.ParseInt(s, base, 64)` for base 0 (`base0 = true`) or base 10: value and error. `strconv.Atoi` is the case of base 10. -/
def parseInt (base0 : Bool) (s : Str) : Int × Option NumError :=
  match s with
  | [] => (0, some .syntaxError)
  | c :: cs =>
    let neg : Bool := c = '-'
    let digits := if c = '+' ∨ c = '-' then cs else c :: cs
    match parseUint base0 digits with
    | .error .syntaxError => (0, some .syntaxError)
    | .error .range => if neg then (-2 ^ 63, some .range) else (2 ^ 63 - 1, some .range)
    | .ok un =>
      if !neg ∧ un ≥ 2 ^ 63 then (2 ^ 63 - 1, some .range)
      else if neg ∧ un > 2 ^ 63 then (-2 ^ 63, some .range)
      else (if neg then -(un : Int) else un, none)

/-! ## Laws -/

/-- A decimal digit. -/
def IsDigit (c : Char) : Prop := 48 ≤ c.toNat ∧ c.toNat ≤ 57

/-- Value of a digit. -/
@[irreducible] def dval (c : Char) : Nat := c.toNat - 48

theorem dval_def (c : Char) : dval c = c.toNat - 48 := by unfold dval; rfl

/-- Value of a digit string which follows digits of value `n`. -/
def digitsFrom : Nat → Str → Nat
  | n, [] => n
  | n, c :: s => digitsFrom (n * 10 + dval c) s

/-- Value of a digit string. -/
def digitsVal (s : Str) : Nat := digitsFrom 0 s

theorem digitsFrom_append (n : Nat) (a b : Str) : digitsFrom n (a ++ b) = digitsFrom (digitsFrom n a) b := by
  induction a generalizing n with
  | nil => rfl
  | cons c a ih => simp only [List.cons_append, digitsFrom, ih]

theorem digitChar_toNat {d : Nat} (h : d < 10) : (digitChar d).toNat = 48 + d := by
  unfold digitChar
  match d, h with
  | 0, _ | 1, _ | 2, _ | 3, _ | 4, _ | 5, _ | 6, _ | 7, _ | 8, _ | 9, _ => rfl

theorem isDigit_digitChar {d : Nat} (h : d < 10) : IsDigit (digitChar d) := by
  unfold IsDigit; rw [digitChar_toNat h]; omega

theorem decNat_digits (n : Nat) : ∀ c ∈ decNat n, IsDigit c := by
  induction n using Nat.strongRecOn with
  | ind n ih =>
    rw [decNat_eq]
    split
    · rename_i h; intro c hc; rw [List.mem_singleton] at hc; subst hc; exact isDigit_digitChar h
    · rename_i h
      intro c hc
      rcases List.mem_append.1 hc with hc | hc
      · exact ih (n / 10) (by omega) c hc
      · rw [List.mem_singleton] at hc; subst hc; exact isDigit_digitChar (Nat.mod_lt _ (by norm_num))

theorem decNat_ne_nil (n : Nat) : decNat n ≠ [] := by
  rw [decNat_eq]; split <;> simp

theorem digitsVal_append (a : Str) (c : Char) : digitsVal (a ++ [c]) = digitsVal a * 10 + dval c := by
  simp [digitsVal, digitsFrom_append, digitsFrom]

theorem digitsVal_decNat (n : Nat) : digitsVal (decNat n) = n := by
  induction n using Nat.strongRecOn with
  | ind n ih =>
    rw [decNat_eq]
    split
    · rename_i h
      have := digitChar_toNat h
      simp [digitsVal, digitsFrom, dval_def, this]
    · rename_i h
      rw [digitsVal_append, ih (n / 10) (by omega), dval_def, digitChar_toNat (Nat.mod_lt _ (by norm_num))]
      omega

theorem decNat_head (n : Nat) : ∃ c t, decNat n = c :: t ∧ (c = '0' → n = 0) := by
  induction n using Nat.strongRecOn with
  | ind n ih =>
    rw [decNat_eq]
    split
    · rename_i h
      refine ⟨digitChar n, [], rfl, fun h0 => ?_⟩
      have h1 := digitChar_toNat h
      rw [h0] at h1
      have : ('0' : Char).toNat = 48 := rfl
      omega
    · rename_i h
      obtain ⟨c, t, h1, h2⟩ := ih (n / 10) (by omega)
      exact ⟨c, t ++ [digitChar (n % 10)], by rw [h1]; rfl, fun h0 => by have := h2 h0; omega⟩

theorem decPad_length (k n : Nat) : (decPad k n).length = k := by
  induction k generalizing n with
  | zero => rfl
  | succ k ih => simp [decPad, ih]

theorem decPad_digits (k n : Nat) : ∀ c ∈ decPad k n, IsDigit c := by
  induction k generalizing n with
  | zero => simp [decPad]
  | succ k ih =>
    intro c hc
    simp only [decPad] at hc
    rcases List.mem_append.1 hc with hc | hc
    · exact ih _ c hc
    · rw [List.mem_singleton] at hc; subst hc; exact isDigit_digitChar (Nat.mod_lt _ (by norm_num))

theorem digitsVal_decPad (k n : Nat) : digitsVal (decPad k n) = n % 10 ^ k := by
  induction k generalizing n with
  | zero => simp [decPad, digitsVal, digitsFrom, Nat.mod_one]
  | succ k ih =>
    simp only [decPad]
    rw [digitsVal_append, ih, dval_def, digitChar_toNat (Nat.mod_lt _ (by norm_num)), pow_succ, mul_comm (10 ^ k) 10, Nat.mod_mul]
    omega

theorem IsDigit.digitVal {c : Char} (h : IsDigit c) : digitVal c = some (dval c) := by
  unfold Go.digitVal
  rw [if_pos, dval_def]
  exact ⟨Char.le_def.2 h.1, Char.le_def.2 h.2⟩

theorem IsDigit.ne_underscore {c : Char} (h : IsDigit c) : c ≠ '_' := by
  rintro rfl; revert h; unfold IsDigit; decide

theorem IsDigit.ne_minus {c : Char} (h : IsDigit c) : c ≠ '-' := by
  rintro rfl; revert h; unfold IsDigit; decide

theorem IsDigit.ne_plus {c : Char} (h : IsDigit c) : c ≠ '+' := by
  rintro rfl; revert h; unfold IsDigit; decide

theorem le_digitsFrom (s : Str) (n : Nat) : n ≤ digitsFrom n s := by
  induction s generalizing n with
  | nil => exact le_rfl
  | cons c s ih => exact le_trans (by omega) (ih (n * 10 + dval c))

/-- The digit loop for base 10 on a digit string. -/
theorem parseDigits_dec (base0 : Bool) (s : Str) (hs : ∀ c ∈ s, IsDigit c) (n : Nat) (us : Bool) (hn : n < 2 ^ 64) :
    parseDigits 10 base0 s n us =
      if digitsFrom n s < 2 ^ 64 then .ok (digitsFrom n s, us) else .error .range := by
  induction s generalizing n with
  | nil => rw [parseDigits, show digitsFrom n [] = n from rfl, if_pos hn]
  | cons c s ih =>
    have hc := hs c (by simp)
    have hmono := le_digitsFrom s (n * 10 + dval c)
    have h1 := hc.1
    have h2 := hc.2
    have h5 := dval_def c
    rw [parseDigits, show digitsFrom n (c :: s) = digitsFrom (n * 10 + dval c) s from rfl]
    rw [if_neg (by rintro ⟨h, _⟩; exact hc.ne_underscore h), hc.digitVal]
    simp only
    rw [if_neg (show ¬ dval c ≥ 10 by omega)]
    by_cases h3 : n ≥ (2 ^ 64 - 1) / 10 + 1
    · rw [if_pos h3, if_neg (show ¬ digitsFrom (n * 10 + dval c) s < 2 ^ 64 by omega)]
    · rw [if_neg h3]
      by_cases h4 : n * 10 + dval c > 2 ^ 64 - 1
      · rw [if_pos h4, if_neg (show ¬ digitsFrom (n * 10 + dval c) s < 2 ^ 64 by omega)]
      · rw [if_neg h4]
        exact ih (fun x hx => hs x (List.mem_cons_of_mem _ hx)) _ (by omega)

theorem parseUint_dec10 (s : Str) (hne : s ≠ []) (hs : ∀ c ∈ s, IsDigit c) :
    parseUint false s = if digitsVal s < 2 ^ 64 then .ok (digitsVal s) else .error .range := by
  unfold parseUint
  rw [if_neg hne]
  simp only [Bool.false_eq_true, if_false]
  rw [parseDigits_dec false s hs 0 false (by norm_num)]
  change (match if digitsVal s < 2 ^ 64 then Except.ok (digitsVal s, false) else Except.error NumError.range with
    | Except.error e => Except.error e
    | Except.ok (n, us) =>
      if us = true ∧ (!underscoreOK s) = true then Except.error NumError.syntaxError else Except.ok n) = _
  by_cases h : digitsVal s < 2 ^ 64
  · rw [if_pos h, if_pos h]; simp
  · rw [if_neg h, if_neg h]

/-- The text of a number is read back with base 0, up to the limits of uint64. -/
theorem parseUint_decNat (n : Nat) (hn : n < 2 ^ 64) : parseUint true (decNat n) = .ok n := by
  unfold parseUint
  rw [if_neg (decNat_ne_nil n)]
  have hp : parseDigits 10 true (decNat n) 0 false = .ok (n, false) := by
    rw [parseDigits_dec true _ (decNat_digits n) 0 false (by norm_num)]
    have := digitsVal_decNat n
    unfold digitsVal at this
    rw [this, if_pos hn]
  by_cases h0 : n = 0
  · subst h0; decide
  · obtain ⟨c, t, h1, h2⟩ := decNat_head n
    have hb : basePrefix (decNat n) = (10, decNat n) := by
      rw [h1]
      unfold basePrefix
      split
      · rename_i heq; injection heq with h _; exact absurd (h2 h) h0
      · rename_i heq; injection heq with h _; exact absurd (h2 h) h0
      · rfl
    simp [hb, hp]

/-- `ParseInt(FormatInt(m), 0, 64) = m` for every int64. -/
theorem parseInt_formatInt (base0 : Bool) (m : Int) (h1 : -2 ^ 63 ≤ m) (h2 : m < 2 ^ 63) :
    parseInt base0 (formatInt m) = (m, none) := by
  have hu : ∀ n : Nat, n < 2 ^ 64 → parseUint base0 (decNat n) = .ok n := by
    intro n hn
    cases base0 with
    | true => exact parseUint_decNat n hn
    | false => rw [parseUint_dec10 _ (decNat_ne_nil n) (decNat_digits n), digitsVal_decNat, if_pos hn]
  unfold formatInt
  split
  · rename_i hneg
    simp only [parseInt]
    rw [if_pos (Or.inr trivial), hu _ (by omega)]
    simp
    rw [if_neg (by omega)]
    simp [abs_of_neg hneg]
  · rename_i hneg
    obtain ⟨c, t, hd, _⟩ := decNat_head m.natAbs
    have hc : IsDigit c := decNat_digits m.natAbs c (by rw [hd]; simp)
    have := hu m.natAbs (by omega)
    rw [hd] at this ⊢
    simp only [parseInt]
    rw [if_neg (by rintro (h | h); exacts [hc.ne_plus h, hc.ne_minus h]), this]
    simp [hc.ne_minus]
    rw [if_neg (by omega)]
    simp; omega

theorem formatInt_chars (m : Int) : ∀ c ∈ formatInt m, c = '-' ∨ IsDigit c := by
  intro c hc
  unfold formatInt at hc
  split at hc
  · rcases List.mem_cons.1 hc with h | h
    · exact Or.inl h
    · exact Or.inr (decNat_digits _ c h)
  · exact Or.inr (decNat_digits _ c hc)

end Verif.Go
