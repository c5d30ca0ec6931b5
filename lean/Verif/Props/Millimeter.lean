import Verif.Model.Flags
import Verif.Spec.Flags
import Verif.Lemmas.Groups
import Verif.Lemmas.Float

/-! # Lengths in the options (C94) -/
namespace Verif
open Go Model Spec

theorem isDigit_iff (c : Char) : c.isDigit = true ↔ IsDigit c := by
  simp only [Char.isDigit, IsDigit, Bool.and_eq_true, decide_eq_true_eq, Char.toNat, UInt32.le_iff_toNat_le]
  exact Iff.rfl

theorem numeral_digit {c : Char} {d : Nat} : (numeral c = some d ∧ d < 10) ↔ IsDigit c ∧ d = dval c := by
  rw [← digitVal_eq_numeral]
  constructor
  · rintro ⟨h, hd⟩
    unfold digitVal at h
    split at h
    · rename_i hc
      refine ⟨⟨Char.le_def.1 hc.1, Char.le_def.1 hc.2⟩, ?_⟩
      rw [dval_def]; injection h with h; exact h.symm
    · split at h
      · injection h with h; omega
      · split at h
        · injection h with h; omega
        · cases h
  · rintro ⟨h, rfl⟩
    refine ⟨h.digitVal, ?_⟩
    rw [dval_def]; have := h.1; have := h.2; omega

theorem numeralFrom_dec (s : Str) (n v : Nat) : NumeralFrom 10 n s v ↔ (∀ c ∈ s, IsDigit c) ∧ v = digitsFrom n s := by
  induction s generalizing n with
  | nil => simp [numeralFrom_nil, digitsFrom]
  | cons c s ih =>
    rw [numeralFrom_cons]
    simp only [ih, digitsFrom, List.mem_cons, forall_eq_or_imp]
    constructor
    · rintro ⟨d, h1, h2, h3, h4⟩
      obtain ⟨h5, rfl⟩ := numeral_digit.1 ⟨h1, h2⟩
      exact ⟨⟨h5, h3⟩, h4⟩
    · rintro ⟨⟨h1, h2⟩, h3⟩
      obtain ⟨h4, h5⟩ := numeral_digit.2 ⟨h1, rfl⟩
      exact ⟨_, h4, h5, h2, h3⟩

theorem uDec_iff (s : Str) (n : Nat) : UDec s n ↔ s ≠ [] ∧ (∀ c ∈ s, IsDigit c) ∧ n = digitsVal s := by
  unfold UDec
  rw [isNumeral_iff, numeralFrom_dec]
  rfl

theorem all_isDigit (s : Str) : s.all Char.isDigit = true ↔ ∀ c ∈ s, IsDigit c := by
  simp [List.all_eq_true, isDigit_iff]

theorem span_digits (s : Str) (rest : Str) (hs : ∀ c ∈ s, IsDigit c) (hr : ∀ c t, rest = c :: t → ¬ IsDigit c) :
    leadingDigits (s ++ rest) = (s, rest) := by
  unfold leadingDigits
  rw [List.span_eq_takeWhile_dropWhile]
  have hs' : ∀ c ∈ s, c.isDigit = true := fun c hc => (isDigit_iff c).2 (hs c hc)
  have hd : rest.takeWhile Char.isDigit = [] ∧ rest.dropWhile Char.isDigit = rest := by
    cases rest with
    | nil => simp
    | cons c t =>
      have := hr c t rfl
      rw [← isDigit_iff] at this
      simp [this]
  rw [List.takeWhile_append_of_pos hs', List.dropWhile_append_of_pos hs', hd.1, hd.2, List.append_nil]

theorem leadingDigits_spec (s : Str) : s = (leadingDigits s).1 ++ (leadingDigits s).2 ∧ (∀ c ∈ (leadingDigits s).1, IsDigit c) ∧
    ∀ c t, (leadingDigits s).2 = c :: t → ¬ IsDigit c := by
  unfold leadingDigits
  rw [List.span_eq_takeWhile_dropWhile]
  refine ⟨List.takeWhile_append_dropWhile.symm, fun c hc => (isDigit_iff c).1 (takeWhile_all _ _ c hc), fun c t h hc => ?_⟩
  have hne : s.dropWhile Char.isDigit ≠ [] := by simp only at h; rw [h]; simp
  have := List.head_dropWhile_not Char.isDigit hne
  simp only [show s.dropWhile Char.isDigit = c :: t from h, List.head_cons] at this
  rw [(isDigit_iff c).2 hc] at this
  cases this

theorem readSign_digit (c : Char) (t : Str) (h1 : c ≠ '-') (h2 : c ≠ '+') : readSign (c :: t) = (false, c :: t) := by
  unfold readSign
  split
  · rename_i h; injection h with h _; exact absurd h h1
  · rename_i h; injection h with h _; exact absurd h h2
  · rfl

theorem readSign_nil : readSign [] = (false, []) := rfl

/-- What `readSign` finds. -/
theorem readSign_spec (s : Str) : ∃ sign, s = sign ++ (readSign s).2 ∧
    (sign = [] ∧ (readSign s).1 = false ∨ sign = ['+'] ∧ (readSign s).1 = false ∨ sign = ['-'] ∧ (readSign s).1 = true) := by
  cases s with
  | nil => exact ⟨[], rfl, .inl ⟨rfl, rfl⟩⟩
  | cons c t =>
    by_cases h1 : c = '-'
    · subst h1; exact ⟨['-'], rfl, .inr (.inr ⟨rfl, rfl⟩)⟩
    · by_cases h2 : c = '+'
      · subst h2; exact ⟨['+'], rfl, .inr (.inl ⟨rfl, rfl⟩)⟩
      · rw [readSign_digit c t h1 h2]; exact ⟨[], rfl, .inl ⟨rfl, rfl⟩⟩

theorem readExponent_iff (s : Str) (e : Int) : readExponent s = some e ↔ ExpLit s e := by
  unfold ExpLit
  cases s with
  | nil => simp [readExponent, eq_comm]
  | cons c s =>
    rw [readExponent]
    by_cases hc : c = 'e' ∨ c = 'E'
    · rw [if_pos hc]
      constructor
      · intro h
        dsimp only at h
        split at h
        · cases h
        · rename_i hn
          simp only [Bool.not_eq_true', not_or, Bool.not_eq_false, all_isDigit] at hn
          injection h with h
          obtain ⟨sign, h1, h2⟩ := readSign_spec s
          refine .inr ⟨c, s, (readSign s).2, rfl, hc, ?_⟩
          rcases h2 with ⟨rfl, h2⟩ | ⟨rfl, h2⟩ | ⟨rfl, h2⟩
          · rw [h2] at h
            simp only [Bool.false_eq_true, if_false] at h
            exact .inl ⟨.inl h1, (uDec_iff _ _).2 ⟨hn.1, hn.2, by omega⟩, by omega⟩
          · rw [h2] at h
            simp only [Bool.false_eq_true, if_false] at h
            exact .inl ⟨.inr h1, (uDec_iff _ _).2 ⟨hn.1, hn.2, by omega⟩, by omega⟩
          · rw [h2] at h
            simp only [if_true] at h
            exact .inr ⟨h1, (uDec_iff _ _).2 ⟨hn.1, hn.2, by omega⟩, by omega⟩
      · rintro (⟨h, -⟩ | ⟨c', t, u, h1, -, h2⟩)
        · cases h
        · obtain ⟨rfl, rfl⟩ := List.cons.inj h1
          have key : ∀ b, readSign s = (b, u) → UDec u e.natAbs → e = (if b = true then -(e.natAbs : Int) else e.natAbs) →
              (if (readSign s).2 = [] ∨ (!(readSign s).2.all Char.isDigit) = true then none
                else some (if (readSign s).1 = true then -(digitsVal (readSign s).2 : Int) else digitsVal (readSign s).2)) = some e := by
            intro b hb hu he
            obtain ⟨h3, h4, h5⟩ := (uDec_iff _ _).1 hu
            rw [hb]
            have : u.all Char.isDigit = true := (all_isDigit u).2 h4
            simp only [h3, this, Bool.not_true, Bool.false_eq_true, or_self, if_false]
            rw [← h5, ← he]
          have hdig : ∀ n, UDec u n → readSign u = (false, u) := by
            intro n hu
            obtain ⟨h3, h4, -⟩ := (uDec_iff _ _).1 hu
            cases u with
            | nil => exact absurd rfl h3
            | cons d u =>
              have hd := h4 d (by simp)
              exact readSign_digit d u hd.ne_minus hd.ne_plus
          rcases h2 with ⟨rfl | rfl, hu, h0⟩ | ⟨rfl, hu, h0⟩
          · exact key false (hdig _ hu) hu (by simp only [Bool.false_eq_true, if_false]; omega)
          · exact key false rfl hu (by simp only [Bool.false_eq_true, if_false]; omega)
          · exact key true rfl hu (by simp only [if_true]; omega)
    · rw [if_neg hc]
      simp only [reduceCtorEq, false_and, false_or, false_iff, not_exists]
      rintro c' t u ⟨h1, h2, -⟩
      obtain ⟨rfl, rfl⟩ := List.cons.inj h1
      exact hc h2

theorem expLit_head {s : Str} {e : Int} (h : ExpLit s e) : ∀ c t, s = c :: t → ¬ IsDigit c ∧ c ≠ '.' := by
  rintro c t rfl
  rcases h with ⟨h, -⟩ | ⟨c', t', u, h1, h2, -⟩
  · cases h
  · obtain ⟨rfl, rfl⟩ := List.cons.inj h1
    rcases h2 with rfl | rfl <;> exact ⟨by unfold IsDigit; decide, by decide⟩

/-- Fraction digits. -/
theorem frac_spec (r : Str) (p : Str × Str) (hp : p = readFraction r) :
    (r = p.2 ∧ p.1 = [] ∧ ∀ t, r ≠ '.' :: t) ∨ (r = '.' :: (p.1 ++ p.2) ∧ (∀ c ∈ p.1, IsDigit c) ∧ ∀ c t, p.2 = c :: t → ¬ IsDigit c) := by
  unfold readFraction at hp
  split at hp
  · rename_i r'
    subst hp
    have := leadingDigits_spec r'
    exact .inr ⟨by rw [← this.1], this.2⟩
  · rename_i h
    subst hp
    exact .inl ⟨rfl, rfl, fun t ht => h t ht⟩

theorem readDecimal_iff (s : Str) (x : ℚ) : readDecimal s = some x ↔ DecLit s x := by
  unfold readDecimal
  dsimp only
  constructor
  · intro h
    obtain ⟨sign, hs, hsg⟩ := readSign_spec s
    have h1 := leadingDigits_spec (readSign s).2
    have h2 := frac_spec (leadingDigits (readSign s).2).2 _ rfl
    set I := leadingDigits (readSign s).2 with hI
    set F := readFraction I.2 with hF
    split at h
    · cases h
    · rename_i hne
      simp only [Option.map_eq_some_iff] at h
      obtain ⟨e, he, hx⟩ := h
      rw [readExponent_iff] at he
      refine ⟨sign, if (readSign s).1 = true then -1 else 1, I.1, F.1, F.2, digitsVal (I.1 ++ F.1), e, ?_, ?_, ?_, he, hx.symm⟩
      · rcases hsg with ⟨h3, h4⟩ | ⟨h3, h4⟩ | ⟨h3, h4⟩
        · exact .inl ⟨h3, by simp [h4]⟩
        · exact .inr (.inl ⟨h3, by simp [h4]⟩)
        · exact .inr (.inr ⟨h3, by simp [h4]⟩)
      · rcases h2 with ⟨h3, h4, -⟩ | ⟨h3, -⟩
        · refine .inl ⟨?_, h4⟩
          rw [← h3, ← h1.1, ← hs]
        · refine .inr ?_
          rw [← h3, ← h1.1, ← hs]
      · rw [uDec_iff]
        refine ⟨by simpa [List.append_eq_nil_iff] using hne, ?_, rfl⟩
        intro c hc
        rcases List.mem_append.1 hc with hc | hc
        · exact h1.2.1 c hc
        · rcases h2 with ⟨-, h4, -⟩ | ⟨-, h4, -⟩
          · rw [h4] at hc; cases hc
          · exact h4 c hc
  · rintro ⟨sign, σ, a, b, ex, n, e, h1, h2, h3, h4, rfl⟩
    obtain ⟨hne, hdig, rfl⟩ := (uDec_iff _ _).1 h3
    have hda : ∀ c ∈ a, IsDigit c := fun c hc => hdig c (List.mem_append_left _ hc)
    have hdb : ∀ c ∈ b, IsDigit c := fun c hc => hdig c (List.mem_append_right _ hc)
    have hex := expLit_head h4
    -- the rest after the sign
    obtain ⟨rest, hrest, hs⟩ : ∃ rest, ((rest = a ++ ex ∧ b = []) ∨ rest = a ++ '.' :: (b ++ ex)) ∧ s = sign ++ rest := by
      rcases h2 with ⟨h2, h5⟩ | h2
      · exact ⟨_, .inl ⟨rfl, h5⟩, h2⟩
      · exact ⟨_, .inr rfl, h2⟩
    have hrs : readSign rest = (false, rest) := by
      cases hr : rest with
      | nil => rfl
      | cons c t =>
        have : c ≠ '-' ∧ c ≠ '+' := by
          cases a with
          | cons d a =>
            have hd := hda d (by simp)
            have : c = d := by
              rcases hrest with ⟨h, -⟩ | h
              · rw [hr] at h; exact (List.cons.inj h).1
              · rw [hr] at h; exact (List.cons.inj h).1
            subst this
            exact ⟨hd.ne_minus, hd.ne_plus⟩
          | nil =>
            rcases hrest with ⟨h, hb⟩ | h
            · subst hb; exact absurd rfl hne
            · rw [hr] at h
              obtain ⟨rfl, -⟩ := List.cons.inj h
              exact ⟨by decide, by decide⟩
        exact readSign_digit c t this.1 this.2
    have hsgn : readSign s = (if σ = -1 then true else false, rest) ∧ (if σ = -1 then (-1 : ℚ) else 1) = σ := by
      rcases h1 with ⟨rfl, rfl⟩ | ⟨rfl, rfl⟩ | ⟨rfl, rfl⟩
      · rw [hs, List.nil_append, hrs]; norm_num
      · rw [hs]; norm_num; rfl
      · rw [hs]; simp; rfl
    rw [hsgn.1]
    dsimp only
    have hI : leadingDigits rest = (a, if rest = a ++ ex ∧ b = [] then ex else '.' :: (b ++ ex)) := by
      by_cases hc : rest = a ++ ex ∧ b = []
      · rw [if_pos hc, hc.1]
        exact span_digits a ex hda fun c t h => (hex c t h).1
      · rw [if_neg hc]
        rcases hrest with h | h
        · exact absurd h hc
        · rw [h]
          exact span_digits a _ hda fun c t h => by
            obtain ⟨rfl, -⟩ := List.cons.inj h; unfold IsDigit; decide
    rw [hI]
    dsimp only
    have hF : readFraction (if rest = a ++ ex ∧ b = [] then ex else '.' :: (b ++ ex)) = (b, ex) := by
      by_cases hc : rest = a ++ ex ∧ b = []
      · rw [if_pos hc, hc.2]
        unfold readFraction
        split
        · rename_i r; exact absurd rfl (hex _ _ rfl).2
        · rfl
      · rw [if_neg hc]
        exact span_digits b ex hdb fun c t h => (hex c t h).1
    rw [hF]
    dsimp only
    rw [if_neg (by rintro ⟨rfl, rfl⟩; exact hne rfl), (readExponent_iff _ _).2 h4]
    simp only [Option.map_some, Option.some.injEq]
    congr 2
    by_cases hσ : σ = -1
    · simp [hσ]
    · have h6 := hsgn.2
      rw [if_neg hσ] at h6
      subst h6
      norm_num

/-! ## Underscores -/

/-- The check of underscores, by places. -/
theorem underscoreLoop_iff (hex : Bool) (s : Str) (i : Char) : underscoreLoop hex s i = true ↔
    (∀ l r, s = l ++ '_' :: r → (l = [] ∧ i = '0' ∨ ∃ c, l.getLast? = some c ∧ DigitFor hex c) ∧ ∃ c, r.head? = some c ∧ DigitFor hex c) ∧
    (i = '_' → ∃ c, s.head? = some c ∧ DigitFor hex c) := by
  have hu : ¬ DigitFor hex '_' := fun h => digitFor_ne h rfl
  induction s generalizing i with
  | nil => simp [underscoreLoop]
  | cons c s ih =>
    by_cases hc : DigitFor hex c
    · rw [loop_digit hc]
      refine (ih '0').trans ?_
      have hne := digitFor_ne hc
      constructor
      · rintro ⟨h1, -⟩
        refine ⟨fun l r h => ?_, fun _ => ⟨c, rfl, hc⟩⟩
        cases l with
        | nil => exact absurd (List.cons.inj h).1 hne
        | cons d l =>
          obtain ⟨rfl, rfl⟩ := List.cons.inj h
          obtain ⟨h2, h3⟩ := h1 l r rfl
          refine ⟨.inr ?_, h3⟩
          rcases h2 with ⟨rfl, -⟩ | ⟨d, h2, h4⟩
          · exact ⟨c, rfl, hc⟩
          · exact ⟨d, by rw [List.getLast?_cons, h2]; rfl, h4⟩
      · rintro ⟨h1, -⟩
        refine ⟨fun l r h => ?_, fun h => absurd h (by decide)⟩
        obtain ⟨h2, h3⟩ := h1 (c :: l) r (by rw [h]; rfl)
        refine ⟨?_, h3⟩
        rcases h2 with ⟨h2, -⟩ | ⟨d, h2, h4⟩
        · cases h2
        · cases l with
          | nil => exact .inl ⟨rfl, rfl⟩
          | cons e l => exact .inr ⟨d, by rwa [List.getLast?_cons_cons] at h2, h4⟩
    · by_cases hu' : c = '_'
      · subst hu'
        rw [loop_underscore]
        by_cases hi : i = '0'
        · subst hi
          rw [if_neg (by simp)]
          refine (ih '_').trans ?_
          constructor
          · rintro ⟨h1, h2⟩
            obtain ⟨d, h2, h3⟩ := h2 rfl
            refine ⟨fun l r h => ?_, fun h => absurd h (by decide)⟩
            cases l with
            | nil =>
              obtain ⟨-, rfl⟩ := List.cons.inj h
              exact ⟨.inl ⟨rfl, rfl⟩, d, h2, h3⟩
            | cons e l =>
              obtain ⟨rfl, rfl⟩ := List.cons.inj h
              obtain ⟨h4, h5⟩ := h1 l r rfl
              refine ⟨.inr ?_, h5⟩
              rcases h4 with ⟨-, h4⟩ | ⟨f, h4, h6⟩
              · exact absurd h4 (by decide)
              · exact ⟨f, by rw [List.getLast?_cons, h4]; rfl, h6⟩
          · rintro ⟨h1, -⟩
            have h2 := (h1 [] s rfl).2
            refine ⟨fun l r h => ?_, fun _ => h2⟩
            obtain ⟨h3, h4⟩ := h1 ('_' :: l) r (by rw [h]; rfl)
            refine ⟨.inr ?_, h4⟩
            rcases h3 with ⟨h3, -⟩ | ⟨f, h3, h5⟩
            · cases h3
            · cases l with
              | nil =>
                obtain ⟨d, h2, h6⟩ := h2
                rw [h] at h2
                cases h2
                exact absurd h6 hu
              | cons e l => exact ⟨f, by rwa [List.getLast?_cons_cons] at h3, h5⟩
        · rw [if_pos hi]
          refine ⟨fun h => by simp at h, ?_⟩
          rintro ⟨h1, -⟩
          rcases (h1 [] s rfl).1 with ⟨-, h⟩ | ⟨d, h, -⟩
          · exact absurd h hi
          · cases h
      · have e : underscoreLoop hex (c :: s) i = if i = '_' then false else underscoreLoop hex s '!' := by
          unfold DigitFor at hc
          rw [underscoreLoop, if_neg hc, if_neg hu']
        rw [e]
        by_cases hi : i = '_'
        · rw [if_pos hi]
          refine ⟨fun h => by simp at h, ?_⟩
          rintro ⟨-, h⟩
          obtain ⟨d, h, h'⟩ := h hi
          cases h
          exact absurd h' hc
        · rw [if_neg hi]
          refine (ih '!').trans ?_
          constructor
          · rintro ⟨h1, -⟩
            refine ⟨fun l r h => ?_, fun h => absurd h hi⟩
            cases l with
            | nil => exact absurd (List.cons.inj h).1 hu'
            | cons d l =>
              obtain ⟨rfl, rfl⟩ := List.cons.inj h
              obtain ⟨h2, h3⟩ := h1 l r rfl
              refine ⟨.inr ?_, h3⟩
              rcases h2 with ⟨-, h2⟩ | ⟨d, h2, h4⟩
              · exact absurd h2 (by decide)
              · exact ⟨d, by rw [List.getLast?_cons, h2]; rfl, h4⟩
          · rintro ⟨h1, -⟩
            refine ⟨fun l r h => ?_, fun h => absurd h (by decide)⟩
            obtain ⟨h2, h3⟩ := h1 (c :: l) r (by rw [h]; rfl)
            refine ⟨.inr ?_, h3⟩
            rcases h2 with ⟨h2, -⟩ | ⟨d, h2, h4⟩
            · cases h2
            · cases l with
              | nil => cases h2; exact absurd h4 hc
              | cons e l => exact ⟨d, by rwa [List.getLast?_cons_cons] at h2, h4⟩

theorem digitFor_dec (c : Char) : DigitFor false c ↔ ∃ d, numeral c = some d ∧ d < 10 := by
  constructor
  · rintro (h | ⟨h, -⟩)
    · have : IsDigit c := h
      exact ⟨_, numeral_digit.2 ⟨this, rfl⟩⟩
    · cases h
  · rintro ⟨d, h1, h2⟩
    exact numeral_decimal h1 h2 _

theorem digitFor_hex (c : Char) : DigitFor true c ↔ ∃ d, numeral c = some d ∧ d < 16 := by
  constructor
  · intro h
    by_cases h0 : '0' ≤ c ∧ c ≤ '9'
    · have : IsDigit c := h0
      obtain ⟨h1, h2⟩ := numeral_digit.2 ⟨this, rfl⟩
      exact ⟨_, h1, by omega⟩
    · have h := h.resolve_left h0
      rcases h.2 with ⟨h1, h2⟩ | ⟨h1, h2⟩
      · have h1' : 97 ≤ c.toNat := h1
        have h2' : c.toNat ≤ 102 := h2
        refine ⟨c.toNat - 97 + 10, ?_, by omega⟩
        rw [← digitVal_eq_numeral]
        unfold digitVal
        rw [if_neg h0, if_pos ⟨h1, (by show c.toNat ≤ 122; omega)⟩]
      · have h1' : 65 ≤ c.toNat := h1
        have h2' : c.toNat ≤ 70 := h2
        refine ⟨c.toNat - 65 + 10, ?_, by omega⟩
        rw [← digitVal_eq_numeral]
        unfold digitVal
        have hl : ¬ ('a' ≤ c ∧ c ≤ 'z') := fun h => by have : 97 ≤ c.toNat := h.1; omega
        rw [if_neg h0, if_neg hl, if_pos ⟨h1, (by show c.toNat ≤ 90; omega)⟩]
  · rintro ⟨d, h1, h2⟩
    exact numeral_hex h1 h2

theorem isHexDigit_iff (c : Char) : isHexDigit c = true ↔ DigitFor true c := by
  unfold isHexDigit DigitFor
  simp

theorem between_iff (hex : Bool) (b : Nat) (hb : ∀ c, DigitFor hex c ↔ ∃ d, numeral c = some d ∧ d < b) (s : Str) :
    BetweenDigits b s ↔ underscoreLoop hex s '^' = true := by
  rw [underscoreLoop_iff]
  unfold BetweenDigits
  constructor
  · intro h
    refine ⟨fun l r e => ?_, fun h => absurd h (by decide)⟩
    obtain ⟨⟨c, d, h1, h2⟩, c', d', h3, h4⟩ := h l r e
    exact ⟨.inr ⟨c, h1, (hb c).2 ⟨d, h2⟩⟩, c', h3, (hb c').2 ⟨d', h4⟩⟩
  · rintro ⟨h, -⟩ l r e
    obtain ⟨h1, c', h3, h4⟩ := h l r e
    rcases h1 with ⟨-, h1⟩ | ⟨c, h1, h2⟩
    · exact absurd h1 (by decide)
    · obtain ⟨d, h2⟩ := (hb c).1 h2
      obtain ⟨d', h4⟩ := (hb c').1 h4
      exact ⟨⟨c, d, h1, h2⟩, c', d', h3, h4⟩

/-- A sign does not matter for the underscores. -/
theorem loop_sign (hex : Bool) (c : Char) (hc : c = '+' ∨ c = '-') (s : Str) : underscoreLoop hex (c :: s) '^' = underscoreLoop hex s '^' := by
  have h1 : ¬ DigitFor hex c := by
    rcases hc with rfl | rfl <;> unfold DigitFor <;> cases hex <;> decide
  have h2 : c ≠ '_' := by rcases hc with rfl | rfl <;> decide
  have e : underscoreLoop hex (c :: s) '^' = underscoreLoop hex s '!' := by
    unfold DigitFor at h1
    rw [underscoreLoop, if_neg h1, if_neg h2, if_neg (by decide)]
  rw [e, Bool.eq_iff_iff, underscoreLoop_iff, underscoreLoop_iff]
  simp

/-! ## Hexadecimal numbers -/

theorem leadingHex_append (s rest : Str) (hs : ∀ c ∈ s, DigitFor true c) (hr : ∀ c t, rest = c :: t → ¬ DigitFor true c) : leadingHex (s ++ rest) = (s, rest) := by
  unfold leadingHex
  rw [List.span_eq_takeWhile_dropWhile]
  have hs' : ∀ c ∈ s, isHexDigit c = true := fun c hc => (isHexDigit_iff c).2 (hs c hc)
  have hd : rest.takeWhile isHexDigit = [] ∧ rest.dropWhile isHexDigit = rest := by
    cases rest with
    | nil => simp
    | cons c t =>
      have := hr c t rfl
      rw [← isHexDigit_iff] at this
      simp [this]
  rw [List.takeWhile_append_of_pos hs', List.dropWhile_append_of_pos hs', hd.1, hd.2, List.append_nil]

theorem leadingHex_spec (s : Str) : s = (leadingHex s).1 ++ (leadingHex s).2 ∧ ∀ c ∈ (leadingHex s).1, DigitFor true c := by
  unfold leadingHex
  rw [List.span_eq_takeWhile_dropWhile]
  exact ⟨List.takeWhile_append_dropWhile.symm, fun c hc => (isHexDigit_iff c).1 (takeWhile_all _ _ c hc)⟩

theorem readHexExponent_iff (s : Str) (e : Int) : readHexExponent s = some e ↔ HexExp s e := by
  unfold HexExp
  cases s with
  | nil => simp [readHexExponent]
  | cons c s =>
    rw [readHexExponent]
    by_cases hc : c = 'p' ∨ c = 'P'
    · rw [if_pos hc, readExponent_iff]
      constructor
      · exact fun h => ⟨c, s, rfl, hc, h⟩
      · rintro ⟨c', t, h1, -, h2⟩
        obtain ⟨-, rfl⟩ := List.cons.inj h1
        exact h2
    · rw [if_neg hc]
      simp only [reduceCtorEq, false_iff]
      rintro ⟨c', t, h1, h2, -⟩
      obtain ⟨rfl, -⟩ := List.cons.inj h1
      exact hc h2

theorem hexExp_head {s : Str} {e : Int} (h : HexExp s e) : ∀ c t, s = c :: t → ¬ DigitFor true c ∧ c ≠ '.' := by
  rintro c t rfl
  obtain ⟨c', t', h1, h2, -⟩ := h
  obtain ⟨rfl, rfl⟩ := List.cons.inj h1
  rcases h2 with rfl | rfl <;> exact ⟨by unfold DigitFor; decide, by decide⟩

theorem hex_numeral (s : Str) (hs : ∀ c ∈ s, DigitFor true c) (n v : Nat) :
    NumeralFrom 16 n s v ↔ v = s.foldl (fun n c => n * 16 + (digitVal c).getD 0) n := by
  induction s generalizing n with
  | nil => simp [numeralFrom_nil]
  | cons c s ih =>
    obtain ⟨d, h1, h2⟩ := (digitFor_hex c).1 (hs c (by simp))
    rw [numeralFrom_cons, List.foldl_cons, digitVal_eq_numeral, h1, Option.getD_some, ← ih fun c hc => hs c (by simp [hc])]
    constructor
    · rintro ⟨d', h3, -, h4⟩
      injection h3 with h3
      subst h3; exact h4
    · exact fun h => ⟨d, rfl, h2, h⟩

theorem hexFrac_spec (r : Str) : (r = (readHexFraction r).2 ∧ (readHexFraction r).1 = []) ∨
    (r = '.' :: ((readHexFraction r).1 ++ (readHexFraction r).2) ∧ ∀ c ∈ (readHexFraction r).1, DigitFor true c) := by
  unfold readHexFraction
  split
  · rename_i r'
    have := leadingHex_spec r'
    exact .inr ⟨by rw [← this.1], this.2⟩
  · exact .inl ⟨rfl, rfl⟩

theorem readHex_iff (s : Str) (x : ℚ) : readHex s = some x ↔ HexLit s x := by
  unfold readHex
  dsimp only
  constructor
  · intro h
    have h1 := leadingHex_spec s
    have h2 := hexFrac_spec (leadingHex s).2
    set I := leadingHex s with hI
    set F := readHexFraction I.2 with hF
    split at h
    · cases h
    · rename_i hne
      simp only [Option.map_eq_some_iff] at h
      obtain ⟨e, he, hx⟩ := h
      rw [readHexExponent_iff] at he
      refine ⟨I.1, F.1, F.2, hexVal (I.1 ++ F.1), e, ?_, by simpa [List.append_eq_nil_iff] using hne, ?_, he, hx.symm⟩
      · rcases h2 with ⟨h3, h4⟩ | ⟨h3, -⟩
        · exact .inl ⟨by rw [← h3, ← h1.1], h4⟩
        · exact .inr (by rw [← h3, ← h1.1])
      · rw [isNumeral_iff, hex_numeral]
        · rfl
        · intro c hc
          rcases List.mem_append.1 hc with hc | hc
          · exact h1.2 c hc
          · rcases h2 with ⟨-, h4⟩ | ⟨-, h4⟩
            · rw [h4] at hc; cases hc
            · exact h4 c hc
  · rintro ⟨a, b, ex, n, e, h1, hne, h3, h4, rfl⟩
    rw [isNumeral_iff] at h3
    have hdig : ∀ c ∈ a ++ b, DigitFor true c := fun c hc => (digitFor_hex c).2 (numeralFrom_mem h3 c hc)
    have hn := (hex_numeral (a ++ b) hdig 0 n).1 h3
    have hda : ∀ c ∈ a, DigitFor true c := fun c hc => hdig c (List.mem_append_left _ hc)
    have hdb : ∀ c ∈ b, DigitFor true c := fun c hc => hdig c (List.mem_append_right _ hc)
    have hex := hexExp_head h4
    have key : ∃ r, leadingHex s = (a, r) ∧ readHexFraction r = (b, ex) := by
      rcases h1 with ⟨rfl, rfl⟩ | rfl
      · refine ⟨ex, leadingHex_append a ex hda fun c t h => (hex c t h).1, ?_⟩
        unfold readHexFraction
        split
        · exact absurd rfl (hex _ _ rfl).2
        · rfl
      · refine ⟨'.' :: (b ++ ex), leadingHex_append a _ hda fun c t h => ?_, leadingHex_append b ex hdb fun c t h => (hex c t h).1⟩
        obtain ⟨rfl, -⟩ := List.cons.inj h
        unfold DigitFor; decide
    obtain ⟨r, e1, e2⟩ := key
    rw [e1]
    dsimp only
    rw [e2]
    dsimp only
    rw [if_neg (by rintro ⟨rfl, rfl⟩; exact hne rfl), (readHexExponent_iff _ _).2 h4, hn]
    rfl

/-! ## All numbers -/

theorem decLit_chars {s : Str} {x : ℚ} (h : DecLit s x) : ∀ c ∈ s, IsDigit c ∨ c ∈ ['+', '-', '.', 'e', 'E'] := by
  obtain ⟨sign, σ, a, b, ex, n, e, h1, h2, h3, h4, -⟩ := h
  obtain ⟨-, hdig, -⟩ := (uDec_iff _ _).1 h3
  have hs : ∀ c ∈ sign, c ∈ ['+', '-', '.', 'e', 'E'] := by
    rcases h1 with ⟨rfl, -⟩ | ⟨rfl, -⟩ | ⟨rfl, -⟩ <;> simp
  have he : ∀ c ∈ ex, IsDigit c ∨ c ∈ ['+', '-', '.', 'e', 'E'] := by
    intro c hc
    rcases h4 with ⟨rfl, -⟩ | ⟨c', t, u, rfl, h5, h6⟩
    · cases hc
    · rcases List.mem_cons.1 hc with rfl | hc
      · right; rcases h5 with rfl | rfl <;> simp
      · have hu : ∀ c ∈ u, IsDigit c := by
          rcases h6 with ⟨-, h6, -⟩ | ⟨-, h6, -⟩ <;> exact ((uDec_iff _ _).1 h6).2.1
        rcases h6 with ⟨rfl | rfl, -⟩ | ⟨rfl, -⟩
        · exact .inl (hu c hc)
        · rcases List.mem_cons.1 hc with rfl | hc
          · right; simp
          · exact .inl (hu c hc)
        · rcases List.mem_cons.1 hc with rfl | hc
          · right; simp
          · exact .inl (hu c hc)
  intro c hc
  rcases h2 with ⟨rfl, -⟩ | rfl <;> simp only [List.mem_append, List.mem_cons] at hc
  · rcases hc with hc | hc | hc
    · exact .inr (hs c hc)
    · exact .inl (hdig c (by simp [hc]))
    · exact he c hc
  · rcases hc with hc | hc | rfl | hc | hc
    · exact .inr (hs c hc)
    · exact .inl (hdig c (by simp [hc]))
    · right; simp
    · exact .inl (hdig c (by simp [hc]))
    · exact he c hc

theorem not_decLit {s : Str} {x : ℚ} {c : Char} (hc : c = 'b' ∨ c = 'o' ∨ c = 'x' ∨ c = 'B' ∨ c = 'O' ∨ c = 'X') (h : c ∈ s) : ¬ DecLit s x := by
  intro hd
  have := decLit_chars hd c h
  revert this
  rcases hc with rfl | rfl | rfl | rfl | rfl | rfl <;> unfold IsDigit <;> decide

theorem readSign_hex {sign : Str} {σ : ℚ} (h : sign = [] ∧ σ = 1 ∨ sign = ['+'] ∧ σ = 1 ∨ sign = ['-'] ∧ σ = -1) (t : Str) :
    (readSign (sign ++ '0' :: t)).2 = '0' :: t ∧ (if (readSign (sign ++ '0' :: t)).1 = true then (-1 : ℚ) else 1) = σ := by
  rcases h with ⟨rfl, rfl⟩ | ⟨rfl, rfl⟩ | ⟨rfl, rfl⟩ <;> exact ⟨rfl, rfl⟩

theorem readFloat_iff (s : Str) (x : ℚ) : readFloat s = some x ↔ FloatLit s x := by
  obtain ⟨sign, hs, hsg⟩ := readSign_spec s
  have hloop : ∀ hex, underscoreLoop hex s '^' = underscoreLoop hex (readSign s).2 '^' := by
    intro hex
    rcases hsg with ⟨h, -⟩ | ⟨h, -⟩ | ⟨h, -⟩
    · rw [h, List.nil_append] at hs; rw [← hs]
    · rw [h] at hs
      conv_lhs => rw [hs]
      exact loop_sign hex '+' (.inl rfl) _
    · rw [h] at hs
      conv_lhs => rw [hs]
      exact loop_sign hex '-' (.inr rfl) _
  have hmem : ∀ c, c ≠ '_' → c ∈ (readSign s).2 → c ∈ s.filter (· ≠ '_') := by
    intro c hc h
    rw [hs]
    exact List.mem_filter.2 ⟨List.mem_append_right _ h, by simpa using hc⟩
  have hplain : ∀ b, '_' ∉ s → BetweenDigits b s := by
    intro b h l r e
    exact absurd (by rw [e]; simp) h
  unfold readFloat
  dsimp only
  -- the decimal case
  have hdec : (∀ c d t, (readSign s).2 = '0' :: c :: d :: t → ¬ (c = 'x' ∨ c = 'X')) →
      ((if '_' ∈ s ∧ (!underscoreOK (readSign s).2) = true then none else readDecimal (s.filter (· ≠ '_'))) = some x ↔ FloatLit s x) := by
    intro hno
    have hok : DecLit (s.filter (· ≠ '_')) x → (underscoreOK (readSign s).2 = true ↔ BetweenDigits 10 s) := by
      intro hd
      rw [between_iff false 10 digitFor_dec, hloop]
      have : underscoreOK (readSign s).2 = underscoreLoop false (readSign s).2 '^' := by
        unfold underscoreOK
        split
        · rename_i c rest heq
          rw [if_neg]
          intro hc
          refine not_decLit (s := s.filter (· ≠ '_')) hc (hmem c ?_ (by rw [heq]; simp)) hd
          rintro rfl; revert hc; decide
        · rfl
      rw [this]
    have hhex : FloatLit s x ↔ BetweenDigits 10 s ∧ DecLit (s.filter (· ≠ '_')) x := by
      constructor
      · rintro (h | ⟨sg, σ, p, t, y, h1, rfl, h2, h3, h4, -⟩)
        · exact h
        · exfalso
          have h5 := (readSign_hex h1 (p :: t)).1
          cases t with
          | nil =>
            obtain ⟨a, b, ex, n, e, h6, h7, -⟩ := h4
            rcases h6 with ⟨h6, rfl⟩ | h6
            · have := List.append_eq_nil_iff.1 h6.symm
              exact h7 (by rw [this.1]; rfl)
            · exact absurd h6 (by simp)
          | cons d t => exact hno p d t h5 h2
      · exact .inl
    rw [hhex]
    constructor
    · intro h
      split at h
      · cases h
      · rename_i hc
        rw [readDecimal_iff] at h
        refine ⟨?_, h⟩
        by_cases hu : '_' ∈ s
        · exact (hok h).1 (by by_contra hn; exact hc ⟨hu, by simpa using hn⟩)
        · exact hplain 10 hu
    · rintro ⟨h1, h2⟩
      rw [if_neg, readDecimal_iff]
      · exact h2
      · rintro ⟨-, h3⟩
        rw [(hok h2).2 h1] at h3
        cases h3
  by_cases hp : ∃ c d t, (readSign s).2 = '0' :: c :: d :: t
  · obtain ⟨c, d, t, heq⟩ := hp
    by_cases hc : c = 'x' ∨ c = 'X'
    · have hcu : c ≠ '_' := by rintro rfl; revert hc; decide
      simp only [heq, if_pos hc]
      have hok : underscoreOK (readSign s).2 = true ↔ BetweenDigits 16 ('0' :: d :: t) := by
        rw [between_iff true 16 digitFor_hex, loop_digit (.inl (by decide)), heq]
        unfold underscoreOK
        rcases hc with rfl | rfl <;> simp
      have hnodec : ¬ DecLit (s.filter (· ≠ '_')) x := not_decLit (c := c) (by tauto) (hmem c hcu (by rw [heq]; simp))
      rw [heq] at hok
      constructor
      · intro h
        split at h
        · cases h
        · rename_i hn
          obtain ⟨y, h1, rfl⟩ := Option.map_eq_some_iff.1 h
          rw [readHex_iff] at h1
          refine .inr ⟨sign, if (readSign s).1 = true then -1 else 1, c, d :: t, y, ?_, ?_, hc, ?_, h1, rfl⟩
          · rcases hsg with ⟨h3, h4⟩ | ⟨h3, h4⟩ | ⟨h3, h4⟩
            · exact .inl ⟨h3, by simp [h4]⟩
            · exact .inr (.inl ⟨h3, by simp [h4]⟩)
            · exact .inr (.inr ⟨h3, by simp [h4]⟩)
          · rw [← heq]; exact hs
          · by_cases hu : '_' ∈ s
            · exact hok.1 (by by_contra h'; exact hn ⟨hu, by simpa using h'⟩)
            · intro l r e
              have h5 : '_' ∈ '0' :: d :: t := by rw [e]; simp
              have h6 : '_' ∈ (readSign s).2 := by
                rw [heq]
                rcases List.mem_cons.1 h5 with h5 | h5
                · exact absurd h5 (by decide)
                · exact List.mem_cons_of_mem _ (List.mem_cons_of_mem _ h5)
              exact absurd (by rw [hs]; exact List.mem_append_right _ h6) hu
      · rintro (⟨-, h⟩ | ⟨sg, σ, p, u, y, h1, h2, h3, h4, h5, rfl⟩)
        · exact absurd h hnodec
        · obtain ⟨e1, e2⟩ := readSign_hex h1 (p :: u)
          rw [← h2] at e1 e2
          rw [heq] at e1
          obtain ⟨-, e1⟩ := List.cons.inj e1
          obtain ⟨rfl, rfl⟩ := List.cons.inj e1
          rw [if_neg (by rintro ⟨-, h6⟩; rw [hok.2 h4] at h6; cases h6), (readHex_iff _ _).2 h5, Option.map_some, e2]
    · have := hdec (fun c' d' t' h => by rw [heq] at h; simp at h; obtain ⟨rfl, -, -⟩ := h; exact hc)
      simp only [heq, if_neg hc] at this ⊢
      exact this
  · have := hdec fun c d t h => absurd ⟨c, d, t, h⟩ hp
    by_cases g : '_' ∈ s ∧ (!underscoreOK (readSign s).2) = true
    · rw [if_pos g] at this ⊢
      exact this
    · rw [if_neg g] at this ⊢
      split
      · rename_i c d t heq
        exact absurd ⟨c, d, t, heq⟩ hp
      · exact this

/-- **C94** Which numbers are accepted for lengths, and with which value. -/
theorem C94_accepts (s : Str) (v : Millimeter) : millimeterSet s = (v, none) ↔ ∃ x, FloatLit s x ∧ v = r32 x ∧ |v| < 2 ^ 128 := by
  unfold millimeterSet parseFloat32
  simp only [← readFloat_iff]
  cases readFloat s with
  | none => simp
  | some x =>
    dsimp only
    split
    · rename_i h
      constructor
      · intro h'
        obtain ⟨rfl, -⟩ := Prod.mk.inj h'
        exact ⟨x, rfl, rfl, h⟩
      · rintro ⟨y, hy, rfl, -⟩
        injection hy with hy
        subst hy; rfl
    · rename_i h
      constructor
      · intro h'; exact absurd (Prod.mk.inj h').2 (by simp)
      · rintro ⟨y, hy, rfl, h'⟩
        injection hy with hy
        subst hy; exact absurd h' h

example : DecLit "-12.50e1".toList (-125) :=
  ⟨['-'], -1, "12".toList, "50".toList, "e1".toList, 1250, 1, .inr (.inr ⟨rfl, rfl⟩), .inr rfl, (uDec_iff _ _).2 ⟨by simp, by unfold IsDigit; decide, by
    simp [digitsVal, digitsFrom, dval_def]⟩, .inr ⟨'e', ['1'], ['1'], rfl, .inl rfl, .inl ⟨.inl rfl, (uDec_iff _ _).2 ⟨by simp, by unfold IsDigit; decide, by
    simp [digitsVal, digitsFrom, dval_def]⟩, by norm_num⟩⟩, by
    rw [show (("50".toList.length : Nat) : Int) = 2 from rfl]; norm_num⟩

/-- A hexadecimal number with an underscore, and texts which are refused. -/
example : FloatLit "-0x_1_8.8p-1".toList (-49 / 4) ∧ (∀ x, ¬ FloatLit "1_.5".toList x) ∧ (∀ x, ¬ FloatLit "0x18".toList x) := by
  simp only [← readFloat_iff]
  refine ⟨by decide +kernel, fun x h => ?_, fun x h => ?_⟩
  · rw [show readFloat "1_.5".toList = none by decide +kernel] at h; cases h
  · rw [show readFloat "0x18".toList = none by decide +kernel] at h; cases h

theorem digitsFrom_eq (n : Nat) (s : Str) : digitsFrom n s = n * 10 ^ s.length + digitsVal s := by
  induction s using List.reverseRecOn with
  | nil => simp [digitsFrom, digitsVal]
  | append_singleton s c ih =>
    rw [digitsFrom_append, digitsVal_append, ih]
    simp only [digitsFrom, List.length_append, List.length_singleton, pow_succ]
    ring

theorem digitsVal_fixed (n : Nat) : digitsVal (decNat (n / 10 ^ 3) ++ decPad 3 n) = n := by
  unfold digitsVal
  rw [digitsFrom_append, digitsFrom_eq, show digitsFrom 0 (decNat (n / 10 ^ 3)) = digitsVal (decNat (n / 10 ^ 3)) from rfl, digitsVal_decNat,
    decPad_length, digitsVal_decPad]
  omega

/-- The text of a length is a decimal number. -/
theorem decLit_string (x : ℚ) : DecLit (millimeterString x) ((if x < 0 then -1 else 1) * ((roundEven (|x| * 10 ^ 3)).toNat : ℚ) / 1000) := by
  unfold millimeterString formatFixed
  dsimp only
  set n := (roundEven (|x| * 10 ^ 3)).toNat
  refine ⟨if x < 0 then ['-'] else [], if x < 0 then -1 else 1, decNat (n / 10 ^ 3), decPad 3 n, [], n, 0, ?_, .inr ?_, ?_, .inl ⟨rfl, rfl⟩, ?_⟩
  · by_cases h : x < 0
    · rw [if_pos h, if_pos h]; exact .inr (.inr ⟨rfl, rfl⟩)
    · rw [if_neg h, if_neg h]; exact .inl ⟨rfl, rfl⟩
  · rw [List.append_nil, List.append_assoc]
  · rw [uDec_iff]
    refine ⟨by simp [decNat_ne_nil], ?_, (digitsVal_fixed n).symm⟩
    intro c hc
    rcases List.mem_append.1 hc with hc | hc
    · exact decNat_digits _ c hc
    · exact decPad_digits _ _ c hc
  · rw [decPad_length]
    rw [show (0 : Int) - ((3 : Nat) : Int) = -3 from rfl, zpow_neg, div_eq_mul_inv]
    norm_num

theorem floatLit_string (x : ℚ) : FloatLit (millimeterString x) ((if x < 0 then -1 else 1) * ((roundEven (|x| * 10 ^ 3)).toNat : ℚ) / 1000) := by
  have h := decLit_string x
  have hu : '_' ∉ millimeterString x := fun hm => by
    have := decLit_chars h _ hm
    revert this
    unfold IsDigit; decide
  refine .inl ⟨fun l r e => absurd (by rw [e]; simp) hu, ?_⟩
  rwa [show (millimeterString x).filter (· ≠ '_') = millimeterString x from strip_of hu]

theorem millimeterSet_string (x : ℚ) (h : |r32 ((if x < 0 then -1 else 1) * ((roundEven (|x| * 10 ^ 3)).toNat : ℚ) / 1000)| < 2 ^ 128) :
    millimeterSet (millimeterString x) = (r32 ((if x < 0 then -1 else 1) * ((roundEven (|x| * 10 ^ 3)).toNat : ℚ) / 1000), none) :=
  (C94_accepts _ _).2 ⟨_, floatLit_string x, rfl, h⟩

/-- The shown value in exact arithmetic. -/
theorem shown_near (x : ℚ) : |(if x < 0 then -1 else 1) * ((roundEven (|x| * 10 ^ 3)).toNat : ℚ) / 1000 - x| ≤ 1 / 2000 := by
  have h0 : 0 ≤ roundEven (|x| * 10 ^ 3) := by
    have := roundEven_mono (K := ℚ) (x := 0) (y := |x| * 10 ^ 3) (by positivity)
    simpa using this
  have h1 := roundEven_abs_sub_le (|x| * 10 ^ 3)
  have h2 : ((roundEven (|x| * 10 ^ 3)).toNat : ℚ) = (roundEven (|x| * 10 ^ 3) : ℚ) := by
    have : ((roundEven (|x| * 10 ^ 3)).toNat : Int) = roundEven (|x| * 10 ^ 3) := Int.toNat_of_nonneg h0
    exact_mod_cast this
  rw [h2]
  rw [abs_le] at h1 ⊢
  by_cases hx : x < 0
  · rw [if_pos hx]
    rw [abs_of_neg hx] at h1 ⊢
    constructor <;> linarith [h1.1, h1.2]
  · rw [if_neg hx]
    rw [abs_of_nonneg (not_lt.1 hx)] at h1 ⊢
    constructor <;> linarith [h1.1, h1.2]

theorem abs_lt_2_128 {x : ℚ} (h : |x| ≤ 10000) : |x| < 2 ^ 128 := lt_of_le_of_lt h (by norm_num)

/-- **C94** A length with up to three decimals (below 8388.608 mm) is shown as such, and the shown text stands for the same value. -/
theorem C94_round_trip (k : Int) (hk : |k| < 2 ^ 23) : millimeterSet (millimeterString (r32 ((k : ℚ) / 1000))) = (r32 ((k : ℚ) / 1000), none) := by
  set x := r32 ((k : ℚ) / 1000) with hx
  have hk' : |(k : ℚ)| < 2 ^ 23 := by exact_mod_cast hk
  have herr : |x - (k : ℚ) / 1000| ≤ |(k : ℚ) / 1000| / 2 ^ 24 := by
    by_cases h0 : k = 0
    · subst h0; simp [hx, r32]
    · refine r32_rel' (e := 1 / 1000) (by norm_num) ?_
      have : (1 : ℚ) ≤ |(k : ℚ)| := by exact_mod_cast Int.one_le_abs h0
      rw [abs_div, abs_of_pos (by norm_num : (0 : ℚ) < 1000)]
      exact div_le_div_of_nonneg_right this (by norm_num)
  have h1 : |x * 1000 - k| < 1 / 2 := by
    have h2 : |x * 1000 - k| = |x - (k : ℚ) / 1000| * 1000 := by
      rw [← abs_of_pos (by norm_num : (0 : ℚ) < 1000), ← abs_mul, abs_of_pos (by norm_num : (0 : ℚ) < 1000)]
      congr 1; ring
    rw [abs_div, abs_of_pos (by norm_num : (0 : ℚ) < 1000)] at herr
    rw [h2]
    calc |x - (k : ℚ) / 1000| * 1000 ≤ |(k : ℚ)| / 1000 / 2 ^ 24 * 1000 := by gcongr
      _ = |(k : ℚ)| / 2 ^ 24 := by ring
      _ < 1 / 2 := by rw [div_lt_iff₀ (by norm_num)]; linarith
  have hq : (if x < 0 then -1 else 1) * ((roundEven (|x| * 10 ^ 3)).toNat : ℚ) / 1000 = (k : ℚ) / 1000 := by
    congr 1
    rw [abs_lt] at h1
    by_cases hneg : k < 0
    · have hk1 : (k : ℚ) ≤ -1 := by exact_mod_cast Int.le_sub_one_of_lt hneg
      have hx0 : x < 0 := by linarith [h1.2]
      rw [if_pos hx0, abs_of_neg hx0, roundEven_eq_of_lt (n := -k) (by rw [abs_lt]; push_cast; constructor <;> linarith [h1.1, h1.2])]
      rw [show (((-k).toNat : Nat) : ℚ) = ((-k : Int) : ℚ) by
        have : (((-k).toNat : Nat) : Int) = -k := Int.toNat_of_nonneg (by omega)
        exact_mod_cast this]
      push_cast; ring
    · have hx0 : ¬ x < 0 := not_lt.2 (by
        rw [hx]; exact r32_nonneg (div_nonneg (by exact_mod_cast (not_lt.1 hneg)) (by norm_num)))
      rw [if_neg hx0, abs_of_nonneg (not_lt.1 hx0),
        roundEven_eq_of_lt (n := k) (by rw [abs_lt]; constructor <;> linarith [h1.1, h1.2])]
      rw [show ((k.toNat : Nat) : ℚ) = (k : ℚ) by
        have : ((k.toNat : Nat) : Int) = k := Int.toNat_of_nonneg (by omega)
        exact_mod_cast this]
      ring
  have hb : |x| ≤ 10000 := by
    have := abs_lt.1 h1
    have := abs_lt.1 hk'
    rw [abs_le]; constructor <;> linarith
  rw [millimeterSet_string x (by rw [hq, ← hx]; exact abs_lt_2_128 hb), hq]

/-- **C94** Any length up to 8 m is changed by at most 1 µm if the shown text is used to set it. -/
theorem C94_near (x : Millimeter) (hx : |x| ≤ 8000) : ∃ v, millimeterSet (millimeterString x) = (v, none) ∧ |v - x| ≤ 1 / 1000 := by
  have h1 := shown_near x
  set q := (if x < 0 then -1 else 1) * ((roundEven (|x| * 10 ^ 3)).toNat : ℚ) / 1000 with hq
  have hqb : |q| ≤ 8001 := by
    have := abs_le.1 h1
    have := abs_le.1 hx
    rw [abs_le]; constructor <;> linarith
  have herr : |r32 q - q| ≤ |q| / 2 ^ 24 := by
    by_cases h0 : (roundEven (|x| * 10 ^ 3)).toNat = 0
    · have : q = 0 := by rw [hq, h0]; simp
      rw [this]; simp [r32]
    · refine r32_rel' (e := 1 / 1000) (by norm_num) ?_
      have h2 : (1 : ℚ) ≤ ((roundEven (|x| * 10 ^ 3)).toNat : ℚ) := by exact_mod_cast Nat.one_le_iff_ne_zero.2 h0
      have h3 : |q| = ((roundEven (|x| * 10 ^ 3)).toNat : ℚ) / 1000 := by
        rw [hq, abs_div, abs_mul, abs_of_pos (by norm_num : (0 : ℚ) < 1000), abs_of_nonneg (a := ((roundEven (|x| * 10 ^ 3)).toNat : ℚ)) (by positivity)]
        split <;> simp
      rw [h3]
      exact div_le_div_of_nonneg_right h2 (by norm_num)
  have h4 : |q| / 2 ^ 24 ≤ 1 / 2000 := by rw [div_le_iff₀ (by norm_num)]; linarith
  refine ⟨r32 q, millimeterSet_string x (abs_lt_2_128 ?_), ?_⟩
  · have := abs_le.1 (herr.trans h4)
    have := abs_le.1 hqb
    rw [← hq, abs_le]; constructor <;> linarith
  · have := abs_le.1 (herr.trans h4)
    have := abs_le.1 h1
    rw [abs_le]; constructor <;> linarith

/-- The default gap between model and support is 0.6 mm, which is not a float32 value. -/
example : millimeterSet (millimeterString ({} : Options).print.support.gap) = (({} : Options).print.support.gap, none) := by
  have := C94_round_trip 600 (by norm_num)
  have h : ((600 : Int) : ℚ) / 1000 = 3 / 5 := by norm_num
  rwa [h] at this

end Verif
