import Verif.Spec.Groups
import Verif.Lemmas.Strconv

/-! # Integers with underscores -/
namespace Verif.Go
open Verif.Spec

/-- The characters without the underscores. -/
def strip (s : Str) : Str := s.filter (· ≠ '_')

theorem strip_cons (c : Char) (s : Str) : strip (c :: s) = if c = '_' then strip s else c :: strip s := by
  unfold strip
  by_cases h : c = '_' <;> simp [h]

theorem strip_of {s : Str} (h : '_' ∉ s) : strip s = s := by
  unfold strip
  rw [List.filter_eq_self]
  intro c hc
  simpa using fun e : c = '_' => h (e ▸ hc)

theorem strip_append (s t : Str) : strip (s ++ t) = strip s ++ strip t := List.filter_append ..

/-! ## Groups -/

/-- Text in groups. -/
def InGroups (s : Str) : Prop := ∃ groups : List Str, groups ≠ [] ∧ (∀ g ∈ groups, g ≠ [] ∧ '_' ∉ g) ∧ s = List.intercalate ['_'] groups

theorem intercalate_cons2 (g h : Str) (gs : List Str) : List.intercalate ['_'] (g :: h :: gs) = g ++ '_' :: List.intercalate ['_'] (h :: gs) := by
  simp [List.intercalate]

theorem strip_intercalate (groups : List Str) (h : ∀ g ∈ groups, '_' ∉ g) : strip (List.intercalate ['_'] groups) = groups.flatten := by
  induction groups with
  | nil => rfl
  | cons g gs ih =>
    have ih := ih fun g hg => h g (by simp [hg])
    cases gs with
    | nil => simpa [List.intercalate] using strip_of (h g (by simp))
    | cons k gs =>
      rw [intercalate_cons2, strip_append, strip_cons, if_pos rfl, ih, strip_of (h g (by simp))]
      rfl

theorem grouped_iff (P : Str → Prop) (s : Str) : Grouped P s ↔ InGroups s ∧ P (strip s) := by
  constructor
  · rintro ⟨gs, h1, h2, rfl, h3⟩
    exact ⟨⟨gs, h1, h2, rfl⟩, by rwa [strip_intercalate _ fun g hg => (h2 g hg).2]⟩
  · rintro ⟨⟨gs, h1, h2, rfl⟩, h3⟩
    exact ⟨gs, h1, h2, rfl, by rwa [strip_intercalate _ fun g hg => (h2 g hg).2] at h3⟩

theorem inGroups_nil : ¬ InGroups [] := by
  rintro ⟨gs, h1, h2, h3⟩
  cases gs with
  | nil => exact h1 rfl
  | cons g gs =>
    obtain ⟨h4, -⟩ := h2 g (by simp)
    cases gs with
    | nil => exact h4 (by simpa [List.intercalate] using h3.symm)
    | cons k gs =>
      rw [intercalate_cons2] at h3
      simp at h3

theorem inGroups_underscore (s : Str) : ¬ InGroups ('_' :: s) := by
  rintro ⟨gs, h1, h2, h3⟩
  cases gs with
  | nil => exact h1 rfl
  | cons g gs =>
    obtain ⟨h4, h5⟩ := h2 g (by simp)
    cases g with
    | nil => exact h4 rfl
    | cons c g =>
      have : c = '_' := by
        cases gs with
        | nil => simp [List.intercalate] at h3; exact h3.1.symm
        | cons k gs =>
          rw [intercalate_cons2] at h3
          exact (List.cons.inj h3).1.symm
      exact h5 (by simp [this])

theorem inGroups_cons {c : Char} (hc : c ≠ '_') (s : Str) : InGroups (c :: s) ↔ s = [] ∨ InGroups s ∨ ∃ t, s = '_' :: t ∧ InGroups t := by
  constructor
  · rintro ⟨gs, h1, h2, h3⟩
    cases gs with
    | nil => exact absurd rfl h1
    | cons g gs =>
      obtain ⟨h4, h5⟩ := h2 g (by simp)
      cases g with
      | nil => exact absurd rfl h4
      | cons c' g =>
        cases gs with
        | nil =>
          have h3 : c :: s = c' :: g := by simpa [List.intercalate] using h3
          obtain ⟨-, rfl⟩ := List.cons.inj h3
          by_cases hs : s = []
          · exact .inl hs
          · exact .inr (.inl ⟨[s], by simp, by simpa using ⟨hs, fun h => h5 (by simp [h])⟩, by simp [List.intercalate]⟩)
        | cons k gs =>
          rw [intercalate_cons2] at h3
          obtain ⟨-, rfl⟩ := List.cons.inj h3
          have hk : InGroups (List.intercalate ['_'] (k :: gs)) := ⟨k :: gs, by simp, fun g hg => h2 g (by simp at hg ⊢; tauto), rfl⟩
          cases g with
          | nil => exact .inr (.inr ⟨_, rfl, hk⟩)
          | cons d g =>
            refine .inr (.inl ⟨(d :: g) :: k :: gs, by simp, ?_, (intercalate_cons2 ..).symm⟩)
            intro x hx
            rcases List.mem_cons.1 hx with rfl | hx
            · exact ⟨by simp, fun h => h5 (List.mem_cons_of_mem _ h)⟩
            · exact h2 x (by simp at hx ⊢; tauto)
  · rintro (rfl | ⟨gs, h1, h2, rfl⟩ | ⟨t, rfl, gs, h1, h2, rfl⟩)
    · exact ⟨[[c]], by simp, by simpa using Ne.symm hc, rfl⟩
    · cases gs with
      | nil => exact absurd rfl h1
      | cons g gs =>
        refine ⟨(c :: g) :: gs, by simp, ?_, ?_⟩
        · intro x hx
          rcases List.mem_cons.1 hx with rfl | hx
          · exact ⟨by simp, by simpa using ⟨Ne.symm hc, (h2 g (by simp)).2⟩⟩
          · exact h2 x (by simp [hx])
        · cases gs with
          | nil => simp [List.intercalate]
          | cons k gs => rw [intercalate_cons2, intercalate_cons2]; rfl
    · refine ⟨[c] :: gs, by simp, ?_, ?_⟩
      · intro x hx
        rcases List.mem_cons.1 hx with rfl | hx
        · exact ⟨by simp, by simpa using Ne.symm hc⟩
        · exact h2 x hx
      · cases gs with
        | nil => exact absurd rfl h1
        | cons k gs => rw [intercalate_cons2]; rfl

/-! ## The check of underscores -/

/-- The characters which count as digits in the check. -/
def DigitFor (hex : Bool) (c : Char) : Prop := ('0' ≤ c ∧ c ≤ '9') ∨ (hex = true ∧ (('a' ≤ c ∧ c ≤ 'f') ∨ ('A' ≤ c ∧ c ≤ 'F')))

theorem digitFor_ne {hex : Bool} {c : Char} (h : DigitFor hex c) : c ≠ '_' := by
  rintro rfl
  revert h
  unfold DigitFor
  cases hex <;> decide

theorem loop_digit {hex : Bool} {c : Char} (h : DigitFor hex c) (s : Str) (i : Char) : underscoreLoop hex (c :: s) i = underscoreLoop hex s '0' := by
  rw [underscoreLoop]
  exact if_pos h

theorem loop_underscore (hex : Bool) (s : Str) (i : Char) : underscoreLoop hex ('_' :: s) i = if i ≠ '0' then false else underscoreLoop hex s '_' := by
  rw [underscoreLoop, if_neg, if_pos rfl]
  cases hex <;> decide

theorem loop_iff (hex : Bool) (s : Str) (h : ∀ c ∈ s, c ≠ '_' → DigitFor hex c) :
    (underscoreLoop hex s '0' = true ↔ s = [] ∨ InGroups s ∨ ∃ t, s = '_' :: t ∧ InGroups t) ∧ (underscoreLoop hex s '_' = true ↔ InGroups s) := by
  induction s with
  | nil => simp [underscoreLoop, inGroups_nil]
  | cons c s ih =>
    obtain ⟨i1, i2⟩ := ih fun d hd => h d (by simp [hd])
    by_cases hc : c = '_'
    · subst hc
      rw [loop_underscore, loop_underscore, if_neg (by simp), if_pos (by decide), i2]
      refine ⟨⟨fun hs => .inr (.inr ⟨s, rfl, hs⟩), ?_⟩, ⟨fun h => by simp at h, fun h => absurd h (inGroups_underscore s)⟩⟩
      rintro (h | h | ⟨t, e, h⟩)
      · cases h
      · exact absurd h (inGroups_underscore s)
      · cases e; exact h
    · have hd := h c (by simp) hc
      rw [loop_digit hd, loop_digit hd, i1, inGroups_cons hc]
      refine ⟨⟨fun h => .inr (.inl h), ?_⟩, Iff.rfl⟩
      rintro (h | h | ⟨t, e, -⟩)
      · cases h
      · exact h
      · exact absurd (List.cons.inj e).1 hc

theorem loop_start (hex : Bool) (s : Str) (h : ∀ c ∈ s, c ≠ '_' → DigitFor hex c) (hs : s ≠ []) : underscoreLoop hex s '^' = true ↔ InGroups s := by
  cases s with
  | nil => exact absurd rfl hs
  | cons c s =>
    by_cases hc : c = '_'
    · subst hc
      rw [loop_underscore, if_pos (by decide)]
      exact ⟨fun h => by simp at h, fun h => absurd h (inGroups_underscore s)⟩
    · rw [loop_digit (h c (by simp) hc), (loop_iff hex s fun d hd => h d (by simp [hd])).1, inGroups_cons hc]

theorem numeral_decimal {c : Char} {d : Nat} (h : numeral c = some d) (hd : d < 10) (hex : Bool) : DigitFor hex c := by
  rw [← digitVal_eq_numeral] at h
  unfold digitVal at h
  split at h
  · rename_i hc
    exact .inl hc
  · split at h
    · simp only [Option.some.injEq] at h; omega
    · split at h
      · simp only [Option.some.injEq] at h; omega
      · cases h

theorem numeral_hex {c : Char} {d : Nat} (h : numeral c = some d) (hd : d < 16) : DigitFor true c := by
  rw [← digitVal_eq_numeral] at h
  unfold digitVal at h
  split at h
  · rename_i hc
    exact .inl hc
  · split at h
    · rename_i hc
      simp only [Option.some.injEq] at h
      have h1 : 97 ≤ c.toNat := hc.1
      exact .inr ⟨rfl, .inl ⟨hc.1, (by show c.toNat ≤ 102; omega)⟩⟩
    · split at h
      · rename_i hc
        simp only [Option.some.injEq] at h
        have h1 : 65 ≤ c.toNat := hc.1
        exact .inr ⟨rfl, .inr ⟨hc.1, (by show c.toNat ≤ 70; omega)⟩⟩
      · cases h

theorem numeralFrom_mem {b n v : Nat} {s : Str} (h : NumeralFrom b n s v) : ∀ c ∈ s, ∃ d, numeral c = some d ∧ d < b := by
  induction s generalizing n with
  | nil => simp
  | cons c s ih =>
    obtain ⟨d, h1, h2, h3⟩ := (numeralFrom_cons ..).1 h
    intro x hx
    rcases List.mem_cons.1 hx with rfl | hx
    · exact ⟨d, h1, h2⟩
    · exact ih h3 x hx

theorem mem_strip {c : Char} {s : Str} (h : c ∈ s) (hc : c ≠ '_') : c ∈ strip s := List.mem_filter.2 ⟨h, by simpa using hc⟩

/-! ## The digits -/

theorem parseDigits_strip (b : Nat) (s : Str) (n : Nat) (us : Bool) :
    parseDigits b true s n us = (parseDigits b true (strip s) n us).map fun r => (r.1, r.2 || decide ('_' ∈ s)) := by
  induction s generalizing n us with
  | nil => simp [strip, parseDigits, Except.map]
  | cons c s ih =>
    rw [strip_cons]
    by_cases hc : c = '_'
    · subst hc
      rw [if_pos rfl, parseDigits, if_pos ⟨rfl, rfl⟩, ih]
      have hv : ∀ (t : Str) (n : Nat) (us : Bool), '_' ∉ t → parseDigits b true t n us = (parseDigits b true t n false).map fun r => (r.1, us) := by
        intro t
        induction t with
        | nil => intro n us _; rfl
        | cons d t ih =>
          intro n us ht
          have hd : ¬ (d = '_' ∧ true = true) := by rintro ⟨rfl, -⟩; exact ht (by simp)
          rw [parseDigits, parseDigits, if_neg hd, if_neg hd]
          split
          · rfl
          · split
            · rfl
            · split
              · rfl
              · split
                · rfl
                · exact ih _ _ (fun h => ht (by simp [h]))
      have hns : '_' ∉ strip s := by unfold strip; simp
      rw [hv _ n true hns, hv _ n us hns]
      cases parseDigits b true (strip s) n false with
      | error e => rfl
      | ok r => simp [Except.map]
    · rw [if_neg hc, parseDigits, parseDigits, if_neg (fun h => hc h.1), if_neg (fun h => hc h.1)]
      split
      · rfl
      · split
        · rfl
        · split
          · rfl
          · split
            · rfl
            · rw [ih]
              congr 1
              funext r
              simp [Ne.symm hc]

theorem parseUint_all (s : Str) (h0 : s ≠ []) (v : Nat) :
    parseUint true s = .ok v ↔ NumeralFrom (basePrefix s).1 0 (strip (basePrefix s).2) v ∧ v < 2 ^ 64 ∧ ('_' ∈ (basePrefix s).2 → underscoreOK s = true) := by
  have hb : 1 ≤ (basePrefix s).1 := by
    unfold basePrefix
    split
    · repeat' split
      all_goals simp
    · simp
    · simp
  unfold parseUint
  rw [if_neg h0]
  simp only [if_true]
  generalize hbp : basePrefix s = bt at *
  obtain ⟨b, t⟩ := bt
  simp only at hb ⊢
  have hns : '_' ∉ strip t := by unfold strip; simp
  have key := fun v us => parseDigits_iff b hb true (strip t) (fun _ => hns) 0 v false us (by norm_num)
  rw [parseDigits_strip]
  cases hp : parseDigits b true (strip t) 0 false with
  | error e =>
    simp only [hp] at key
    constructor
    · intro h; simp [Except.map] at h
    · rintro ⟨h1, h2, -⟩; have := (key v false).2 ⟨h1, h2, rfl⟩; simp at this
  | ok r =>
    obtain ⟨n, us⟩ := r
    obtain ⟨h1, h2, rfl⟩ := (key n us).1 hp
    simp only [Except.map, Bool.false_or, decide_eq_true_eq, Bool.not_eq_true']
    have hu : NumeralFrom b 0 (strip t) v ∧ v < 2 ^ 64 → n = v := by
      rintro ⟨h3, h4⟩
      have := (key v false).2 ⟨h3, h4, rfl⟩
      rw [hp] at this; injection this with this; injection this
    by_cases hc : '_' ∈ t ∧ underscoreOK s = false
    · rw [if_pos hc]
      constructor
      · intro h; cases h
      · rintro ⟨-, -, h⟩; rw [h hc.1] at hc; cases hc.2
    · rw [if_neg hc]
      constructor
      · intro h; cases h; exact ⟨h1, h2, fun h => by by_contra hn; exact hc ⟨h, by simpa using hn⟩⟩
      · rintro ⟨h3, h4, -⟩; rw [hu ⟨h3, h4⟩]

theorem inGroups_single {s : Str} (h : '_' ∉ s) (hs : s ≠ []) : InGroups s := ⟨[s], by simp, by simpa using ⟨hs, h⟩, by simp [List.intercalate]⟩

theorem plain_iff {b v : Nat} {s t : Str} (hb : b ≤ 10) (hst : s = t ∨ s = '0' :: t) (hs : s ≠ []) (hu : underscoreOK s = underscoreLoop false s '^')
    (h : NumeralFrom b 0 (strip t) v) : ('_' ∈ t → underscoreOK s = true) ↔ InGroups s := by
  have ht : ∀ c ∈ t, c ≠ '_' → DigitFor false c := by
    intro c hc hn
    obtain ⟨d, h1, h2⟩ := numeralFrom_mem h c (mem_strip hc hn)
    exact numeral_decimal h1 (by omega) _
  have hs' : ∀ c ∈ s, c ≠ '_' → DigitFor false c := by
    rcases hst with rfl | rfl
    · exact ht
    · intro c hc hn
      rcases List.mem_cons.1 hc with rfl | hc
      · exact .inl (by decide)
      · exact ht c hc hn
  rw [hu, loop_start _ _ hs' hs]
  refine ⟨fun h => ?_, fun h _ => h⟩
  by_cases hm : '_' ∈ t
  · exact h hm
  · refine inGroups_single ?_ hs
    rcases hst with rfl | rfl
    · exact hm
    · simpa using hm

theorem prefixed_iff {b v : Nat} {hex : Bool} {s t : Str} (hb : b ≤ 10 ∨ (b = 16 ∧ hex = true)) (ht : t ≠ []) (hu : underscoreOK s = underscoreLoop hex t '0')
    (h : NumeralFrom b 0 (strip t) v) : ('_' ∈ t → underscoreOK s = true) ↔ (InGroups t ∨ ∃ t', t = '_' :: t' ∧ InGroups t') := by
  have ht' : ∀ c ∈ t, c ≠ '_' → DigitFor hex c := by
    intro c hc hn
    obtain ⟨d, h1, h2⟩ := numeralFrom_mem h c (mem_strip hc hn)
    rcases hb with hb | ⟨rfl, rfl⟩
    · exact numeral_decimal h1 (by omega) _
    · exact numeral_hex h1 h2
  rw [hu, (loop_iff hex t ht').1]
  constructor
  · intro h
    by_cases hm : '_' ∈ t
    · exact (h hm).resolve_left ht
    · exact .inl (inGroups_single hm ht)
  · exact fun h _ => .inr h

theorem groupedAfter_iff (P : Str → Prop) (s : Str) : GroupedAfter P s ↔ (InGroups s ∨ ∃ t, s = '_' :: t ∧ InGroups t) ∧ P (strip s) := by
  unfold GroupedAfter
  constructor
  · rintro (h | ⟨t, rfl, h⟩)
    · obtain ⟨h1, h2⟩ := (grouped_iff _ _).1 h
      exact ⟨.inl h1, h2⟩
    · obtain ⟨h1, h2⟩ := (grouped_iff _ _).1 h
      exact ⟨.inr ⟨t, rfl, h1⟩, by rwa [strip_cons, if_pos rfl]⟩
  · rintro ⟨h | ⟨t, rfl, h⟩, hp⟩
    · exact .inl ((grouped_iff _ _).2 ⟨h, hp⟩)
    · rw [strip_cons, if_pos rfl] at hp
      exact .inr ⟨t, rfl, (grouped_iff _ _).2 ⟨h, hp⟩⟩

/-- Base 0: which texts are accepted, and as which value. -/
theorem parseUint_text_iff (s : Str) (v : Nat) : parseUint true s = .ok v ↔ UIntText s v ∧ v < 2 ^ 64 := by
  cases s with
  | nil =>
    constructor
    · intro h; simp [parseUint] at h
    · rintro ⟨h, -⟩
      cases h with
      | dec _ _ h => exact absurd ((grouped_iff _ _).1 h).1 inGroups_nil
      | oct _ _ h => exact absurd ((grouped_iff _ _).1 h).1 inGroups_nil
  | cons c s =>
    by_cases hc : c = '0'
    · subst hc
      have hstrip : strip ('0' :: s) = '0' :: strip s := by rw [strip_cons, if_neg (by decide)]
      by_cases hp : ∃ p t, s = p :: t ∧ t ≠ [] ∧ (p = 'b' ∨ p = 'B' ∨ p = 'o' ∨ p = 'O' ∨ p = 'x' ∨ p = 'X')
      · obtain ⟨p, t, rfl, ht, hp⟩ := hp
        have hpu : p ≠ '_' := by rintro rfl; revert hp; decide
        have hdec : ∀ v, ¬ Grouped (fun u => u.head? ≠ some '0' ∧ IsNumeral 10 u v) ('0' :: p :: t) := by
          intro v h
          have := ((grouped_iff _ _).1 h).2.1
          rw [hstrip] at this
          exact this rfl
        have hoct : ∀ v, ¬ Grouped (fun u => ∃ t, u = '0' :: t ∧ IsNumeral 8 t v) ('0' :: p :: t) := by
          intro v h
          obtain ⟨t', h1, h2⟩ := ((grouped_iff _ _).1 h).2
          rw [hstrip] at h1
          obtain ⟨-, rfl⟩ := List.cons.inj h1
          rw [strip_cons, if_neg hpu] at h2
          exact absurd ((isNumeral_iff ..).1 h2) (not_numeral8 (by tauto))
        obtain ⟨d, t, rfl⟩ := List.exists_cons_of_ne_nil ht
        rw [parseUint_all _ (by simp)]
        by_cases hb : p = 'b' ∨ p = 'B'
        · have hx : ¬ (p = 'x' ∨ p = 'X') := by rcases hb with rfl | rfl <;> decide
          have ho : ¬ (p = 'o' ∨ p = 'O') := by rcases hb with rfl | rfl <;> decide
          have e : basePrefix ('0' :: p :: d :: t) = (2, d :: t) := by simp only [basePrefix]; rw [if_pos hb]
          have hu : underscoreOK ('0' :: p :: d :: t) = underscoreLoop false (d :: t) '0' := by
            simp only [underscoreOK]; rw [if_pos (by tauto)]; simp [hx]
          rw [e]
          constructor
          · rintro ⟨h1, h2, h3⟩
            exact ⟨.bin p _ v hb ((groupedAfter_iff _ _).2 ⟨(prefixed_iff (.inl (by norm_num)) ht hu h1).1 h3, (isNumeral_iff ..).2 h1⟩), h2⟩
          · rintro ⟨h, h2⟩
            cases h with
            | dec _ _ h => exact absurd h (hdec v)
            | oct _ _ h => exact absurd h (hoct v)
            | bin _ _ _ _ h =>
              obtain ⟨h3, h4⟩ := (groupedAfter_iff _ _).1 h
              have h1 := (isNumeral_iff ..).1 h4
              exact ⟨h1, h2, (prefixed_iff (.inl (by norm_num)) ht hu h1).2 h3⟩
            | octo _ _ _ h _ => exact absurd h ho
            | hex _ _ _ h _ => exact absurd h hx
        · by_cases ho : p = 'o' ∨ p = 'O'
          · have hx : ¬ (p = 'x' ∨ p = 'X') := by rcases ho with rfl | rfl <;> decide
            have e : basePrefix ('0' :: p :: d :: t) = (8, d :: t) := by simp only [basePrefix]; rw [if_neg hb, if_pos ho]
            have hu : underscoreOK ('0' :: p :: d :: t) = underscoreLoop false (d :: t) '0' := by
              simp only [underscoreOK]; rw [if_pos (by tauto)]; simp [hx]
            rw [e]
            constructor
            · rintro ⟨h1, h2, h3⟩
              exact ⟨.octo p _ v ho ((groupedAfter_iff _ _).2 ⟨(prefixed_iff (.inl (by norm_num)) ht hu h1).1 h3, (isNumeral_iff ..).2 h1⟩), h2⟩
            · rintro ⟨h, h2⟩
              cases h with
              | dec _ _ h => exact absurd h (hdec v)
              | oct _ _ h => exact absurd h (hoct v)
              | octo _ _ _ _ h =>
                obtain ⟨h3, h4⟩ := (groupedAfter_iff _ _).1 h
                have h1 := (isNumeral_iff ..).1 h4
                exact ⟨h1, h2, (prefixed_iff (.inl (by norm_num)) ht hu h1).2 h3⟩
              | bin _ _ _ h _ => exact absurd h hb
              | hex _ _ _ h _ => exact absurd h hx
          · have hx : p = 'x' ∨ p = 'X' := by tauto
            have e : basePrefix ('0' :: p :: d :: t) = (16, d :: t) := by simp only [basePrefix]; rw [if_neg hb, if_neg ho, if_pos hx]
            have hu : underscoreOK ('0' :: p :: d :: t) = underscoreLoop true (d :: t) '0' := by
              simp only [underscoreOK]; rw [if_pos (by tauto)]; simp [hx]
            rw [e]
            constructor
            · rintro ⟨h1, h2, h3⟩
              exact ⟨.hex p _ v hx ((groupedAfter_iff _ _).2 ⟨(prefixed_iff (.inr ⟨rfl, rfl⟩) ht hu h1).1 h3, (isNumeral_iff ..).2 h1⟩), h2⟩
            · rintro ⟨h, h2⟩
              cases h with
              | dec _ _ h => exact absurd h (hdec v)
              | oct _ _ h => exact absurd h (hoct v)
              | hex _ _ _ _ h =>
                obtain ⟨h3, h4⟩ := (groupedAfter_iff _ _).1 h
                have h1 := (isNumeral_iff ..).1 h4
                exact ⟨h1, h2, (prefixed_iff (.inr ⟨rfl, rfl⟩) ht hu h1).2 h3⟩
              | bin _ _ _ h _ => exact absurd h hb
              | octo _ _ _ h _ => exact absurd h ho
      · have e : basePrefix ('0' :: s) = (8, s) := by
          unfold basePrefix
          split
          · rename_i p d t heq
            obtain ⟨-, rfl⟩ := List.cons.inj heq
            have := fun h => hp ⟨p, d :: t, rfl, by simp, h⟩
            rw [if_neg (by tauto), if_neg (by tauto), if_neg (by tauto)]
          · rename_i heq
            rw [(List.cons.inj heq).2]
          · rename_i h
            exact absurd rfl (h s)
        rw [parseUint_all _ (by simp), e]
        -- a lone letter is no octal digit
        have hlone : ∀ p, s = [p] → (p = 'b' ∨ p = 'B' ∨ p = 'o' ∨ p = 'O' ∨ p = 'x' ∨ p = 'X') → ¬ NumeralFrom 8 0 (strip s) v := by
          rintro p rfl h
          rw [strip_cons, if_neg (by rintro rfl; revert h; decide)]
          exact not_numeral8 (by tauto)
        have hu : NumeralFrom 8 0 (strip s) v → underscoreOK ('0' :: s) = underscoreLoop false ('0' :: s) '^' := by
          intro hn
          unfold underscoreOK
          split
          · rename_i p t heq
            obtain ⟨-, rfl⟩ := List.cons.inj heq
            rw [if_neg]
            intro h
            by_cases ht : t = []
            · subst ht
              exact hlone p rfl (by tauto) hn
            · exact hp ⟨p, t, rfl, ht, by tauto⟩
          · rfl
        constructor
        · rintro ⟨h1, h2, h3⟩
          refine ⟨.oct _ v ((grouped_iff _ _).2 ⟨(plain_iff (by norm_num) (.inr rfl) (by simp) (hu h1) h1).1 h3, ?_⟩), h2⟩
          exact ⟨strip s, hstrip, (isNumeral_iff ..).2 h1⟩
        · rintro ⟨h, h2⟩
          have hpre : ∀ p t P, s = p :: t → (p = 'b' ∨ p = 'B' ∨ p = 'o' ∨ p = 'O' ∨ p = 'x' ∨ p = 'X') → ¬ GroupedAfter P t := by
            intro p t P hs hl h
            refine hp ⟨p, t, hs, ?_, hl⟩
            rintro rfl
            rcases ((groupedAfter_iff _ _).1 h).1 with h | ⟨t, h, -⟩
            · exact inGroups_nil h
            · cases h
          cases h with
          | dec _ _ h =>
            have := ((grouped_iff _ _).1 h).2.1
            rw [hstrip] at this
            exact absurd rfl this
          | oct _ _ h =>
            obtain ⟨h3, t', h4, h5⟩ := (grouped_iff _ _).1 h
            rw [hstrip] at h4
            obtain ⟨-, rfl⟩ := List.cons.inj h4
            have h1 := (isNumeral_iff ..).1 h5
            exact ⟨h1, h2, (plain_iff (by norm_num) (.inr rfl) (by simp) (hu h1) h1).2 h3⟩
          | bin p t _ hl h => exact absurd h (hpre p t _ rfl (by tauto))
          | octo p t _ hl h => exact absurd h (hpre p t _ rfl (by tauto))
          | hex p t _ hl h => exact absurd h (hpre p t _ rfl (by tauto))
    · have e : basePrefix (c :: s) = (10, c :: s) := by
        unfold basePrefix
        split
        · rename_i heq; injection heq with h _; exact absurd h hc
        · rename_i heq; injection heq with h _; exact absurd h hc
        · rfl
      have hu : underscoreOK (c :: s) = underscoreLoop false (c :: s) '^' := by
        unfold underscoreOK
        split
        · rename_i heq; injection heq with h _; exact absurd h hc
        · rfl
      have hhead : InGroups (c :: s) → (strip (c :: s)).head? ≠ some '0' := by
        intro h
        have hn : c ≠ '_' := by rintro rfl; exact inGroups_underscore s h
        rw [strip_cons, if_neg hn]
        simpa using hc
      rw [parseUint_all _ (by simp), e]
      constructor
      · rintro ⟨h1, h2, h3⟩
        have hg := (plain_iff (by norm_num) (.inl rfl) (by simp) hu h1).1 h3
        exact ⟨.dec _ v ((grouped_iff _ _).2 ⟨hg, hhead hg, (isNumeral_iff ..).2 h1⟩), h2⟩
      · rintro ⟨h, h2⟩
        cases h with
        | dec _ _ h =>
          obtain ⟨h3, -, h4⟩ := (grouped_iff _ _).1 h
          have h1 := (isNumeral_iff ..).1 h4
          exact ⟨h1, h2, (plain_iff (by norm_num) (.inl rfl) (by simp) hu h1).2 h3⟩
        | oct _ _ h =>
          obtain ⟨h3, t', h4, -⟩ := (grouped_iff _ _).1 h
          have := hhead h3
          rw [h4] at this
          exact absurd rfl this
        | bin _ _ _ _ _ => exact absurd rfl hc
        | octo _ _ _ _ _ => exact absurd rfl hc
        | hex _ _ _ _ _ => exact absurd rfl hc

/-- Base 0 with sign: which texts are accepted, and as which value. -/
theorem intText_iff (s : Str) (v : Int) : parseInt true s = (v, none) ↔ IntText s v := by
  refine parseInt_iff true (fun _ => True) (fun _ _ _ => trivial) UIntText (fun t n _ => parseUint_text_iff t n) ?_ ?_ s trivial v
  · intro n h
    cases h with
    | dec _ _ h => exact absurd ((grouped_iff _ _).1 h).1 inGroups_nil
    | oct _ _ h => exact absurd ((grouped_iff _ _).1 h).1 inGroups_nil
  · intro c t n hc h
    have hn : c ≠ '_' := by rintro rfl; revert hc; decide
    have h0 : c ≠ '0' := by rintro rfl; revert hc; decide
    cases h with
    | dec _ _ h =>
      obtain ⟨-, -, h⟩ := (grouped_iff _ _).1 h
      rw [strip_cons, if_neg hn, isNumeral_iff, numeralFrom_cons] at h
      obtain ⟨d, h, _⟩ := h
      rcases hc with rfl | rfl <;> simp [numeral] at h
    | oct _ _ h =>
      obtain ⟨-, t', h, -⟩ := (grouped_iff _ _).1 h
      rw [strip_cons, if_neg hn] at h
      exact absurd (List.cons.inj h).1 h0
    | bin => simp at hc
    | octo => simp at hc
    | hex => simp at hc

/-- A text without underscore is an integer exactly if it is a literal. -/
theorem intText_plain (s : Str) (hs : '_' ∉ s) (v : Int) : IntText s v ↔ IntLit s v := by rw [← intText_iff, intLit_iff s hs]

end Verif.Go
