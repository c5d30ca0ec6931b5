import Verif.Props.BuilderMore
import Mathlib.Data.Nat.Digits.Defs
/-! C27: a custom line is written unchanged exactly if it contains no percent sign. -/
namespace Verif
open Verif.Go Verif.Model

/-- A text in which each percent sign is followed by an exclamation mark. -/
def Marked (s : Str) : Prop := ∀ x y, s = x ++ '%' :: y → y.head? = some '!'

theorem marked_nil : Marked [] := by
  intro x y h
  simp at h

theorem marked_append {s t : Str} (hs : Marked s) (ht : Marked t) : Marked (s ++ t) := by
  intro x y h
  rcases List.append_eq_append_iff.1 h with ⟨a, h1, h2⟩ | ⟨a, h1, h2⟩
  · exact ht a y h2
  · cases a with
    | nil =>
      exact ht [] y (by simpa using h2.symm)
    | cons c a =>
      simp only [List.cons_append, List.cons.injEq] at h2
      obtain ⟨rfl, rfl⟩ := h2
      have := hs x a h1
      cases a with
      | nil => simp at this
      | cons d a => simpa using this

theorem marked_of {c : Char} {s : Str} (hc : c ≠ '%') (hs : Marked s) : Marked (c :: s) := by
  intro x y h
  cases x with
  | nil => simp at h; exact absurd h.1 hc
  | cons d x => simp only [List.cons_append, List.cons.injEq] at h; exact hs x y h.2

theorem marked_plain {s : Str} (hs : '%' ∉ s) : Marked s := fun x y h => absurd (by rw [h]; simp) hs

theorem marked_start {s : Str} (hs : '%' ∉ s) : Marked ('%' :: '!' :: s) := by
  intro x y h
  cases x with
  | nil => simp only [List.nil_append, List.cons.injEq] at h; rw [← h.2]; rfl
  | cons d x =>
    simp only [List.cons_append, List.cons.injEq] at h
    exact absurd (show '%' ∈ '!' :: s by rw [h.2]; simp) (by simp [hs])

/-- What is kept while a verb is read which began with the rest `s` of the format. -/
structure VerbFrom (s : Str) (v : Verb) : Prop where
  rest : v.rest <:+ s
  text : Marked v.text

theorem skipDigits_suffix (s : Str) : skipDigits s <:+ s := by
  unfold skipDigits
  split
  · exact List.nil_suffix
  · exact List.dropWhile_suffix _

theorem verb_index {s : Str} {v : Verb} (h : VerbFrom s v) : VerbFrom s (sprintfIndex v) := by
  unfold sprintfIndex
  split
  · rename_i t ht
    have hs : t <:+ s := (List.suffix_cons '[' t).trans (ht ▸ h.rest)
    split
    · exact ⟨hs, h.text⟩
    · exact ⟨((List.tail_suffix _).trans (List.dropWhile_suffix _)).trans hs, h.text⟩
  · exact ⟨h.rest, h.text⟩

theorem verb_number {s bad : Str} (hb : Marked bad) {v : Verb} (h : VerbFrom s v) : VerbFrom s (sprintfNumber bad v) := by
  unfold sprintfNumber
  split
  · rename_i t ht
    exact ⟨(List.suffix_cons '*' t).trans (ht ▸ h.rest), marked_append h.text hb⟩
  · exact ⟨(skipDigits_suffix _).trans h.rest, h.text⟩

theorem verb_precision {s : Str} {v : Verb} (h : VerbFrom s v) : VerbFrom s (sprintfPrecision v) := by
  unfold sprintfPrecision
  split
  · rename_i t ht
    exact verb_number (marked_start (s := "(BADPREC)".toList) (by decide))
      (verb_index ⟨(List.suffix_cons '.' t).trans (ht ▸ h.rest), h.text⟩)
  · exact h

theorem verb_last {s : Str} {v : Verb} (h : VerbFrom s v) : VerbFrom s (sprintfLast v) := by
  unfold sprintfLast
  split
  · exact h
  · exact verb_index h

/-- The verb after its flags, indexes, width and precision. -/
def verbEnd (s : Str) : Verb :=
  sprintfLast (sprintfPrecision (sprintfNumber "%!(BADWIDTH)".toList
    (sprintfIndex ⟨[], s.dropWhile (fun c => c ∈ ['#', '0', '+', '-', ' ']), false, true⟩)))

theorem sprintfVerb_eq (s : Str) : sprintfVerb s =
    ((verbEnd s).text ++ (sprintfChar (verbEnd s).good (verbEnd s).rest).1, (sprintfChar (verbEnd s).good (verbEnd s).rest).2) := rfl

theorem verbEnd_from (s : Str) : VerbFrom s (verbEnd s) :=
  verb_last (verb_precision (verb_number (marked_start (s := "(BADWIDTH)".toList) (by decide))
    (verb_index ⟨List.dropWhile_suffix _, marked_nil⟩)))

theorem sprintfChar_percent (good : Bool) (t : Str) : sprintfChar good ('%' :: t) = (['%'], t) :=
  if_pos (e := ('%' :: '!' :: '%' :: (if good then "(MISSING)".toList else "(BADINDEX)".toList), t)) (rfl : '%' = '%')

theorem sprintfChar_other (good : Bool) {c : Char} (hc : c ≠ '%') (t : Str) :
    sprintfChar good (c :: t) = ('%' :: '!' :: c :: (if good then "(MISSING)".toList else "(BADINDEX)".toList), t) := if_neg hc

theorem sprintfChar_rest (good : Bool) (c : Char) (t : Str) : (sprintfChar good (c :: t)).2 = t := by
  by_cases hc : c = '%'
  · subst hc; rw [sprintfChar_percent]
  · rw [sprintfChar_other good hc]

theorem sprintfChar_text (good : Bool) (s : Str) (x y : Str) (h : (sprintfChar good s).1 = x ++ '%' :: y) : y = [] ∨ y.head? = some '!' := by
  cases s with
  | nil =>
    refine .inr (marked_start (s := "(NOVERB)".toList) (by decide) x y ?_)
    exact h
  | cons c t =>
    by_cases hc : c = '%'
    · subst hc
      left
      rw [sprintfChar_percent] at h
      have := congrArg List.length h
      simp only [List.length_append, List.length_cons, List.length_nil] at this
      exact List.length_eq_zero_iff.1 (by omega)
    · right
      rw [sprintfChar_other good hc] at h
      refine marked_start (s := c :: (if good then "(MISSING)".toList else "(BADINDEX)".toList)) ?_ x y h
      cases good <;> simp [Ne.symm hc]

/-- The rest after a verb is shorter, unless there was nothing left. -/
theorem sprintfVerb_rest (s : Str) : ∃ f, s = f ++ (sprintfVerb s).2 ∧ (s ≠ [] → f ≠ []) := by
  obtain ⟨f, hf⟩ := (verbEnd_from s).rest
  rw [sprintfVerb_eq]
  generalize verbEnd s = v at *
  rcases v with ⟨text, _ | ⟨c, t⟩, ai, good⟩
  · refine ⟨f, hf.symm, fun hs => ?_⟩
    rintro rfl
    exact hs hf.symm
  · exact ⟨f ++ [c], by rw [sprintfChar_rest, ← hf]; simp, fun _ => by simp⟩

/-- What is written for a verb: a percent sign is at the end or followed by an exclamation mark. -/
theorem sprintfVerb_text (s x y : Str) (h : (sprintfVerb s).1 = x ++ '%' :: y) : y = [] ∨ y.head? = some '!' := by
  rw [sprintfVerb_eq] at h
  rcases List.append_eq_append_iff.1 h with ⟨a, _, h2⟩ | ⟨a, h1, h2⟩
  · exact sprintfChar_text _ _ a y h2
  · cases a with
    | nil => exact sprintfChar_text _ _ [] y (by simpa using h2.symm)
    | cons c a =>
      simp only [List.cons_append, List.cons.injEq] at h2
      obtain ⟨rfl, rfl⟩ := h2
      have := (verbEnd_from s).text x a h1
      cases a with
      | nil => simp at this
      | cons d a => right; simpa using this

theorem sprintfVerb_nil : sprintfVerb [] = ("%!(NOVERB)".toList, []) := rfl

theorem sprintfVerb_mark (s : Str) : sprintfVerb ('!' :: s) = ("%!!(MISSING)".toList, s) := by
  have w0 : ('!' :: s).dropWhile (fun c => decide (c ∈ ['#', '0', '+', '-', ' '])) = '!' :: s :=
    List.dropWhile_cons_of_neg (by decide)
  have : verbEnd ('!' :: s) = ⟨[], '!' :: s, false, true⟩ := by
    unfold verbEnd
    rw [w0]
    rfl
  rw [sprintfVerb_eq, this]
  rfl

/-- A verb which is part of what is written for it: only `%!`, with which the text begins. -/
theorem sprintfVerb_inside {s f w z : Str} (h : s = f ++ (sprintfVerb s).2) (hf : s ≠ [] → f ≠ [])
    (ho : (sprintfVerb s).1 = w ++ '%' :: f ++ z) : w = [] ∧ (s = [] ∨ ∃ t, s = '!' :: t ∧ f = ['!']) := by
  by_cases hs : s = []
  · subst hs
    refine ⟨?_, .inl rfl⟩
    cases w with
    | nil => rfl
    | cons d w =>
      rw [sprintfVerb_nil] at ho
      exact absurd (show '%' ∈ "!(NOVERB)".toList by
        rw [(List.cons.inj (show '%' :: "!(NOVERB)".toList = _ from ho)).2]; simp) (by decide)
  · obtain ⟨c, f, rfl⟩ := List.exists_cons_of_ne_nil (hf hs)
    rcases sprintfVerb_text s w (c :: f ++ z) (by rw [ho]; simp) with h1 | h1
    · simp at h1
    · simp only [List.cons_append, List.head?_cons, Option.some.injEq] at h1
      subst h1
      obtain ⟨t, rfl⟩ : ∃ t, s = '!' :: t := ⟨_, h⟩
      rw [sprintfVerb_mark] at h ho
      have hw : w = [] := by
        cases w with
        | nil => rfl
        | cons d w =>
          exact absurd (show '%' ∈ "!!(MISSING)".toList by
            rw [(List.cons.inj (show '%' :: "!!(MISSING)".toList = _ from ho)).2]; simp) (by decide)
      refine ⟨hw, .inr ⟨t, rfl, ?_⟩⟩
      simp only [List.cons_append, List.cons.injEq, true_and] at h
      have : f = [] := by
        have := congrArg List.length h
        simp only [List.length_append] at this
        exact List.length_eq_zero_iff.1 (by omega)
      rw [this]

theorem sprintf0_cons_plain {n : Nat} {c : Char} {s : Str} (hc : c ≠ '%') : sprintf0 (n + 1) (c :: s) = c :: sprintf0 n s := by
  rw [sprintf0]; exact fun h => hc h

/-- The formatted text never is the format with something in front of it. -/
theorem sprintf0_ne_append (n : Nat) (r w : Str) (hn : r.length < n) (hw : w ≠ []) : sprintf0 n r ≠ w ++ r := by
  induction n generalizing r w with
  | zero => omega
  | succ n ih =>
    intro h
    cases r with
    | nil => simp [sprintf0] at h; exact hw h
    | cons c r =>
      simp only [List.length_cons] at hn
      by_cases hc : c = '%'
      · subst hc
        rw [sprintf0] at h
        obtain ⟨f, hf, hne⟩ := sprintfVerb_rest r
        have hl := congrArg List.length hf
        rw [List.length_append] at hl
        have h' : (sprintfVerb r).1 ++ sprintf0 n (sprintfVerb r).2 = (w ++ '%' :: f) ++ (sprintfVerb r).2 := by
          rw [h]; conv_lhs => rw [hf]
          simp
        rcases List.append_eq_append_iff.1 h' with ⟨a, h1, h2⟩ | ⟨a, h1, h2⟩
        · cases a with
          | nil =>
            exact hw (sprintfVerb_inside hf hne (z := []) (by simpa using h1.symm)).1
          | cons d a => exact ih (sprintfVerb r).2 (d :: a) (by omega) (by simp) h2
        · exact hw (sprintfVerb_inside hf hne h1).1
      · rw [sprintf0_cons_plain hc] at h
        obtain ⟨a, w, rfl⟩ := List.exists_cons_of_ne_nil hw
        simp only [List.cons_append, List.cons.injEq] at h
        exact ih r (w ++ [c]) (by omega) (by simp) (by rw [h.2]; simp)

theorem sprintf0_ne_missing (n : Nat) (r : Str) (hn : r.length < n) : r ≠ "!(MISSING)".toList ++ sprintf0 n r := by
  induction hk : r.length using Nat.strong_induction_on generalizing n r with
  | _ k ih =>
    intro h
    obtain ⟨r', hr⟩ : ∃ r', r = "!(MISSING)".toList ++ r' := ⟨_, h⟩
    have hlen : r.length = r'.length + 10 := by rw [hr]; simp
    obtain ⟨m, rfl⟩ : ∃ m, n = m + 10 := ⟨n - 10, by omega⟩
    have he : sprintf0 (m + 10) r = "!(MISSING)".toList ++ sprintf0 m r' := by
      rw [hr]
      simp [sprintf0]
    refine ih r'.length (by omega) m r' (by omega) rfl ?_
    rw [he] at h
    rw [hr] at h
    exact List.append_cancel_left h

theorem sprintf0_eq_iff (n : Nat) (s : Str) (hn : s.length < n) : sprintf0 n s = s ↔ '%' ∉ s := by
  induction n generalizing s with
  | zero => omega
  | succ n ih =>
    cases s with
    | nil => simp [sprintf0]
    | cons c s =>
      simp only [List.length_cons] at hn
      by_cases hc : c = '%'
      · subst hc
        simp only [List.mem_cons, true_or, not_true, iff_false]
        rw [sprintf0]
        intro h
        obtain ⟨f, hf, hne⟩ := sprintfVerb_rest s
        have hl := congrArg List.length hf
        rw [List.length_append] at hl
        have h' : (sprintfVerb s).1 ++ sprintf0 n (sprintfVerb s).2 = ('%' :: f) ++ (sprintfVerb s).2 := by
          rw [h]; conv_lhs => rw [hf]
          simp
        have key : ∀ a, (sprintfVerb s).1 = '%' :: f ++ a → (sprintfVerb s).2 = a ++ sprintf0 n (sprintfVerb s).2 → False := by
          intro a h1 h2
          obtain ⟨_, rfl | ⟨t, rfl, hf'⟩⟩ := sprintfVerb_inside (w := []) hf hne h1
          · rw [sprintfVerb_nil] at h1 h2
            have ha : a = [] := by
              rw [eq_comm, List.append_eq_nil_iff] at h2
              exact h2.1
            have hf0 : f = [] := by
              rw [eq_comm, List.append_eq_nil_iff] at hf
              exact hf.1
            rw [ha, hf0] at h1
            exact absurd (congrArg List.length h1) (by decide)
          rw [sprintfVerb_mark] at h1 h2
          have ha : a = "!(MISSING)".toList := by
            rw [hf'] at h1
            simpa using h1.symm
          rw [ha] at h2
          simp only [List.length_cons] at hn
          exact sprintf0_ne_missing n t (by omega) h2
        rcases List.append_eq_append_iff.1 h' with ⟨a, h1, h2⟩ | ⟨a, h1, h2⟩
        · cases a with
          | nil => exact key [] (by simpa using h1.symm) (by simpa using h2.symm)
          | cons d a => exact sprintf0_ne_append n (sprintfVerb s).2 (d :: a) (by omega) (by simp) h2
        · exact key a h1 h2
      · rw [sprintf0_cons_plain hc, List.cons.injEq, ih s (by omega)]
        simp [Ne.symm hc]

/-- **C27**: a custom line without percent sign is written unchanged, followed by a newline. -/
theorem C27_verbatim (g : Builder) (t : Str) (ht : '%' ∉ t) : (g.addCommand t).buf = g.buf ++ (t ++ ['\n']) := by
  show g.buf ++ sprintf0 _ _ = _
  rw [(sprintf0_eq_iff _ _ (by simp)).2 (by simpa using ht)]

/-- **C27**: a custom line with a percent sign is never written unchanged. -/
theorem C27_changed (g : Builder) (t : Str) (ht : '%' ∈ t) : (g.addCommand t).buf ≠ g.buf ++ (t ++ ['\n']) := by
  show g.buf ++ sprintf0 _ _ ≠ _
  rw [Ne, List.append_cancel_left_eq, sprintf0_eq_iff _ _ (by simp)]
  simpa using ht

/-- **C27** The width of a verb is skipped. If it is more than a million without its last digit, the rest of the line is lost. -/
theorem C27_width (ds rest : Str) (hd : ∀ c ∈ ds, '0' ≤ c ∧ c ≤ '9') (hr : ∀ c ∈ rest.head?, ¬ ('0' ≤ c ∧ c ≤ '9')) :
    skipDigits (ds ++ rest) = if Nat.ofDigits 10 (ds.dropLast.reverse.map fun c => c.toNat - '0'.toNat) ≤ 1000000 then rest else [] := by
  have fold : ∀ l : Str, l.foldl (fun n c => 10 * n + (c.toNat - '0'.toNat)) 0 = Nat.ofDigits 10 (l.reverse.map fun c => c.toNat - '0'.toNat) := by
    intro l
    induction l using List.reverseRecOn with
    | nil => rfl
    | append_singleton l c ih =>
      rw [List.foldl_append, ih, List.reverse_append, List.reverse_singleton, List.singleton_append, List.map_cons, Nat.ofDigits_cons, List.foldl_cons, List.foldl_nil]
      push_cast
      exact Nat.add_comm _ _
  have htd : rest.takeWhile (fun c => decide ('0' ≤ c ∧ c ≤ '9')) = [] ∧ rest.dropWhile (fun c => decide ('0' ≤ c ∧ c ≤ '9')) = rest := by
    cases rest with
    | nil => exact ⟨rfl, rfl⟩
    | cons c t =>
      have := hr c rfl
      simp only [List.takeWhile_cons, List.dropWhile_cons, this, decide_false]
      exact ⟨rfl, rfl⟩
  have ht : (ds ++ rest).takeWhile (fun c => decide ('0' ≤ c ∧ c ≤ '9')) = ds := by
    rw [List.takeWhile_append_of_pos (by simpa using hd), htd.1, List.append_nil]
  have hd' : (ds ++ rest).dropWhile (fun c => decide ('0' ≤ c ∧ c ≤ '9')) = rest := by
    rw [List.dropWhile_append_of_pos (by simpa using hd), htd.2]
  unfold skipDigits
  rw [ht, hd', fold]
  by_cases h : Nat.ofDigits 10 (ds.dropLast.reverse.map fun c => c.toNat - '0'.toNat) ≤ 1000000
  · rw [if_neg (by omega), if_pos h]
  · rw [if_pos (by omega), if_neg h]

example : skipDigits "12d".toList = ['d'] ∧ skipDigits "10000010d".toList = [] := by decide +kernel

/-- **C27** A number in brackets takes the character after it as the verb, whatever else would begin there. -/
theorem C27_index (ds t : Str) (c : Char) (hne : ds ≠ []) (hlen : ds.length ≤ 6) (hd : ∀ c ∈ ds, '0' ≤ c ∧ c ≤ '9') (hc : ¬ ('0' ≤ c ∧ c ≤ '9'))
    (hc' : c ≠ '*' ∧ c ≠ '.' ∧ c ≠ '%') :
    sprintfVerb ('[' :: (ds ++ ']' :: c :: t)) = ('%' :: '!' :: c :: "(BADINDEX)".toList, t) := by
  have hb : ∀ d ∈ ds, decide (d ≠ ']') = true := by
    intro d hdd
    have := hd d hdd
    rw [decide_eq_true_eq]
    rintro rfl
    exact absurd this (by decide)
  have htake : (ds ++ ']' :: c :: t).takeWhile (fun x => decide (x ≠ ']')) = ds := by
    rw [List.takeWhile_append_of_pos hb]
    simp
  have hdrop : (ds ++ ']' :: c :: t).dropWhile (fun x => decide (x ≠ ']')) = ']' :: c :: t := by
    rw [List.dropWhile_append_of_pos hb]
    simp
  have hsmall : ∀ l : Str, (∀ c ∈ l, '0' ≤ c ∧ c ≤ '9') → l.foldl (fun n c => 10 * n + (c.toNat - '0'.toNat)) 0 < 10 ^ l.length := by
    intro l
    induction l using List.reverseRecOn with
    | nil => intro _; simp
    | append_singleton l d ih =>
      intro hl
      have h1 := ih fun x hx => hl x (List.mem_append_left _ hx)
      have h2 : d.toNat ≤ 57 := (hl d (by simp)).2
      have h3 : '0'.toNat = 48 := rfl
      rw [List.foldl_append, List.foldl_cons, List.foldl_nil, List.length_append, List.length_singleton, pow_succ]
      omega
  have hidx : isIndex ds = true := by
    have h1 := hsmall ds.dropLast fun x hx => hd x (List.dropLast_subset _ hx)
    have h2 : 10 ^ ds.dropLast.length ≤ 10 ^ 5 := Nat.pow_le_pow_right (by norm_num) (by rw [List.length_dropLast]; omega)
    unfold isIndex
    rw [Bool.and_eq_true, Bool.and_eq_true, decide_eq_true_eq]
    refine ⟨⟨by simpa using hne, by simpa using hd⟩, by omega⟩
  have hskip : skipDigits (c :: t) = c :: t := by
    have := C27_width [] (c :: t) (by simp) (by simpa using hc)
    simpa using this
  have h1 : sprintfIndex ⟨[], '[' :: (ds ++ ']' :: c :: t), false, true⟩ = ⟨[], c :: t, true, false⟩ := by
    show (if (ds ++ ']' :: c :: t).length < 2 ∨ ']' ∉ ds ++ ']' :: c :: t then _ else _) = _
    rw [if_neg (by simp; omega)]
    dsimp only
    rw [htake, hdrop, hidx]
    rfl
  have h2 : ∀ bad : Str, sprintfNumber bad ⟨[], c :: t, true, false⟩ = ⟨[], c :: t, true, false⟩ := by
    intro bad
    unfold sprintfNumber
    split
    · rename_i h
      exact absurd (List.cons.inj h).1 hc'.1
    · dsimp only
      rw [hskip]
  have h3 : sprintfPrecision ⟨[], c :: t, true, false⟩ = ⟨[], c :: t, true, false⟩ := by
    unfold sprintfPrecision
    split
    · rename_i h
      exact absurd (List.cons.inj h).1 hc'.2.1
    · rfl
  have h0 : ('[' :: (ds ++ ']' :: c :: t)).dropWhile (fun c => decide (c ∈ ['#', '0', '+', '-', ' '])) = '[' :: (ds ++ ']' :: c :: t) := by
    rw [List.dropWhile_cons]
    simp
  unfold sprintfVerb
  rw [h0]
  dsimp only
  rw [h1, h2, h3]
  unfold sprintfLast
  rw [if_pos rfl, sprintfChar_other _ hc'.2.2]
  rfl

/-- **C27** A bracket which is not closed is dropped, and the character after it is the verb. -/
theorem C27_unclosed (t : Str) (c : Char) (hb : ']' ∉ c :: t) (hc : ¬ ('0' ≤ c ∧ c ≤ '9')) (hc' : c ≠ '*' ∧ c ≠ '.' ∧ c ≠ '%' ∧ c ≠ '[') :
    sprintfVerb ('[' :: c :: t) = ('%' :: '!' :: c :: "(BADINDEX)".toList, t) := by
  have hskip : skipDigits (c :: t) = c :: t := by
    have := C27_width [] (c :: t) (by simp) (by simpa using hc)
    simpa using this
  have h1 : sprintfIndex ⟨[], '[' :: c :: t, false, true⟩ = ⟨[], c :: t, false, false⟩ := by
    show (if (c :: t).length < 2 ∨ ']' ∉ c :: t then _ else _) = _
    rw [if_pos (.inr hb)]
  have h2 : ∀ bad : Str, sprintfNumber bad ⟨[], c :: t, false, false⟩ = ⟨[], c :: t, false, false⟩ := by
    intro bad
    unfold sprintfNumber
    split
    · rename_i h
      exact absurd (List.cons.inj h).1 hc'.1
    · dsimp only
      rw [hskip]
  have h3 : sprintfPrecision ⟨[], c :: t, false, false⟩ = ⟨[], c :: t, false, false⟩ := by
    unfold sprintfPrecision
    split
    · rename_i h
      exact absurd (List.cons.inj h).1 hc'.2.1
    · rfl
  have h4 : sprintfIndex ⟨[], c :: t, false, false⟩ = ⟨[], c :: t, false, false⟩ := by
    unfold sprintfIndex
    split
    · rename_i h
      exact absurd (List.cons.inj h).1 hc'.2.2.2
    · rfl
  have h0 : ('[' :: c :: t).dropWhile (fun c => decide (c ∈ ['#', '0', '+', '-', ' '])) = '[' :: c :: t := by
    rw [List.dropWhile_cons]
    simp
  unfold sprintfVerb
  rw [h0]
  dsimp only
  rw [h1, h2, h3]
  unfold sprintfLast
  rw [if_neg (by simp), h4, sprintfChar_other _ hc'.2.2.1]
  rfl

/-- **C27** A star for the width is reported, and what is in brackets after it is dropped. -/
theorem C27_star (x t : Str) (c : Char) (hb : ']' ∉ x) (hc' : c ≠ '%') :
    sprintfVerb ('*' :: '[' :: (x ++ ']' :: c :: t)) = ("%!(BADWIDTH)%!".toList ++ c :: "(BADINDEX)".toList, t) := by
  have hx : ∀ d ∈ x, decide (d ≠ ']') = true := by
    intro d hdd
    rw [decide_eq_true_eq]
    rintro rfl
    exact hb hdd
  have hdrop : (x ++ ']' :: c :: t).dropWhile (fun x => decide (x ≠ ']')) = ']' :: c :: t := by
    rw [List.dropWhile_append_of_pos hx]
    simp
  have h1 : sprintfIndex ⟨[], '*' :: '[' :: (x ++ ']' :: c :: t), false, true⟩ = ⟨[], '*' :: '[' :: (x ++ ']' :: c :: t), false, true⟩ := rfl
  have h2 : ∀ bad : Str, sprintfNumber bad ⟨[], '*' :: '[' :: (x ++ ']' :: c :: t), false, true⟩ = ⟨bad, '[' :: (x ++ ']' :: c :: t), false, true⟩ := fun bad => rfl
  have h3 : ∀ bad : Str, sprintfPrecision ⟨bad, '[' :: (x ++ ']' :: c :: t), false, true⟩ = ⟨bad, '[' :: (x ++ ']' :: c :: t), false, true⟩ := fun bad => rfl
  have h4 : ∀ bad : Str, ∃ i, sprintfIndex ⟨bad, '[' :: (x ++ ']' :: c :: t), false, true⟩ = ⟨bad, c :: t, i, false⟩ := by
    intro bad
    refine ⟨isIndex ((x ++ ']' :: c :: t).takeWhile (· ≠ ']')), ?_⟩
    show (if (x ++ ']' :: c :: t).length < 2 ∨ ']' ∉ x ++ ']' :: c :: t then _ else _) = _
    rw [if_neg (by simp; omega)]
    dsimp only
    rw [hdrop]
    rfl
  have h0 : ('*' :: '[' :: (x ++ ']' :: c :: t)).dropWhile (fun c => decide (c ∈ ['#', '0', '+', '-', ' '])) = '*' :: '[' :: (x ++ ']' :: c :: t) := by
    rw [List.dropWhile_cons]
    simp
  obtain ⟨i, hi⟩ := h4 "%!(BADWIDTH)".toList
  unfold sprintfVerb
  rw [h0]
  dsimp only
  rw [h1, h2, h3]
  unfold sprintfLast
  rw [if_neg (by simp), hi, sprintfChar_other _ hc']
  rfl

example : sprintfVerb "[ab".toList = ("%!a(BADINDEX)".toList, "b".toList) ∧ sprintfVerb "*[1]d".toList = ("%!(BADWIDTH)%!d(BADINDEX)".toList, []) :=
  ⟨C27_unclosed "b".toList 'a' (by decide) (by decide) (by decide), C27_star "1".toList [] 'd' (by decide) (by decide)⟩

example : sprintfVerb "[10][2]d".toList = ("%![(BADINDEX)".toList, "2]d".toList) ∧ sprintfVerb "[x][2]d".toList = ("%!d(BADINDEX)".toList, []) :=
  ⟨C27_index "10".toList "2]d".toList '[' (by decide) (by decide) (by decide) (by decide) (by decide), by decide +kernel⟩

example : '%' ∉ "G28 ; home".toList ∧ '%' ∈ "M117 50%".toList := by decide

/-- **C27**: what becomes of some lines with a percent sign. -/
example : sprintf0 20 "50%\n".toList = "50%!\n(MISSING)".toList ∧ sprintf0 20 "50%%\n".toList = "50%\n".toList ∧
    sprintf0 20 "%[1]d\n".toList = "%!d(BADINDEX)\n".toList ∧ sprintf0 20 "%[a]%\n".toList = "%\n".toList ∧
    sprintf0 20 "%[1]5[2]d\n".toList = "%![(BADINDEX)2]d\n".toList ∧ sprintf0 20 "%*.[\n".toList = "%!(BADWIDTH)%!\n(BADINDEX)".toList ∧
    sprintf0 20 "%.*[]]\n".toList = "%!(BADPREC)%!](BADINDEX)\n".toList := by decide +kernel

end Verif
