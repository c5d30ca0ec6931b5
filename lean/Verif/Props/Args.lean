import Verif.Model.Args
import Verif.Spec.Args
import Verif.Props.Flags

/-! # C142: the arguments of the command -/
namespace Verif
open Verif.Go Verif.Model Verif.Spec

/-! ## Flags by name -/

theorem known_flag {name : String} (h : optionOf {} name ≠ none) : ∃ f ∈ flags, f.name = name :=
  List.mem_map.1 (mem_flag_names {} name h)

theorem flag_known {f : Flag} (h : f ∈ flags) : optionOf {} f.name ≠ none := by
  have := flags_optionOf f h startState
  rw [show inForce startState = {} from rfl] at this
  rw [this]
  simp

theorem isBool_iff {f : Flag} (h : f ∈ flags) : f.isBool = true ↔ IsSwitch f.name := by
  have := flags_optionOf f h startState
  rw [show inForce startState = {} from rfl] at this
  unfold IsSwitch
  rw [this]
  obtain ⟨n, k, g, p⟩ := f
  cases k <;> simp only [Flag.isBool, kindValue, Option.some.injEq]
  · exact ⟨fun _ => ⟨_, rfl⟩, fun _ => trivial⟩
  all_goals simp

/-- The names have no `=` and do not begin with `-`. -/
theorem names_plain : ∀ f ∈ flags, '=' ∉ f.name.toList ∧ f.name.toList.head? ≠ some '-' ∧ f.name.toList ≠ [] := by
  have h : ∀ n ∈ flags.map Flag.name, '=' ∉ n.toList ∧ n.toList.head? ≠ some '-' ∧ n.toList ≠ [] := by decide +kernel
  exact fun f hf => h f.name (List.mem_map_of_mem hf)

theorem splitEquals_none {s : Str} (h : '=' ∉ s) : splitEquals s = (s, none) := by
  induction s with
  | nil => rfl
  | cons c s ih =>
    rw [splitEquals, if_neg (by rintro rfl; exact h (by simp)), ih (fun hs => h (by simp [hs]))]

theorem splitEquals_some {s : Str} (h : '=' ∉ s) (v : Str) : splitEquals (s ++ '=' :: v) = (s, some v) := by
  induction s with
  | nil => simp [splitEquals]
  | cons c s ih =>
    rw [List.cons_append, splitEquals, if_neg (by rintro rfl; exact h (by simp)), ih (fun hs => h (by simp [hs]))]

theorem splitEquals_spec (s : Str) : (splitEquals s = (s, none) ∧ '=' ∉ s) ∨ ∃ a v, splitEquals s = (a, some v) ∧ s = a ++ '=' :: v ∧ '=' ∉ a := by
  induction s with
  | nil => exact .inl ⟨rfl, by simp⟩
  | cons c s ih =>
    by_cases hc : c = '='
    · subst hc
      exact .inr ⟨[], s, by simp [splitEquals], rfl, by simp⟩
    · rw [splitEquals, if_neg hc]
      rcases ih with ⟨e, h⟩ | ⟨a, v, e, rfl, h⟩
      · exact .inl ⟨by rw [e], by simp [h, Ne.symm hc]⟩
      · exact .inr ⟨c :: a, v, by rw [e], rfl, by simp [h, Ne.symm hc]⟩

/-! ## Single arguments -/

theorem longArg_equals {f : Flag} (hf : f ∈ flags) (v : Str) : longArg (f.name.toList ++ '=' :: v) = .settings [(f.name.toList, v)] := by
  obtain ⟨h1, h2, h3⟩ := names_plain f hf
  have e := splitEquals_some h1 v
  have hfind := find_flag' hf
  generalize f.name.toList = n at *
  cases n with
  | nil => exact absurd rfl h3
  | cons c n =>
    rw [List.cons_append] at e ⊢
    simp only [List.head?_cons, ne_eq, Option.some.injEq] at h2
    rw [longArg, if_neg (by rintro (rfl | rfl); exact h2 rfl; exact h1 (by simp))]
    simp only [e, hfind]

theorem longArg_name {f : Flag} (hf : f ∈ flags) :
    longArg f.name.toList = if f.isBool then .settings [(f.name.toList, "true".toList)] else .needsValue [] f.name.toList := by
  obtain ⟨h1, h2, h3⟩ := names_plain f hf
  have e := splitEquals_none h1
  have hfind := find_flag' hf
  generalize f.name.toList = n at *
  cases n with
  | nil => exact absurd rfl h3
  | cons c n =>
    simp only [List.head?_cons, ne_eq, Option.some.injEq] at h2
    rw [longArg, if_neg (by rintro (rfl | rfl); exact h2 rfl; exact h1 (by simp))]
    simp only [e, hfind]

/-- What an argument which begins with `--` is. -/
theorem longArg_spec (text : Str) : (text = [] ∧ longArg text = .stop) ∨ longArg text = .bad [] ∨
    (∃ f ∈ flags, ∃ v, text = f.name.toList ++ '=' :: v ∧ longArg text = .settings [(f.name.toList, v)]) ∨
    (∃ f ∈ flags, text = f.name.toList ∧ f.isBool = true ∧ longArg text = .settings [(f.name.toList, "true".toList)]) ∨
    ∃ f ∈ flags, text = f.name.toList ∧ f.isBool = false ∧ longArg text = .needsValue [] f.name.toList := by
  cases text with
  | nil => exact .inl ⟨rfl, rfl⟩
  | cons c text =>
    refine .inr ?_
    by_cases hc : c = '-' ∨ c = '='
    · exact .inl (by rw [longArg, if_pos hc])
    · cases hfind : flags.find? (fun f => f.name.toList = (splitEquals (c :: text)).1) with
      | none => exact .inl (by rw [longArg, if_neg hc]; simp only [hfind])
      | some f =>
        obtain ⟨hf, hn⟩ := find_flag hfind
        refine .inr ?_
        rcases splitEquals_spec (c :: text) with ⟨e, h⟩ | ⟨a, v, e, h1, h2⟩
        · rw [e] at hn
          replace hn : f.name.toList = c :: text := hn
          refine .inr ?_
          rw [← hn, longArg_name hf]
          cases hb : f.isBool with
          | true => exact .inl ⟨f, hf, rfl, hb, by simp⟩
          | false => exact .inr ⟨f, hf, rfl, hb, by simp⟩
        · rw [e] at hn
          replace hn : f.name.toList = a := hn
          refine .inl ⟨f, hf, v, by rw [hn, h1], ?_⟩
          rw [h1, ← hn]
          exact longArg_equals hf v

theorem after_settings (l m : List (Str × Str)) : (ArgKind.settings m).after l = .settings (l ++ m) := rfl

/-- What short flags mean. -/
def shortKind : ShortEnd → ArgKind
  | .nothing => .settings []
  | .ignored _ => .settings []
  | .version value => .settings [("version".toList, value)]
  | .output value => .settings [("output".toList, value)]
  | .outputEquals value => .settings [("output".toList, value)]
  | .outputNext _ => .needsValue [] "output".toList

theorem shortArg_end {e : ShortEnd} {n : Nat} (h : (Word.short n e).Valid) : shortArg e.texts.1 = shortKind e := by
  cases e with
  | nothing => rfl
  | ignored t => rfl
  | version v =>
    cases v with
    | nil => exact absurd rfl h
    | cons d v => rfl
  | output v =>
    cases v with
    | nil => exact absurd rfl h.1
    | cons d v =>
      by_cases hd : d = '='
      · subst hd
        cases h.2 rfl
        rfl
      · show shortArg ('o' :: d :: v) = _
        unfold shortArg
        rw [if_neg (by simp), if_neg (by decide), if_pos rfl]
        split
        · rename_i heq
          simp only [List.cons.injEq] at heq
          exact absurd heq.1 hd
        · rename_i heq
          cases heq
        · rename_i heq
          cases heq
          rfl
  | outputEquals v =>
    cases v with
    | nil => exact absurd rfl h
    | cons d v => rfl
  | outputNext v => rfl

theorem short_head {e : ShortEnd} {n : Nat} (h : (Word.short n e).Valid) : e.texts.1.head? ≠ some '=' := by
  cases e <;> simp [ShortEnd.texts]

theorem shortArg_v {s : Str} (h : s.head? ≠ some '=') : shortArg ('v' :: s) = (shortArg s).after [("version".toList, "true".toList)] := by
  rw [shortArg.eq_def]
  simp only
  rw [if_neg (by simp), if_pos trivial]
  split
  · simp at h
  · rfl

theorem after_after (l m : List (Str × Str)) (k : ArgKind) : (k.after m).after l = k.after (l ++ m) := by
  cases k <;> simp [ArgKind.after]

theorem shortArg_word {e : ShortEnd} {n : Nat} (h : (Word.short n e).Valid) (k : Nat) :
    shortArg (List.replicate k 'v' ++ e.texts.1) = (shortKind e).after (List.replicate k ("version".toList, "true".toList)) := by
  induction k with
  | zero =>
    rw [List.replicate_zero, List.nil_append, shortArg_end h]
    cases e <;> rfl
  | succ k ih =>
    rw [List.replicate_succ, List.cons_append, shortArg_v, ih, after_after]
    · rfl
    · cases k with
      | zero => simpa using short_head h
      | succ k => simp [List.replicate_succ]

/-! ## The whole list -/

/-- What an argument which begins with one `-` is. -/
theorem shortArg_spec (s : Str) : (∃ l, shortArg s = .bad l) ∨
    ∃ (n : Nat) (e : ShortEnd), s = List.replicate n 'v' ++ e.texts.1 ∧ (e = .nothing ∨ (Word.short n e).Valid) ∧
      (∀ v, e = .outputNext v → v = []) := by
  induction s with
  | nil => exact .inr ⟨0, .nothing, rfl, .inl rfl, by simp⟩
  | cons c rest ih =>
    by_cases ht : "test.".toList.isPrefixOf (c :: rest) = true
    · obtain ⟨t, ht⟩ := List.isPrefixOf_iff_prefix.1 ht
      exact .inr ⟨0, .ignored t, by rw [← ht]; rfl, .inr trivial, by simp⟩
    by_cases hv : c = 'v'
    · subst hv
      by_cases he : ∃ d value, rest = '=' :: d :: value
      · obtain ⟨d, value, rfl⟩ := he
        exact .inr ⟨0, .version (d :: value), rfl, .inr (by simp [Word.Valid]), by simp⟩
      · have e : shortArg ('v' :: rest) = (shortArg rest).after [("version".toList, "true".toList)] := by
          rw [shortArg.eq_def]
          simp only
          rw [if_neg ht, if_pos trivial]
          split
          · exact absurd ⟨_, _, rfl⟩ he
          · rfl
        rcases ih with ⟨l, h⟩ | ⟨n, en, h1, h2, h3⟩
        · exact .inl ⟨_, by rw [e, h]; rfl⟩
        · refine .inr ⟨n + 1, en, by rw [h1]; rfl, ?_, h3⟩
          rcases h2 with h2 | h2
          · exact .inl h2
          · exact .inr (by cases en <;> simp_all [Word.Valid])
    by_cases ho : c = 'o'
    · subst ho
      refine .inr ?_
      cases rest with
      | nil => exact ⟨0, .outputNext [], rfl, .inr trivial, by simp⟩
      | cons d value =>
        by_cases hd : d = '='
        · subst hd
          cases value with
          | nil => exact ⟨0, .output ['='], rfl, .inr (by simp [Word.Valid]), by simp⟩
          | cons d value => exact ⟨0, .outputEquals (d :: value), rfl, .inr (by simp [Word.Valid]), by simp⟩
        · exact ⟨0, .output (d :: value), rfl, .inr (by simp [Word.Valid, hd]), by simp⟩
    · refine .inl ⟨[], ?_⟩
      rw [shortArg.eq_def]
      simp only
      rw [if_neg ht, if_neg hv, if_neg ho]

theorem argKind_long (text : Str) : argKind ("--".toList ++ text) = longArg text := rfl

theorem argKind_short {s : Str} (h : s ≠ []) (h2 : s.head? ≠ some '-') : argKind ('-' :: s) = shortArg s := by
  cases s with
  | nil => exact absurd rfl h
  | cons c s =>
    unfold argKind
    split
    · rename_i heq
      simp only [List.cons.injEq, true_and] at heq
      exact absurd (by rw [heq.1]; rfl) h2
    · rename_i heq
      simp only [List.cons.injEq, true_and] at heq
      rw [heq.1, heq.2]
    · rename_i h3
      exact absurd rfl (h3 _ _)

theorem argKind_plain {s : Str} (h : s = ['-'] ∨ s.head? ≠ some '-') : argKind s = .plain := by
  unfold argKind
  split
  · simp at h
  · simp at h
  · rfl

/-- The first word of a list of arguments, and the rest. -/
theorem splitArgs_word {w : Word} (h : w.Valid) (rest : List Str) :
    splitArgs (w.texts ++ rest) =
      { splitArgs rest with settings := w.settings ++ (splitArgs rest).settings, args := w.paths ++ (splitArgs rest).args } := by
  cases w with
  | path t => simp only [Word.texts, List.singleton_append, splitArgs, argKind_plain h, Word.settings, Word.paths, List.nil_append]
  | equals name v =>
    obtain ⟨f, hf, rfl⟩ := known_flag h
    simp only [Word.texts, List.singleton_append, splitArgs, List.append_assoc, argKind_long, longArg_equals hf, Word.settings, Word.paths, List.nil_append]
  | next name v =>
    obtain ⟨f, hf, rfl⟩ := known_flag h.1
    have hb : f.isBool ≠ true := fun hb => h.2 ((isBool_iff hf).1 hb)
    simp only [Word.texts, List.cons_append, List.nil_append, splitArgs, argKind_long, longArg_name hf, if_neg hb, Word.settings, Word.paths]
  | on name =>
    obtain ⟨b, hb⟩ := h
    obtain ⟨f, hf, rfl⟩ := known_flag (name := name) (by rw [hb]; simp)
    have hb : f.isBool = true := (isBool_iff hf).2 ⟨b, hb⟩
    simp only [Word.texts, List.singleton_append, splitArgs, argKind_long, longArg_name hf, if_pos hb, Word.settings, Word.paths, List.nil_append]
  | short n e =>
    have h1 : List.replicate n 'v' ++ e.texts.1 ≠ [] := by
      cases e <;> simp [ShortEnd.texts]
      exact Nat.pos_iff_ne_zero.1 h
    have h2 : (List.replicate n 'v' ++ e.texts.1).head? ≠ some '-' := by
      cases n with
      | zero => cases e <;> simp [ShortEnd.texts]
      | succ n => simp [List.replicate_succ]
    have hk : argKind ('-' :: (List.replicate n 'v' ++ e.texts.1)) = (shortKind e).after (List.replicate n ("version".toList, "true".toList)) := by
      rw [argKind_short h1 h2, shortArg_word h]
    simp only [Word.texts, List.cons_append, splitArgs, hk, Word.settings, Word.paths]
    generalize List.replicate n ("version".toList, "true".toList) = r
    cases e <;> simp [shortKind, ArgKind.after, ShortEnd.texts]

theorem splitArgs_words {ws : List Word} (h : ∀ w ∈ ws, w.Valid) (rest : List Str) :
    splitArgs (ws.flatMap Word.texts ++ rest) =
      { splitArgs rest with
        settings := ws.flatMap Word.settings ++ (splitArgs rest).settings
        args := ws.flatMap Word.paths ++ (splitArgs rest).args } := by
  induction ws with
  | nil => rfl
  | cons w ws ih =>
    rw [List.flatMap_cons, List.append_assoc, splitArgs_word (h w (by simp)), ih (fun w hw => h w (by simp [hw]))]
    simp only [List.flatMap_cons, List.append_assoc]

/-- **C142** A call made of words which exist: pflag makes exactly their settings, in order, and the other words are the arguments, wherever they stand. -/
theorem C142_words {ws : List Word} (h : ∀ w ∈ ws, w.Valid) :
    splitArgs (ws.flatMap Word.texts) = { settings := ws.flatMap Word.settings, args := ws.flatMap Word.paths } := by
  have := splitArgs_words h []
  rw [List.append_nil] at this
  rw [this]
  simp [splitArgs]

example : splitArgs ["--layer-thickness=300".toList, "model.stl".toList, "-vo".toList, "out.gcode".toList, "--support-enabled".toList, "--center".toList, "-5_0_0".toList] =
    { settings := [("layer-thickness".toList, "300".toList), ("version".toList, "true".toList), ("output".toList, "out.gcode".toList),
        ("support-enabled".toList, "true".toList), ("center".toList, "-5_0_0".toList)]
      args := ["model.stl".toList] } :=
  C142_words (ws := [.equals "layer-thickness" "300".toList, .path "model.stl".toList, .short 1 (.outputNext "out.gcode".toList), .on "support-enabled",
    .next "center" "-5_0_0".toList]) (by
      intro w hw
      simp only [List.mem_cons, List.not_mem_nil, or_false] at hw
      rcases hw with rfl | rfl | rfl | rfl | rfl
      · simp [Word.Valid, optionOf]
      · exact .inr (by decide)
      · trivial
      · exact ⟨false, rfl⟩
      · exact ⟨by simp [optionOf], fun ⟨b, hb⟩ => by simp [optionOf] at hb⟩)

/-- **C142** After `--` everything is an argument. -/
theorem C142_stop {ws : List Word} (h : ∀ w ∈ ws, w.Valid) (more : List Str) :
    splitArgs (ws.flatMap Word.texts ++ "--".toList :: more) = { settings := ws.flatMap Word.settings, args := ws.flatMap Word.paths ++ more } := by
  rw [splitArgs_words h]
  have : splitArgs ("--".toList :: more) = { args := more } := rfl
  rw [this]
  simp

example : splitArgs ["--support-enabled".toList, "--".toList, "-model.stl".toList] =
    { settings := [("support-enabled".toList, "true".toList)], args := ["-model.stl".toList] } :=
  C142_stop (ws := [.on "support-enabled"]) (by simpa using ⟨false, rfl⟩) ["-model.stl".toList]

theorem head_or (s : Str) : (s = ['-'] ∨ s.head? ≠ some '-') ∨ (∃ t, s = "--".toList ++ t) ∨ ∃ t, s = '-' :: t ∧ t ≠ [] ∧ t.head? ≠ some '-' := by
  cases s with
  | nil => exact .inl (.inr (by simp))
  | cons c s =>
    by_cases hc : c = '-'
    · subst hc
      cases s with
      | nil => exact .inl (.inl rfl)
      | cons d s =>
        by_cases hd : d = '-'
        · subst hd
          exact .inr (.inl ⟨s, rfl⟩)
        · exact .inr (.inr ⟨d :: s, rfl, by simp, by simpa using hd⟩)
    · exact .inl (.inr (by simpa using hc))

theorem words_cons {w : Word} (hw : w.Valid) {rest argv : List Str} (e : argv = w.texts ++ rest)
    (h : ∃ ws : List Word, (∀ w ∈ ws, w.Valid) ∧ (rest = ws.flatMap Word.texts ∨ ∃ more, rest = ws.flatMap Word.texts ++ "--".toList :: more)) :
    ∃ ws : List Word, (∀ w ∈ ws, w.Valid) ∧ (argv = ws.flatMap Word.texts ∨ ∃ more, argv = ws.flatMap Word.texts ++ "--".toList :: more) := by
  obtain ⟨ws, h1, h2⟩ := h
  refine ⟨w :: ws, by simpa using ⟨hw, h1⟩, ?_⟩
  rcases h2 with h2 | ⟨more, h2⟩
  · exact .inl (by rw [e, h2]; rfl)
  · exact .inr ⟨more, by rw [e, h2, List.flatMap_cons, List.append_assoc]⟩

/-- **C142** There are no other calls: all else is refused. -/
theorem C142_complete (argv : List Str) (h : (splitArgs argv).broken = false) :
    ∃ ws : List Word, (∀ w ∈ ws, w.Valid) ∧ (argv = ws.flatMap Word.texts ∨ ∃ more, argv = ws.flatMap Word.texts ++ "--".toList :: more) := by
  induction hn : argv.length using Nat.strong_induction_on generalizing argv with
  | _ n ih =>
  subst hn
  have step : ∀ {w : Word} {rest : List Str}, w.Valid → argv = w.texts ++ rest →
      ∃ ws : List Word, (∀ w ∈ ws, w.Valid) ∧ (argv = ws.flatMap Word.texts ∨ ∃ more, argv = ws.flatMap Word.texts ++ "--".toList :: more) := by
    intro w rest hw e
    refine words_cons hw e (ih rest.length ?_ rest ?_ rfl)
    · rw [e, List.length_append]
      have : 0 < w.texts.length := by cases w <;> simp [Word.texts]
      omega
    · rw [e, splitArgs_word hw] at h
      exact h
  cases argv with
  | nil => exact ⟨[], by simp, .inl rfl⟩
  | cons s rest =>
    rcases head_or s with hp | ⟨t, rfl⟩ | ⟨t, rfl, h1, h2⟩
    · exact step (w := .path s) hp rfl
    · rcases longArg_spec t with ⟨rfl, -⟩ | hb | ⟨f, hf, v, rfl, -⟩ | ⟨f, hf, rfl, hb, -⟩ | ⟨f, hf, rfl, hb, hk⟩
      · exact ⟨[], by simp, .inr ⟨rest, rfl⟩⟩
      · rw [splitArgs, argKind_long, hb] at h
        cases h
      · exact step (w := .equals f.name v) (rest := rest) (flag_known hf) (by simp [Word.texts])
      · exact step (w := .on f.name) ((isBool_iff hf).1 hb) rfl
      · cases rest with
        | nil =>
          rw [splitArgs, argKind_long, hk] at h
          cases h
        | cons v rest =>
          exact step (w := .next f.name v) ⟨flag_known hf, fun hs => by rw [(isBool_iff hf).2 hs] at hb; cases hb⟩ rfl
    · rcases shortArg_spec t with ⟨l, hl⟩ | ⟨n, e, rfl, he, hv⟩
      · rw [splitArgs, argKind_short h1 h2, hl] at h
        cases h
      · have hw : (Word.short n e).Valid := by
          rcases he with rfl | he
          · exact Nat.pos_of_ne_zero (by rintro rfl; exact h1 rfl)
          · exact he
        by_cases ho : ∃ v, e = .outputNext v
        · obtain ⟨v, rfl⟩ := ho
          cases rest with
          | nil =>
            rw [splitArgs, argKind_short h1 h2, shortArg_word hw] at h
            cases h
          | cons v' rest => exact step (w := .short n (.outputNext v')) trivial rfl
        · refine step (w := .short n e) (rest := rest) hw ?_
          have : e.texts.2 = [] := by
            cases e <;> first | rfl | exact absurd ⟨_, rfl⟩ ho
          simp [Word.texts, this]

example : ∃ ws : List Word, (∀ w ∈ ws, w.Valid) ∧ (["-vvv".toList] = ws.flatMap Word.texts ∨ ∃ more, ["-vvv".toList] = ws.flatMap Word.texts ++ "--".toList :: more) :=
  C142_complete _ rfl

/-- **C142** A call which is not made of such words has status 2 and touches nothing. -/
theorem C142_refused (ext : Externals) (argv : List Str) (w : World)
    (h : ¬ ∃ ws : List Word, (∀ w ∈ ws, w.Valid) ∧ (argv = ws.flatMap Word.texts ∨ ∃ more, argv = ws.flatMap Word.texts ++ "--".toList :: more)) :
    mainArgs ext argv w = (w, 2) := by
  refine C92_refused ext _ w ?_
  cases hp : parseFlags (splitArgs argv) with
  | none => rfl
  | some o => exact absurd (C142_complete argv (parseFlags_some hp).1) h

example (ext : Externals) (w : World) : mainArgs ext ["-model.stl".toList] w = (w, 2) := by
  refine C142_refused ext _ w ?_
  rintro ⟨ws, h1, h2 | ⟨more, h2⟩⟩
  · have := C142_words h1
    rw [← h2] at this
    replace this : (splitArgs ["-model.stl".toList]).broken = false := by rw [this]
    revert this
    decide
  · have := C142_stop h1 more
    rw [← h2] at this
    replace this : (splitArgs ["-model.stl".toList]).broken = false := by rw [this]
    revert this
    decide

/-! ## The order of the words -/

theorem applySettings_isSome (l : List (Str × Str)) (s : FlagState) :
    (applySettings l s).isSome = true ↔ ∀ n t, (n, t) ∈ l → ∃ f ∈ flags, f.name.toList = n ∧ ∃ v, (f.kind.set v t).2 = false := by
  refine ⟨fun h n t hm => ?_, fun h => ?_⟩
  · obtain ⟨s', hs⟩ := Option.isSome_iff_exists.1 h
    exact applySettings_known l s s' hs n t hm
  · induction l generalizing s with
    | nil => rfl
    | cons st rest ih =>
      obtain ⟨n, t⟩ := st
      obtain ⟨f, hf, rfl, v, hv⟩ := h _ t List.mem_cons_self
      rw [applySettings, find_flag' hf]
      have : (f.set s t).2 = false := by
        show (f.kind.set (f.get s) t).2 = false
        rw [kind_indep f.kind v (f.get s) t hv]
        exact hv
      simp only [this, Bool.false_eq_true, if_false]
      exact ih _ fun n t hm => h n t (List.mem_cons_of_mem _ hm)

theorem parseFlags_isSome (cl : CommandLine) :
    (parseFlags cl).isSome = true ↔ cl.broken = false ∧ ∀ n t, (n, t) ∈ cl.settings → ∃ f ∈ flags, f.name.toList = n ∧ ∃ v, (f.kind.set v t).2 = false := by
  rw [← applySettings_isSome cl.settings startState]
  refine ⟨fun h => ?_, fun ⟨hb, h⟩ => ?_⟩
  · obtain ⟨o, ho⟩ := Option.isSome_iff_exists.1 h
    obtain ⟨hb, s, hs, -⟩ := parseFlags_some ho
    exact ⟨hb, by rw [hs]; rfl⟩
  · obtain ⟨s, hs⟩ := Option.isSome_iff_exists.1 h
    have hs : applySettings cl.settings ⟨{}, ⟨({} : Options).printer.center.x, ({} : Options).printer.center.y, ({} : Options).printer.center.z⟩⟩ = some s := hs
    unfold parseFlags
    dsimp only at hs ⊢
    rw [hs]
    simp only [hb, Bool.false_eq_true, if_false]
    rfl

theorem parseFlags_same {cl cl' : CommandLine} (hb : cl.broken = cl'.broken) (hm : ∀ st, st ∈ cl.settings ↔ st ∈ cl'.settings)
    (hl : ∀ n, lastText cl.settings n = lastText cl'.settings n) (ha : cl.args.head? = cl'.args.head?) : parseFlags cl = parseFlags cl' := by
  have hs : (parseFlags cl).isSome = (parseFlags cl').isSome := by
    rw [Bool.eq_iff_iff, parseFlags_isSome, parseFlags_isSome, hb]
    simp only [hm]
  cases h : parseFlags cl with
  | none =>
    rw [h] at hs
    exact (Option.not_isSome_iff_eq_none.1 (by rw [← hs]; simp)).symm
  | some o =>
    rw [h] at hs
    obtain ⟨o', h'⟩ := Option.isSome_iff_exists.1 hs.symm
    rw [h', C93_order cl cl' o o' h h' hl ha]

/-- **C142** The flags and the paths may be mixed and spelled in any way: two calls which make the same settings of each flag in the same order, and give the same
first path, do the same. -/
theorem C142_spelling (ext : Externals) (w : World) {ws ws' : List Word} (h : ∀ w ∈ ws, w.Valid) (h' : ∀ w ∈ ws', w.Valid)
    (hs : ∀ name, (ws.flatMap Word.settings).filter (fun st => st.1 = name) = (ws'.flatMap Word.settings).filter (fun st => st.1 = name))
    (hp : (ws.flatMap Word.paths).head? = (ws'.flatMap Word.paths).head?) :
    mainArgs ext (ws.flatMap Word.texts) w = mainArgs ext (ws'.flatMap Word.texts) w := by
  unfold mainArgs
  rw [C142_words h, C142_words h']
  have e : ∀ a b : CommandLine, parseFlags a = parseFlags b → main ext a w = main ext b w := fun a b hab => by
    unfold main
    rw [hab]
  refine e _ _ (parseFlags_same rfl (fun st => ?_) (fun n => ?_) hp)
  · have := hs st.1
    have h1 : ∀ l : List (Str × Str), st ∈ l ↔ st ∈ l.filter (fun st' => st'.1 = st.1) := fun l => by simp [List.mem_filter]
    show st ∈ ws.flatMap Word.settings ↔ st ∈ ws'.flatMap Word.settings
    rw [h1, this, ← h1]
  · show lastText (ws.flatMap Word.settings) n = lastText (ws'.flatMap Word.settings) n
    unfold lastText
    rw [hs n]

example (ext : Externals) (w : World) : mainArgs ext ["--infill-percent".toList, "10".toList, "model.stl".toList, "-oa".toList] w =
    mainArgs ext ["--output=a".toList, "model.stl".toList, "--infill-percent=10".toList, "ignored.stl".toList] w :=
  C142_spelling ext w (ws := [.next "infill-percent" "10".toList, .path "model.stl".toList, .short 0 (.output "a".toList)])
    (ws' := [.equals "output" "a".toList, .path "model.stl".toList, .equals "infill-percent" "10".toList, .path "ignored.stl".toList])
    (by
      intro w hw
      simp only [List.mem_cons, List.not_mem_nil, or_false] at hw
      rcases hw with rfl | rfl | rfl
      · exact ⟨by simp [optionOf], fun ⟨b, hb⟩ => by simp [optionOf] at hb⟩
      · exact .inr (by decide)
      · exact ⟨by decide, by decide⟩)
    (by
      intro w hw
      simp only [List.mem_cons, List.not_mem_nil, or_false] at hw
      rcases hw with rfl | rfl | rfl | rfl
      · simp [Word.Valid, optionOf]
      · exact .inr (by decide)
      · simp [Word.Valid, optionOf]
      · exact .inr (by decide))
    (by
      intro name
      show [("infill-percent".toList, "10".toList), ("output".toList, "a".toList)].filter _ =
        [("output".toList, "a".toList), ("infill-percent".toList, "10".toList)].filter _
      have : "infill-percent".toList ≠ "output".toList := by decide
      generalize "infill-percent".toList = x at *
      generalize "output".toList = y at *
      by_cases h1 : x = name
      · subst h1
        simp [Ne.symm this]
      · simp [h1]
        by_cases h2 : y = name <;> simp [h2, h1])
    rfl

/-! ## Traps -/

/-- **C142** A switch takes no value from the next argument: `--support-enabled false model.stl` switches the support on, and the model is read from the file `false`. -/
theorem C142_switch {name : String} (h : IsSwitch name) {value : Str} (hv : value = ['-'] ∨ value.head? ≠ some '-') (rest : List Str) :
    (splitArgs (("--".toList ++ name.toList) :: value :: rest)).settings.head? = some (name.toList, "true".toList) ∧
    (splitArgs (("--".toList ++ name.toList) :: value :: rest)).args.head? = some value := by
  have h1 := splitArgs_word (w := .on name) h (value :: rest)
  have h2 := splitArgs_word (w := .path value) hv rest
  simp only [Word.texts, List.singleton_append] at h1 h2
  rw [h1, h2]
  exact ⟨rfl, rfl⟩

example : (splitArgs ["--support-enabled".toList, "false".toList, "model.stl".toList]).settings.head? = some ("support-enabled".toList, "true".toList) ∧
    (splitArgs ["--support-enabled".toList, "false".toList, "model.stl".toList]).args.head? = some "false".toList :=
  C142_switch (name := "support-enabled") ⟨false, rfl⟩ (.inr (by decide)) ["model.stl".toList]

/-- **C142** All other flags take the next argument as value, even if it looks like a flag. -/
theorem C142_swallows {name : String} (h : optionOf {} name ≠ none) (hb : ¬ IsSwitch name) (value : Str) (rest : List Str) :
    splitArgs (("--".toList ++ name.toList) :: value :: rest) =
      { splitArgs rest with settings := (name.toList, value) :: (splitArgs rest).settings } :=
  splitArgs_word (w := .next name value) ⟨h, hb⟩ rest

example : splitArgs ["--output".toList, "--support-enabled".toList, "model.stl".toList] =
    { settings := [("output".toList, "--support-enabled".toList)], args := ["model.stl".toList] } :=
  C142_swallows (name := "output") (by simp [optionOf]) (fun ⟨b, hb⟩ => by simp [optionOf] at hb) "--support-enabled".toList ["model.stl".toList]

/-- **C142** A flag without its value at the end: status 2, and nothing is touched. -/
theorem C142_unfinished (ext : Externals) (w : World) {ws : List Word} (h : ∀ w ∈ ws, w.Valid) {name : String} (hn : optionOf {} name ≠ none) (hb : ¬ IsSwitch name) :
    mainArgs ext (ws.flatMap Word.texts ++ ["--".toList ++ name.toList]) w = (w, 2) := by
  refine C92_refused ext _ w ?_
  cases hp : parseFlags (splitArgs (ws.flatMap Word.texts ++ ["--".toList ++ name.toList])) with
  | none => rfl
  | some o =>
    have := (parseFlags_some hp).1
    obtain ⟨f, hf, rfl⟩ := known_flag hn
    have hb : f.isBool ≠ true := fun h => hb ((isBool_iff hf).1 h)
    rw [splitArgs_words h, splitArgs, argKind_long, longArg_name hf, if_neg hb] at this
    cases this

example (ext : Externals) (w : World) : mainArgs ext ["model.stl".toList, "--output".toList] w = (w, 2) :=
  C142_unfinished ext w (ws := [.path "model.stl".toList]) (name := "output") (by simp [Word.Valid]) (by simp [optionOf])
    (fun ⟨b, hb⟩ => by simp [optionOf] at hb)

/-- **C142** An unknown flag: status 2, and nothing is touched. -/
theorem C142_unknown (ext : Externals) (w : World) {ws : List Word} (h : ∀ w ∈ ws, w.Valid) {name : String} (hn : optionOf {} name = none) (h0 : name ≠ "")
    (he : '=' ∉ name.toList) (tail : Str) (ht : tail = [] ∨ tail.head? = some '=') (rest : List Str) :
    mainArgs ext (ws.flatMap Word.texts ++ ("--".toList ++ (name.toList ++ tail)) :: rest) w = (w, 2) := by
  refine C92_refused ext _ w ?_
  cases hp : parseFlags (splitArgs (ws.flatMap Word.texts ++ ("--".toList ++ (name.toList ++ tail)) :: rest)) with
  | none => rfl
  | some o =>
    have := (parseFlags_some hp).1
    have hu : ∀ f ∈ flags, f.name.toList ≠ name.toList := fun f hf e => flag_known hf (by rw [String.toList_inj.1 e]; exact hn)
    have hsplit : (splitEquals (name.toList ++ tail)).1 = name.toList := by
      rcases ht with rfl | ht
      · rw [List.append_nil, splitEquals_none he]
      · cases tail with
        | nil => cases ht
        | cons c tail =>
          cases Option.some.inj ht
          rw [splitEquals_some he]
    have hlong : longArg (name.toList ++ tail) = .bad [] := by
      rcases longArg_spec (name.toList ++ tail) with ⟨e, -⟩ | e | ⟨f, hf, v, e, -⟩ | ⟨f, hf, e, -⟩ | ⟨f, hf, e, -⟩
      · exact absurd (String.toList_eq_nil_iff.1 (List.append_eq_nil_iff.1 e).1) h0
      · exact e
      · rw [e, splitEquals_some (names_plain f hf).1] at hsplit
        exact absurd hsplit (hu f hf)
      · rw [e, splitEquals_none (names_plain f hf).1] at hsplit
        exact absurd hsplit (hu f hf)
      · rw [e, splitEquals_none (names_plain f hf).1] at hsplit
        exact absurd hsplit (hu f hf)
    rw [splitArgs_words h, splitArgs, argKind_long, hlong] at this
    cases this

example (ext : Externals) (w : World) : mainArgs ext ["--layer-hight=300".toList, "model.stl".toList] w = (w, 2) :=
  C142_unknown ext w (ws := []) (by simp) (name := "layer-hight") (by simp [optionOf]) (by decide) (by decide) "=300".toList (.inr rfl) ["model.stl".toList]

example (ext : Externals) (w : World) : mainArgs ext ["--help".toList] w = (w, 2) :=
  C142_unknown ext w (ws := []) (by simp) (name := "help") (by simp [optionOf]) (by decide) (by decide) [] (.inl rfl) []

/-- **C142** The path of a model alone: the program prints the model with the default options, if the path is not the text of a flag. -/
theorem C142_path (ext : Externals) (w : World) {path : Str} (h : path = ['-'] ∨ path.head? ≠ some '-') :
    mainArgs ext [path] w = main ext { args := [path] } w := by
  unfold mainArgs
  rw [show [path] = [Word.path path].flatMap Word.texts from rfl, C142_words (by simpa [Word.Valid] using h)]
  rfl

example (ext : Externals) (w : World) : mainArgs ext ["model.stl".toList] w = main ext { args := ["model.stl".toList] } w := C142_path ext w (.inr (by decide))

end Verif
