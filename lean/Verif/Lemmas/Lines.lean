import Verif.Props.Builder
import Verif.Spec.Commands

/-! # The lines written by calls of the builder -/
namespace Verif
open Verif.Go Verif.Model Verif.Spec Verif.Spec.GCode

/-- Lines with their line ends. -/
def unlines (ls : List Str) : Str := ls.flatMap fun l => l ++ ['\n']

theorem unlines_append (a b : List Str) : unlines (a ++ b) = unlines a ++ unlines b := by simp [unlines]

theorem unlines_split (t : Str) : unlines (split '\n' t) = t ++ ['\n'] := by
  induction t with
  | nil => rfl
  | cons c t ih =>
    simp only [split]
    split
    · rename_i h
      simp only [unlines, List.flatMap_cons] at ih ⊢
      rw [ih, h]; simp
    · split
      · rename_i h l hs
        rw [hs] at ih
        simp only [unlines, List.flatMap_cons] at ih ⊢
        simp only [List.cons_append] at ih ⊢
        rw [ih]
      · rename_i hs; exact absurd hs (split_ne_nil _ _)

theorem split_unlines {ls : List Str} (h : ∀ l ∈ ls, '\n' ∉ l) : split '\n' (unlines ls) = ls ++ [[]] := by
  induction ls with
  | nil => rfl
  | cons l ls ih =>
    simp only [unlines, List.flatMap_cons, List.append_assoc, List.singleton_append]
    rw [split_append (h l (by simp))]
    have := ih fun l hl => h l (List.mem_cons_of_mem _ hl)
    simp only [unlines] at this
    rw [this]; rfl

/-- A line which moves the head, without comment. -/
def IsMove (l : Str) : Prop := '\n' ∉ l ∧ ';' ∉ l ∧ ((split ' ' l).head? = some ['G', '0'] ∨ (split ' ' l).head? = some ['G', '1'])

theorem isMove_moveLine (g : Builder) (p : Vec3) (e : ℚ) (s : Int) : IsMove (moveLine g p e s) := by
  refine ⟨newline_not_mem_moveLine g p e s, ?_, ?_⟩
  · unfold moveLine
    rw [List.mem_append, not_or]
    constructor
    · split <;> decide
    · rw [List.mem_flatMap]
      rintro ⟨w, hw, hd⟩
      rcases List.mem_cons.1 hd with h | h
      · exact absurd h (by decide)
      · exact moveWords_chars (by decide) (by decide) (by decide) (by decide) w hw h
  · rw [split_moveLine]
    split <;> simp

/-- Only lines for moves are added. -/
def OnlyMoves (g g' : Builder) : Prop := ∃ ls, g'.buf = g.buf ++ unlines ls ∧ ∀ l ∈ ls, IsMove l

theorem OnlyMoves.refl (g : Builder) : OnlyMoves g g := ⟨[], by simp [unlines], by simp⟩

theorem OnlyMoves.trans {a b c : Builder} (h1 : OnlyMoves a b) (h2 : OnlyMoves b c) : OnlyMoves a c := by
  obtain ⟨l1, e1, m1⟩ := h1
  obtain ⟨l2, e2, m2⟩ := h2
  exact ⟨l1 ++ l2, by rw [e2, e1, unlines_append, List.append_assoc], by simpa [or_imp, forall_and] using ⟨m1, m2⟩⟩

theorem onlyMoves_addMoveSpeed (g : Builder) (p : Vec3) (e : ℚ) (s : Int) : OnlyMoves g (g.addMoveSpeed p e s) := by
  by_cases h : ((g.notFirstMoveX || g.notFirstMoveY || g.notFirstMoveZ) ∧ g.currentPosition.x = p.x ∧ g.currentPosition.y = p.y ∧
      g.currentPosition.z = p.z ∧ e = 0)
  · rw [addMoveSpeed_skip h]; exact .refl g
  · rw [addMoveSpeed_emit h]
    exact ⟨[moveLine g p e s], by simp [unlines], by simpa using isMove_moveLine g p e s⟩

theorem onlyMoves_addMove (g : Builder) (p : Vec3) (e : ℚ) : OnlyMoves g (g.addMove p e) := onlyMoves_addMoveSpeed ..

theorem onlyMoves_addLines (z : Micrometer) (path : Path) : ∀ (g : Builder) (prev : Pt), OnlyMoves g (Builder.addLines z g prev path) := by
  induction path with
  | nil => intro g prev; exact .refl g
  | cons p rest ih => intro g prev; exact (onlyMoves_addMove ..).trans (ih _ _)

theorem OnlyMoves.ite {a b c : Builder} {P : Prop} [Decidable P] (hb : OnlyMoves a b) (hc : OnlyMoves a c) : OnlyMoves a (if P then b else c) := by
  split <;> assumption

theorem onlyMoves_addTravel (g : Builder) (p0 : Pt) (z : Micrometer) (c : Bool) : OnlyMoves g (g.addTravel p0 z c) := by
  unfold Builder.addTravel
  cases c with
  | false => exact onlyMoves_addMove ..
  | true =>
    simp only [if_true, true_and]
    refine OnlyMoves.trans (OnlyMoves.trans ?_ (onlyMoves_addMove _ _ _)) (OnlyMoves.trans
      (OnlyMoves.ite (onlyMoves_addMove _ _ _) (.refl _)) (onlyMoves_addMoveSpeed _ _ _ _))
    exact (onlyMoves_addMoveSpeed _ _ _ _).trans (OnlyMoves.ite (onlyMoves_addMove _ _ _) (.refl _))

theorem onlyMoves_addPolygon {crossing : List LayerPart → Path → Bool × Bool} {g g' : Builder} {layer : Option (List LayerPart)} {path : Path}
    {z : Micrometer} {isOpen : Bool} (h : g.addPolygon crossing layer path z isOpen = .ok g') : OnlyMoves g g' := by
  unfold Builder.addPolygon at h
  split at h
  · cases h; exact .refl g
  · split at h
    · cases h
    · rename_i p0 rest _
      rcases hc : g.crossingTest crossing layer p0 with f | c
      · rw [hc] at h; cases h
      · rw [hc] at h
        simp only [bind, Except.bind] at h
        have h1 := (onlyMoves_addTravel g p0 z c).trans (onlyMoves_addLines z rest _ p0)
        split at h
        · cases h; exact h1
        · cases h; exact h1.trans (onlyMoves_addMove ..)

/-- The texts of a call contain no percent sign. -/
def Plain : Call → Prop
  | .command t => '%' ∉ t
  | .comment t => '%' ∉ t
  | _ => True

/-- The lines written for a call. -/
def LinesOf : Call → List Str → Prop
  | .command t, ls => ls = split '\n' t
  | .comment t, ls => ls = split '\n' (';' :: t)
  | .text t, ls => ls = split '\n' t
  | .moveSpeed .., ls => ∀ l ∈ ls, IsMove l
  | .move .., ls => ∀ l ∈ ls, IsMove l
  | .polygon .., ls => ∀ l ∈ ls, IsMove l
  | _, ls => ls = []

theorem exec1_lines {crossing : List LayerPart → Path → Bool × Bool} {g g' : Builder} {c : Call} (hp : Plain c)
    (h : g.exec1 crossing c = .ok g') : ∃ ls, g'.buf = g.buf ++ unlines ls ∧ LinesOf c ls := by
  cases c with
  | command t =>
    cases h
    exact ⟨_, by rw [addCommand_plain hp]; simp [Builder.addText, unlines_split], rfl⟩
  | comment t =>
    cases h
    exact ⟨_, by rw [addComment_plain hp]; simp [Builder.addText, unlines_split], rfl⟩
  | text t =>
    cases h
    exact ⟨_, by simp [Builder.addText, unlines_split], rfl⟩
  | moveSpeed p e s => cases h; exact onlyMoves_addMoveSpeed ..
  | move p e => cases h; exact onlyMoves_addMove ..
  | polygon l p z o => exact onlyMoves_addPolygon h
  | _ => cases h; exact ⟨[], by simp [unlines, Builder.setExtrusion, Builder.setMoveSpeed, Builder.setExtrudeSpeed,
      Builder.setExtrudeSpeedOverride, Builder.disableExtrudeSpeedOverride, Builder.setRetractionSpeed, Builder.setRetractionAmount,
      Builder.setRetractionZHop], rfl⟩

theorem linesOf_newline {c : Call} {ls : List Str} (h : LinesOf c ls) : ∀ l ∈ ls, '\n' ∉ l := by
  cases c <;> first
    | (simp only [LinesOf] at h; subst h; intro l hl; exact sep_not_mem_split hl)
    | (simp only [LinesOf] at h; subst h; simp)
    | (simp only [LinesOf] at h; intro l hl; exact (h l hl).1)

/-- The text written by calls consists of the lines of each call, in order. -/
theorem exec_lines {crossing : List LayerPart → Path → Bool × Bool} {cs : List Call} : ∀ {g g' : Builder} (_ : ∀ c ∈ cs, Plain c)
    (_ : g.exec crossing cs = .ok g'), ∃ lss, g'.buf = g.buf ++ unlines lss.flatten ∧ List.Forall₂ LinesOf cs lss := by
  induction cs with
  | nil => intro g g' _ h; cases h; exact ⟨[], by simp [unlines], .nil⟩
  | cons c cs ih =>
    intro g g' hp h
    simp only [Builder.exec] at h
    rcases h1 : g.exec1 crossing c with f | g1
    · rw [h1] at h; cases h
    · rw [h1] at h
      obtain ⟨ls, e1, m1⟩ := exec1_lines (hp c (by simp)) h1
      obtain ⟨lss, e2, m2⟩ := ih (fun c hc => hp c (List.mem_cons_of_mem _ hc)) h
      exact ⟨ls :: lss, by rw [e2, e1, List.flatten_cons, unlines_append, List.append_assoc], .cons m1 m2⟩

theorem takeWhile_eq_self {α : Type} {p : α → Bool} {l : List α} (h : ∀ x ∈ l, p x = true) : l.takeWhile p = l := by
  induction l with
  | nil => rfl
  | cons a l ih => rw [List.takeWhile_cons, h a (by simp), if_pos rfl, ih fun x hx => h x (List.mem_cons_of_mem _ hx)]

theorem command_of_isMove {l : Str} (h : IsMove l) : command l = none := by
  obtain ⟨-, h1, h2⟩ := h
  have ht : l.takeWhile (fun c => c ≠ ';') = l := by
    apply takeWhile_eq_self
    intro c hc
    simp only [ne_eq, decide_not, Bool.not_eq_eq_eq_not, Bool.not_true, decide_eq_false_iff_not]
    rintro rfl; exact h1 hc
  unfold command words
  rw [ht]
  rcases hs : split ' ' l with _ | ⟨w, ws⟩
  · rfl
  · rw [hs] at h2
    rcases h2 with h2 | h2 <;>
    · simp only [List.head?_cons, Option.some.injEq] at h2
      subst h2
      rfl

/-- The heater and fan commands of a call, if it is plain. -/
def callCommands : Call → List Command
  | .command t => commands t
  | .comment t => commands (';' :: t)
  | .text t => commands t
  | _ => []

theorem commands_linesOf {c : Call} {ls : List Str} (h : LinesOf c ls) : ls.filterMap command = callCommands c := by
  cases c <;> first
    | (simp only [LinesOf] at h; subst h; rfl)
    | (simp only [LinesOf] at h
       simp only [callCommands, List.filterMap_eq_nil_iff]
       exact fun l hl => command_of_isMove (h l hl))

/-- The heater and fan commands of the text written by calls. -/
theorem commands_exec {crossing : List LayerPart → Path → Bool × Bool} {fd : Micrometer} {em : Int} {cs : List Call} {g : Builder}
    (hp : ∀ c ∈ cs, Plain c) (h : (newBuilder fd em).exec crossing cs = .ok g) : commands g.buf = cs.flatMap callCommands := by
  obtain ⟨lss, h1, h2⟩ := exec_lines hp h
  have h1' : g.buf = unlines lss.flatten := by rw [h1]; rfl
  unfold commands
  rw [h1', split_unlines, List.filterMap_append]
  · have : ([[]] : List Str).filterMap command = [] := rfl
    rw [this, List.append_nil]
    clear h1 h1' h hp
    induction h2 with
    | nil => rfl
    | cons hc _ ih => rw [List.flatten_cons, List.filterMap_append, List.flatMap_cons, commands_linesOf hc, ih]
  · intro l hl
    clear h1 h1' h hp
    induction h2 with
    | nil => simp at hl
    | cons hc _ ih =>
      rw [List.flatten_cons, List.mem_append] at hl
      rcases hl with hl | hl
      · exact linesOf_newline hc l hl
      · exact ih hl

end Verif
