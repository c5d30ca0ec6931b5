import Verif.Props.Nothing
import Verif.Props.Heat
import Verif.Lemmas.Res
import Verif.Spec.Grammar

/-! # C135: the form of the printed text -/
namespace Verif
open Verif.Go Verif.Model Verif.Spec Verif.Spec.GCode

/-! ## Numbers -/

theorem digits_decNat (n : Nat) : Digits (decNat n) := by
  refine ⟨?_, fun c hc => ?_⟩
  · obtain ⟨c, t, h, -⟩ := decNat_head n
    rw [h]
    simp
  · have := decNat_digits n c hc
    unfold IsDigit at this
    exact this

theorem whole_formatInt (v : Int) : Whole (formatInt v) := by
  unfold formatInt
  split
  · exact .inr ⟨_, rfl, digits_decNat _⟩
  · exact .inl (digits_decNat _)

theorem decPad_form (k n : Nat) : (decPad k n).length = k ∧ ∀ c ∈ decPad k n, '0' ≤ c ∧ c ≤ '9' := by
  induction k generalizing n with
  | zero => simp [decPad]
  | succ k ih =>
    obtain ⟨h1, h2⟩ := ih (n / 10)
    refine ⟨by simp [decPad, h1], fun c hc => ?_⟩
    rw [decPad, List.mem_append] at hc
    rcases hc with hc | hc
    · exact h2 c hc
    · rw [List.mem_singleton.1 hc]
      have : ∀ m < 10, '0' ≤ digitChar m ∧ digitChar m ≤ '9' := by decide
      exact this _ (Nat.mod_lt _ (by decide))

theorem fixed_formatFixed {k : Nat} (hk : 0 < k) (x : ℚ) : Fixed k (formatFixed k x) := by
  obtain ⟨h1, h2⟩ := decPad_form k (roundEven (|x| * 10 ^ k)).toNat
  refine ⟨(if x < 0 then ['-'] else []) ++ decNat ((roundEven (|x| * 10 ^ k)).toNat / 10 ^ k), _, rfl, ?_, ⟨?_, h2⟩, h1⟩
  · split
    · exact .inr ⟨_, rfl, digits_decNat _⟩
    · exact .inl (digits_decNat _)
  · intro e
    rw [e] at h1
    simp at h1
    omega

/-! ## Lines -/

/-- The lines of a call. -/
def CallLines : Call → List Str → Prop
  | .command t, ls => ls = [t]
  | .comment t, ls => ls = [';' :: t]
  | .text t, ls => ls = [t]
  | .moveSpeed _ _ _, ls => ∀ l ∈ ls, MoveLine l ∧ IsMove l
  | .move _ _, ls => ∀ l ∈ ls, MoveLine l ∧ IsMove l
  | .polygon _ _ _ _, ls => ∀ l ∈ ls, MoveLine l ∧ IsMove l
  | _, ls => ls = []

/-- The lines of calls. -/
def Lines : List Call → List Str → Prop
  | [], ls => ls = []
  | c :: cs, ls => ∃ a b, ls = a ++ b ∧ CallLines c a ∧ Lines cs b

theorem lines_split {cs ds : List Call} {ls : List Str} (h : Lines (cs ++ ds) ls) : ∃ a b, ls = a ++ b ∧ Lines cs a ∧ Lines ds b := by
  induction cs generalizing ls with
  | nil => exact ⟨[], ls, rfl, rfl, h⟩
  | cons c cs ih =>
    obtain ⟨a, b, rfl, h1, h2⟩ := h
    obtain ⟨a', b', rfl, h3, h4⟩ := ih h2
    exact ⟨a ++ a', b', by simp, ⟨a, a', rfl, h1, h3⟩, h4⟩

theorem lines_join {cs ds : List Call} {a b : List Str} (h : Lines cs a) (h' : Lines ds b) : Lines (cs ++ ds) (a ++ b) := by
  induction cs generalizing a with
  | nil => cases h; exact h'
  | cons c cs ih =>
    obtain ⟨a', b', rfl, h1, h2⟩ := h
    exact ⟨a', b' ++ b, by simp, h1, ih h2⟩

theorem textOf_append (a b : List Str) : textOf (a ++ b) = textOf a ++ textOf b := by simp [textOf]

theorem moveLine_form {g : Builder} {p : Vec3} {e : ℚ} {s : Int}
    (h : ¬((g.notFirstMoveX || g.notFirstMoveY || g.notFirstMoveZ) ∧ g.currentPosition.x = p.x ∧ g.currentPosition.y = p.y ∧
      g.currentPosition.z = p.z ∧ e = 0)) : MoveLine (moveLine g p e s) := by
  have opt : ∀ {c : Prop} [Decidable c] (a : Char) (t : Str) (P : Str → Prop), P t → Optionally a P ((if c then [a :: t] else []).flatMap fun w => ' ' :: w) := by
    intro c _ a t P hP
    split
    · exact .inr ⟨t, by simp, hP⟩
    · exact .inl rfl
  refine ⟨(if p.x ≠ g.currentPosition.x ∨ !g.notFirstMoveX then ['X' :: formatFixed 2 (toMillimeter p.x)] else []).flatMap fun w => ' ' :: w,
    (if p.y ≠ g.currentPosition.y ∨ !g.notFirstMoveY then ['Y' :: formatFixed 2 (toMillimeter p.y)] else []).flatMap fun w => ' ' :: w,
    (if p.z ≠ g.currentPosition.z ∨ !g.notFirstMoveZ then ['Z' :: formatFixed 2 (toMillimeter p.z)] else []).flatMap fun w => ' ' :: w,
    (if g.currentSpeed ≠ s then ['F' :: formatInt (s * 60)] else []).flatMap fun w => ' ' :: w,
    opt _ _ _ (fixed_formatFixed (by decide) _), opt _ _ _ (fixed_formatFixed (by decide) _), opt _ _ _ (fixed_formatFixed (by decide) _),
    opt _ _ _ (whole_formatInt _), ?_⟩
  unfold moveLine moveWords
  by_cases he : e = 0
  · left
    refine ⟨by simp [he], ?_⟩
    simp only [he, and_true] at h
    by_cases hx : p.x ≠ g.currentPosition.x ∨ !g.notFirstMoveX
    · rw [if_pos hx]; simp
    by_cases hy : p.y ≠ g.currentPosition.y ∨ !g.notFirstMoveY
    · rw [if_pos hy]; simp
    by_cases hz : p.z ≠ g.currentPosition.z ∨ !g.notFirstMoveZ
    · rw [if_pos hz]; simp
    exfalso
    simp only [ne_eq, not_or, not_not, Bool.not_eq_true] at hx hy hz
    refine h ⟨?_, hx.1.symm, hy.1.symm, hz.1.symm⟩
    have := hx.2
    simp at this
    simp [this]
  · right
    exact ⟨_, fixed_formatFixed (k := 4) (by decide) (r32 (g.extrusionAmount + e)), by simp [he]⟩

/-- The text grows by lines with moves. -/
def WritesMoves (g g' : Builder) : Prop := ∃ ls, (∀ l ∈ ls, MoveLine l ∧ IsMove l) ∧ g'.buf = g.buf ++ textOf ls

theorem WritesMoves.refl (g : Builder) : WritesMoves g g := ⟨[], by simp, by simp [textOf]⟩

theorem WritesMoves.trans {g g' g'' : Builder} (h : WritesMoves g g') (h' : WritesMoves g' g'') : WritesMoves g g'' := by
  obtain ⟨a, a1, a2⟩ := h
  obtain ⟨b, b1, b2⟩ := h'
  refine ⟨a ++ b, fun l hl => (List.mem_append.1 hl).elim (a1 l) (b1 l), ?_⟩
  rw [b2, a2, textOf_append, List.append_assoc]

theorem moves_addMoveSpeed (g : Builder) (p : Vec3) (e : ℚ) (s : Int) : WritesMoves g (g.addMoveSpeed p e s) := by
  by_cases h : (g.notFirstMoveX || g.notFirstMoveY || g.notFirstMoveZ) ∧ g.currentPosition.x = p.x ∧ g.currentPosition.y = p.y ∧
      g.currentPosition.z = p.z ∧ e = 0
  · rw [addMoveSpeed_skip h]
    exact .refl g
  · rw [addMoveSpeed_emit h]
    refine ⟨[moveLine g p e s], fun l hl => ?_, by simp [textOf]⟩
    rw [List.mem_singleton.1 hl]
    exact ⟨moveLine_form h, isMove_moveLine g p e s⟩

theorem moves_addMove (g : Builder) (p : Vec3) (e : ℚ) : WritesMoves g (g.addMove p e) := moves_addMoveSpeed g p e _

theorem moves_addLines (z : Int) (path : Path) : ∀ (g : Builder) (prev : Pt), WritesMoves g (Builder.addLines z g prev path) := by
  induction path with
  | nil => intro g prev; exact .refl g
  | cons p rest ih => intro g prev; exact (moves_addMove g _ _).trans (ih _ p)

theorem WritesMoves.ite {a b c : Builder} {P : Prop} [Decidable P] (hb : WritesMoves a b) (hc : WritesMoves a c) : WritesMoves a (if P then b else c) := by
  split <;> assumption

theorem moves_addTravel (g : Builder) (p0 : Pt) (z : Int) (c : Bool) : WritesMoves g (g.addTravel p0 z c) := by
  unfold Builder.addTravel
  cases c with
  | false => exact moves_addMove g _ _
  | true =>
    simp only [if_true, true_and]
    refine WritesMoves.trans (WritesMoves.trans ?_ (moves_addMove _ _ _)) (WritesMoves.trans
      (WritesMoves.ite (moves_addMove _ _ _) (.refl _)) (moves_addMoveSpeed _ _ _ _))
    exact (moves_addMoveSpeed _ _ _ _).trans (WritesMoves.ite (moves_addMove _ _ _) (.refl _))

section
variable {crossing : List LayerPart → Path → Bool × Bool}

theorem moves_addPolygon {g g' : Builder} {layer : Option (List LayerPart)} {path : Path} {z : Int} {isOpen : Bool}
    (h : g.addPolygon crossing layer path z isOpen = .ok g') : WritesMoves g g' := by
  unfold Builder.addPolygon at h
  split at h
  · cases h; exact .refl _
  · split at h
    · cases h
    · rename_i p0 rest _
      rw [bind_ok] at h
      obtain ⟨c, -, h⟩ := h
      have key := (moves_addTravel g p0 z c).trans (moves_addLines z rest _ p0)
      split at h
      · cases h; exact key
      · cases h; exact key.trans (moves_addMove _ _ _)

theorem exec1_form {g g' : Builder} {c : Call} (hp : Plain c) (h : g.exec1 crossing c = .ok g') : ∃ ls, CallLines c ls ∧ g'.buf = g.buf ++ textOf ls := by
  have text : ∀ t, (g.addText t).buf = g.buf ++ textOf [t] := fun t => by simp [Builder.addText, textOf]
  cases c with
  | command t =>
    cases h
    exact ⟨[t], rfl, by rw [addCommand_plain hp, text]⟩
  | comment t =>
    cases h
    exact ⟨[';' :: t], rfl, by rw [addComment_plain hp, text]⟩
  | text t => cases h; exact ⟨[t], rfl, text t⟩
  | moveSpeed p e s => cases h; exact moves_addMoveSpeed g p e s
  | move p e => cases h; exact moves_addMove g p e
  | polygon l p z isOpen => exact moves_addPolygon h
  | _ => cases h; exact ⟨[], rfl, by simp [textOf]; rfl⟩

theorem exec_form (cs : List Call) : ∀ {g g' : Builder}, (∀ c ∈ cs, Plain c) → g.exec crossing cs = .ok g' →
    ∃ ls, Lines cs ls ∧ g'.buf = g.buf ++ textOf ls := by
  induction cs with
  | nil => intro g g' _ h; cases h; exact ⟨[], rfl, by simp [textOf]⟩
  | cons c cs ih =>
    intro g g' hp h
    rw [Builder.exec, bind_ok] at h
    obtain ⟨g1, h1, h2⟩ := h
    obtain ⟨a, a1, a2⟩ := exec1_form (hp c (by simp)) h1
    obtain ⟨b, b1, b2⟩ := ih (fun x hx => hp x (List.mem_cons_of_mem _ hx)) h2
    exact ⟨a ++ b, ⟨a, b, rfl, a1, b1⟩, by rw [b2, a2, textOf_append, List.append_assoc]⟩

end

/-! ## The grammar of the layers -/

section
variable {lib : ClipperLib} {o : Options} {pt : Patterns} {layers : List Layer} {g0 : Builder} {t : Str}
variable {crossing : List LayerPart → Path → Bool × Bool}

theorem plain_print : ∀ c ∈ printCalls lib o pt layers, Plain c := fun c hc => harmless_plain (harmless_print c hc)

theorem lines_mem {cs : List Call} {ls : List Str} (h : Lines cs ls) {P : Str → Prop} (hP : ∀ c ∈ cs, ∀ xs, CallLines c xs → ∀ l ∈ xs, P l) :
    ∀ l ∈ ls, P l := by
  induction cs generalizing ls with
  | nil => cases h; simp
  | cons c cs ih =>
    obtain ⟨a, b, rfl, h1, h2⟩ := h
    intro l hl
    rcases List.mem_append.1 hl with hl | hl
    · exact hP c (by simp) a h1 l hl
    · exact ih h2 (fun x hx => hP x (List.mem_cons_of_mem _ hx)) l hl

/-- A call of a renderer which draws. -/
def DrawsOnly : Call → Prop
  | .comment t => ';' :: t ∈ typeComments
  | .setExtrudeSpeed _ => True
  | .polygon _ _ _ _ => True
  | _ => False

theorem infillCalls_draws {comments : List Str} (hc : ∀ t ∈ comments, ';' :: t ∈ typeComments) {fill : Pattern} {n : Nat} {l : Layer} {z : Int}
    (parts : List LayerPart) : ∀ c ∈ (infillCalls comments fill n l z parts).calls, DrawsOnly c := by
  induction parts with
  | nil => simp [infillCalls]
  | cons p ps ih =>
    have hcom : ∀ c ∈ comments.map Call.comment, DrawsOnly c := by
      intro c h
      obtain ⟨t, ht, rfl⟩ := List.mem_map.1 h
      exact hc t ht
    simp only [infillCalls]
    cases fill n p with
    | error e => exact hcom
    | ok lines =>
      intro c h
      simp only [List.mem_append] at h
      rcases h with (h | h) | h
      · exact hcom c h
      · obtain ⟨q, -, rfl⟩ := List.mem_map.1 h; trivial
      · exact ih c h

theorem infillRenderer_draws {pattern : Option Pattern} {name : String} {comments : List Str} (hc : ∀ t ∈ comments, ';' :: t ∈ typeComments) {n : Nat} {m : Int}
    {l : Layer} {z : Int} : ∀ c ∈ (infillRenderer pattern name comments n m l z).calls, DrawsOnly c := by
  unfold infillRenderer
  cases pattern with
  | none => simp
  | some fill =>
    simp only
    cases l.partsAttribute name with
    | error e => simp
    | ok parts => exact infillCalls_draws hc parts

theorem layerDraws_draws (m : Int) (n : Nat) (l : Layer) : ∀ c ∈ layerDraws lib o pt m n l, DrawsOnly c := by
  intro c h
  obtain ⟨r, hr, h⟩ := List.mem_flatMap.1 h
  simp only [drawingRenderers, List.mem_cons, List.not_mem_nil, or_false] at hr
  rcases hr with rfl | rfl | rfl | rfl | rfl | rfl | rfl | rfl
  · unfold skirtRenderer at h
    split at h
    · simp at h
    · split at h
      · cases hw : l.perimeters with
        | error e => rw [hw] at h; simp at h
        | ok walls =>
          cases hu : l.fullSupport with
          | error e => rw [hw, hu] at h; simp at h
          | ok support =>
            rw [hw, hu] at h
            simp only at h
            split at h
            · simp at h
            · simp only [List.mem_cons, List.mem_flatMap, List.mem_map] at h
              rcases h with rfl | ⟨w, -, p, -, rfl⟩
              · simp [DrawsOnly, typeComments]
              · trivial
      · simp at h
  · cases hb : l.brim with
    | error e => simp [brimRenderer, hb] at h
    | ok brim =>
      cases brim with
      | nil => simp [brimRenderer, hb] at h
      | cons b bs =>
        simp only [brimRenderer, hb] at h
        rw [brim_calls] at h
        simp only [List.mem_cons, List.mem_map] at h
        rcases h with rfl | ⟨p, -, rfl⟩
        · simp [DrawsOnly, typeComments]
        · trivial
  · unfold perimeterRenderer at h
    split at h
    · simp at h
    · simp only [List.mem_flatMap, perimeterPartCalls, insetPartCalls, List.mem_append, List.mem_map, List.mem_singleton] at h
      obtain ⟨ps, -, k, -, p, -, (h | ⟨hole, -, rfl⟩) | rfl⟩ := h
      · split at h
        · simp only [List.mem_cons, List.not_mem_nil, or_false] at h
          rcases h with rfl | rfl
          · simp [DrawsOnly, typeComments]
          · trivial
        · simp only [List.mem_cons, List.not_mem_nil, or_false] at h
          rcases h with rfl | rfl
          · simp [DrawsOnly, typeComments]
          · trivial
      · trivial
      · trivial
  all_goals exact infillRenderer_draws (by simp [typeComments]) c h

theorem number_nat (n : Nat) : Digits (formatInt n) ∧ number (formatInt n) = some (n : ℚ) := by
  refine ⟨?_, by rw [number_formatInt]; rfl⟩
  unfold formatInt
  rw [if_neg (by omega)]
  exact digits_decNat _

theorem lines_layer {m : Int} {n : Nat} {l : Layer} {ls : List Str} (h : Lines (innerCalls lib o pt m n l) ls) : LayerLines n ls := by
  unfold innerCalls at h
  obtain ⟨a0, draws, rfl, h0, h4⟩ := lines_split h
  obtain ⟨a, b, rfl, h1, h5⟩ := lines_split h0
  have ha : a = [] := by
    split at h1
    · obtain ⟨x, y, rfl, hx, hy⟩ := h1
      cases hx
      cases hy
      rfl
    · exact h1
  subst ha
  unfold preLayerCommon at h5
  obtain ⟨b1, temps, rfl, h6, h3⟩ := lines_split h5
  obtain ⟨b2, fan, rfl, h7, h2⟩ := lines_split h6
  obtain ⟨b3, c, rfl, h8, hs⟩ := lines_split h7
  obtain ⟨x, y, rfl, hx, hy⟩ := h8
  cases hx
  cases hy
  have hc : c = [] := by
    split at hs
    · obtain ⟨x, y, rfl, hx, ⟨z, w, rfl, hz, hw⟩⟩ := hs
      cases hx
      cases hz
      cases hw
      rfl
    · exact hs
  subst hc
  refine ⟨formatInt n, fan ++ temps, draws, by simp, (number_nat n).1, (number_nat n).2, fun l hl => ?_, ?_⟩
  · rcases List.mem_append.1 hl with hl | hl
    · refine lines_mem h2 (P := ControlLine) (fun c hc xs hxs l hl => ?_) l hl
      split at hc
      · split at hc
        · rw [List.mem_singleton.1 hc] at hxs
          cases hxs
          rw [List.mem_singleton.1 hl]
          exact .inl rfl
        · rw [List.mem_singleton.1 hc] at hxs
          cases hxs
          rw [List.mem_singleton.1 hl]
          exact .inr (.inr ⟨_, whole_formatInt _, .inl rfl⟩)
      · simp at hc
    · refine lines_mem h3 (P := ControlLine) (fun c hc xs hxs l hl => ?_) l hl
      split at hc
      · simp only [List.mem_cons, List.not_mem_nil, or_false] at hc
        rcases hc with rfl | rfl | rfl <;> cases hxs <;> rw [List.mem_singleton.1 hl]
        · exact .inr (.inl rfl)
        · exact .inr (.inr ⟨_, whole_formatInt _, .inr (.inl rfl)⟩)
        · exact .inr (.inr ⟨_, whole_formatInt _, .inr (.inr rfl)⟩)
      · simp at hc
  · refine lines_mem h4 (P := fun l => l ∈ typeComments ∨ MoveLine l) fun c hc xs hxs l hl => ?_
    have hd := layerDraws_draws m n _ c hc
    cases c with
    | comment t => cases hxs; rw [List.mem_singleton.1 hl]; exact .inl hd
    | setExtrudeSpeed v => cases hxs; simp at hl
    | polygon lay path z isOpen => exact .inr (hxs l hl).1
    | _ => exact hd.elim

theorem lines_layers {m : Int} (ls : List Layer) : ∀ (k : Nat) {xs : List Str},
    Lines ((ls.zipIdx k).flatMap fun x => innerCalls lib o pt m x.2 x.1) xs →
    ∃ blocks : List (List Str), xs = blocks.flatten ∧ blocks.length = ls.length ∧ ∀ n block, blocks[n]? = some block → LayerLines (k + n) block := by
  induction ls with
  | nil => intro k xs h; exact ⟨[], h, rfl, by simp⟩
  | cons l ls ih =>
    intro k xs h
    rw [List.zipIdx_cons, List.flatMap_cons] at h
    obtain ⟨a, b, rfl, h1, h2⟩ := lines_split h
    obtain ⟨blocks, rfl, h3, h4⟩ := ih (k + 1) h2
    refine ⟨a :: blocks, by simp, by simp [h3], fun n block hn => ?_⟩
    cases n with
    | zero =>
      cases hn
      exact lines_layer h1
    | succ n =>
      have := h4 n block (by simpa using hn)
      rwa [Nat.add_right_comm] at this

/-- **C135** The text of a print has, between start and end G-code, one block of lines per layer, in order. Each starts with the number of the layer, followed
by changes of fan and temperatures; then there are only moves and comments which tell what is drawn. Moves have a fixed form. -/
theorem C135_grammar (hne : layers ≠ []) (h : (generateScripts crossing o (standardRenderers lib o pt) layers g0).2 = (t, none)) :
    ∃ blocks : List (List Str), t = startText o ++ textOf blocks.flatten ++ endText o ∧ blocks.length = layers.length ∧
      ∀ n block, blocks[n]? = some block → LayerLines n block := by
  obtain ⟨g, rfl, hb⟩ := print_body hne h
  obtain ⟨ls, h1, h2⟩ := exec_form _ plain_print hb
  unfold printCalls at h1
  obtain ⟨a, b, rfl, h3, h4⟩ := lines_split h1
  have ha : a = [] := by
    have : ∀ l ∈ a, False := lines_mem h3 (P := fun _ => False) fun c hc xs hxs l hl => by
      simp only [preLayerSettings, List.mem_cons, List.not_mem_nil, or_false] at hc
      rcases hc with rfl | rfl | rfl | rfl | rfl | rfl | rfl <;> cases hxs <;> simp at hl
    exact List.eq_nil_iff_forall_not_mem.2 this
  subst ha
  obtain ⟨blocks, rfl, h5, h6⟩ := lines_layers layers 0 h4
  refine ⟨blocks, by rw [h2]; rfl, h5, fun n block hn => by simpa using h6 n block hn⟩

end
end Verif
