import Verif.Lemmas.GCode
import Verif.Spec.Calls
import Verif.Props.Machine
import Verif.Props.Polyline

/-! # The G-code builder does what was requested (C18 to C21) -/
namespace Verif
open Go Model Spec Spec.GCode

/-- Words of the line emitted by `addMoveSpeed`. -/
def moveWords (g : Builder) (p : Vec3) (extrusion : ℚ) (speed : Int) : List Str :=
  (if p.x ≠ g.currentPosition.x ∨ !g.notFirstMoveX then ['X' :: formatFixed 2 (toMillimeter p.x)] else []) ++
  (if p.y ≠ g.currentPosition.y ∨ !g.notFirstMoveY then ['Y' :: formatFixed 2 (toMillimeter p.y)] else []) ++
  (if p.z ≠ g.currentPosition.z ∨ !g.notFirstMoveZ then ['Z' :: formatFixed 2 (toMillimeter p.z)] else []) ++
  (if g.currentSpeed ≠ speed then ['F' :: formatInt (speed * 60)] else []) ++
  (if extrusion ≠ 0 then ['E' :: formatFixed 4 (r32 (g.extrusionAmount + extrusion))] else [])

/-- The line emitted by `addMoveSpeed`. -/
def moveLine (g : Builder) (p : Vec3) (extrusion : ℚ) (speed : Int) : Str :=
  (if extrusion ≠ 0 then ['G', '1'] else ['G', '0']) ++ (moveWords g p extrusion speed).flatMap (fun w => ' ' :: w)

theorem addMoveSpeed_skip {g : Builder} {p : Vec3} {extrusion : ℚ} {speed : Int}
    (h : (g.notFirstMoveX || g.notFirstMoveY || g.notFirstMoveZ) ∧ g.currentPosition.x = p.x ∧ g.currentPosition.y = p.y ∧
      g.currentPosition.z = p.z ∧ extrusion = 0) : g.addMoveSpeed p extrusion speed = g := by
  unfold Builder.addMoveSpeed
  exact if_pos h

theorem addMoveSpeed_emit {g : Builder} {p : Vec3} {extrusion : ℚ} {speed : Int}
    (h : ¬((g.notFirstMoveX || g.notFirstMoveY || g.notFirstMoveZ) ∧ g.currentPosition.x = p.x ∧ g.currentPosition.y = p.y ∧
      g.currentPosition.z = p.z ∧ extrusion = 0)) :
    g.addMoveSpeed p extrusion speed =
      { g with
        buf := g.buf ++ moveLine g p extrusion speed ++ ['\n']
        notFirstMoveX := true, notFirstMoveY := true, notFirstMoveZ := true
        currentSpeed := speed
        extrusionAmount := r32 (g.extrusionAmount + extrusion)
        currentPosition := p } := by
  unfold Builder.addMoveSpeed moveLine moveWords
  simp only [if_neg h]
  obtain ⟨buf, ea, epm, ⟨cx, cy, cz⟩, nx, ny, nz, ms, es, cs, eo, rs, ra, zh, fd, em⟩ := g
  obtain ⟨px, py, pz⟩ := p
  simp only
  by_cases he : extrusion = 0 <;> by_cases hx : px = cx <;> by_cases hy : py = cy <;> by_cases hz : pz = cz <;>
    by_cases hs : cs = speed <;> cases nx <;> cases ny <;> cases nz <;> simp [he, hx, hy, hz, hs]

/-- The builder state `g` fits to the head state and the moves of the specification. -/
structure Agrees (g : Builder) (st : Head × List Move) : Prop where
  closed : Closed g.buf
  text : run g.buf = some (st.1.machine, st.2)
  nfx : g.notFirstMoveX = st.1.pos.isSome
  nfy : g.notFirstMoveY = st.1.pos.isSome
  nfz : g.notFirstMoveZ = st.1.pos.isSome
  pos : g.currentPosition = st.1.pos.getD ⟨0, 0, 0⟩
  total : g.extrusionAmount = st.1.total
  feed : st.1.feed = if st.1.feed = none then none else some (60 * (g.currentSpeed : ℚ))
  speed : st.1.feed = none → g.currentSpeed = 0

theorem agrees_new (fd : Micrometer) (em : Int) : Agrees (newBuilder fd em) ({}, []) := by
  refine ⟨Or.inl rfl, ?_, rfl, rfl, rfl, rfl, rfl, rfl, fun _ => rfl⟩
  simp [newBuilder, run, split, line, start, Head.machine]

theorem word_X (m : Machine) (b : Bool) (x : ℚ) : word (some (m, b)) ('X' :: formatFixed 2 x) = some ({ m with x := some (decimals 2 x) }, b) := by
  simp only [word, number_formatFixed 2 (by norm_num) x]; simp
theorem word_Y (m : Machine) (b : Bool) (x : ℚ) : word (some (m, b)) ('Y' :: formatFixed 2 x) = some ({ m with y := some (decimals 2 x) }, b) := by
  simp only [word, number_formatFixed 2 (by norm_num) x]; simp
theorem word_Z (m : Machine) (b : Bool) (x : ℚ) : word (some (m, b)) ('Z' :: formatFixed 2 x) = some ({ m with z := some (decimals 2 x) }, b) := by
  simp only [word, number_formatFixed 2 (by norm_num) x]; simp
theorem word_E (m : Machine) (b : Bool) (x : ℚ) : word (some (m, b)) ('E' :: formatFixed 4 x) = some ({ m with e := some (decimals 4 x) }, true) := by
  simp only [word, number_formatFixed 4 (by norm_num) x]; simp
theorem word_F (m : Machine) (b : Bool) (v : Int) : word (some (m, b)) ('F' :: formatInt v) = some ({ m with f := some (v : ℚ) }, b) := by
  simp only [word, number_formatInt]; simp

theorem moveWords_chars {g : Builder} {p : Vec3} {e : ℚ} {s : Int} {d : Char} (h1 : d ≠ '-') (h2 : d ≠ '.')
    (h3 : d.toNat < 48 ∨ 57 < d.toNat) (h4 : d ∉ ['X', 'Y', 'Z', 'F', 'E']) : ∀ w ∈ moveWords g p e s, d ∉ w := by
  intro w hw hd
  simp only [List.mem_cons, not_or] at h4
  obtain ⟨a1, a2, a3, a4, a5, _⟩ := h4
  unfold moveWords at hw
  simp only [List.mem_append] at hw
  have key : ∀ {c : Prop} [Decidable c] {t : Str}, w ∈ (if c then [t] else []) → w = t := by
    intro c _ t h; split at h <;> simp_all
  rcases hw with (((hw | hw) | hw) | hw) | hw <;> rw [key hw] at hd <;> rcases List.mem_cons.1 hd with hd | hd
  · exact a1 hd
  · exact not_mem_formatFixed _ _ h1 h2 h3 hd
  · exact a2 hd
  · exact not_mem_formatFixed _ _ h1 h2 h3 hd
  · exact a3 hd
  · exact not_mem_formatFixed _ _ h1 h2 h3 hd
  · exact a4 hd
  · exact not_mem_formatInt _ h1 h3 hd
  · exact a5 hd
  · exact not_mem_formatFixed _ _ h1 h2 h3 hd

theorem newline_not_mem_moveLine (g : Builder) (p : Vec3) (e : ℚ) (s : Int) : '\n' ∉ moveLine g p e s := by
  unfold moveLine
  rw [List.mem_append, not_or]
  constructor
  · split <;> decide
  · rw [List.mem_flatMap]
    rintro ⟨w, hw, h⟩
    rcases List.mem_cons.1 h with h | h
    · exact absurd h (by decide)
    · exact moveWords_chars (by decide) (by decide) (by decide) (by decide) w hw h

theorem split_moveLine (g : Builder) (p : Vec3) (e : ℚ) (s : Int) :
    split ' ' (moveLine g p e s) = (if e ≠ 0 then ['G', '1'] else ['G', '0']) :: moveWords g p e s := by
  unfold moveLine
  apply split_words
  · split <;> decide
  · exact moveWords_chars (by decide) (by decide) (by decide) (by decide)

theorem foldl_moveWords (g : Builder) (p : Vec3) (e : ℚ) (s : Int) (m : Machine) :
    (moveWords g p e s).foldl word (some (m, false)) =
      some ({ x := if p.x ≠ g.currentPosition.x ∨ !g.notFirstMoveX then some (decimals 2 (toMillimeter p.x)) else m.x
              y := if p.y ≠ g.currentPosition.y ∨ !g.notFirstMoveY then some (decimals 2 (toMillimeter p.y)) else m.y
              z := if p.z ≠ g.currentPosition.z ∨ !g.notFirstMoveZ then some (decimals 2 (toMillimeter p.z)) else m.z
              f := if g.currentSpeed ≠ s then some (((s * 60 : Int)) : ℚ) else m.f
              e := if e ≠ 0 then some (decimals 4 (r32 (g.extrusionAmount + e))) else m.e }, decide (e ≠ 0)) := by
  unfold moveWords
  have key : ∀ {c : Prop} [Decidable c] (w : Str) (st : Option (Machine × Bool)),
      (if c then [w] else []).foldl word st = if c then word st w else st := by
    intro c _ w st; split <;> rfl
  rw [List.foldl_append, List.foldl_append, List.foldl_append, List.foldl_append]
  simp only [key]
  obtain ⟨mx, my, mz, me, mf⟩ := m
  by_cases h1 : p.x ≠ g.currentPosition.x ∨ !g.notFirstMoveX <;> by_cases h2 : p.y ≠ g.currentPosition.y ∨ !g.notFirstMoveY <;>
    by_cases h3 : p.z ≠ g.currentPosition.z ∨ !g.notFirstMoveZ <;> by_cases h4 : g.currentSpeed = s <;> by_cases h5 : e = 0 <;>
    simp only [if_pos, if_neg, h1, h2, h3, h4, h5, ne_eq, not_true_eq_false, not_false_eq_true, word_X, word_Y, word_Z, word_F, word_E] <;> rfl

/-- One requested move. -/
theorem agrees_addMoveSpeed {g : Builder} {st : Head × List Move} (h : Agrees g st) (p : Vec3) (e : ℚ) (s : Int) :
    Agrees (g.addMoveSpeed p e s) (effectStep st ⟨p, e, s⟩) := by
  obtain ⟨hc, ht, hx, hy, hz, hp, htot, hf, hs⟩ := h
  obtain ⟨⟨pos, total, feed, eo⟩, log⟩ := st
  simp only at ht hx hy hz hp htot hf hs
  have hcond : ((g.notFirstMoveX || g.notFirstMoveY || g.notFirstMoveZ) ∧ g.currentPosition.x = p.x ∧ g.currentPosition.y = p.y ∧
      g.currentPosition.z = p.z ∧ e = 0) ↔ (pos = some p ∧ e = 0) := by
    rw [hx, hy, hz, hp]
    obtain ⟨px, py, pz⟩ := p
    cases pos with
    | none => simp
    | some q => obtain ⟨qx, qy, qz⟩ := q; simp [and_assoc]
  unfold effectStep
  simp only [Head.useless, decide_eq_true_eq]
  by_cases hu : pos = some p ∧ e = 0
  · rw [if_pos hu, addMoveSpeed_skip (hcond.2 hu)]
    exact ⟨hc, ht, hx, hy, hz, hp, htot, hf, hs⟩
  · rw [if_neg hu, addMoveSpeed_emit (fun hh => hu (hcond.1 hh))]
    refine ⟨closed_append_newline _, ?_, rfl, rfl, rfl, rfl, ?_, ?_, ?_⟩
    · simp only
      rw [run_append_line hc (newline_not_mem_moveLine g p e s), ht]
      unfold line
      simp only [split_moveLine, foldl_moveWords]
      rw [if_pos (by by_cases he : e = 0 <;> simp [he])]
      have hm : (({ x := if p.x ≠ g.currentPosition.x ∨ !g.notFirstMoveX then some (decimals 2 (toMillimeter p.x)) else (Head.machine ⟨pos, total, feed, eo⟩).x
                    y := if p.y ≠ g.currentPosition.y ∨ !g.notFirstMoveY then some (decimals 2 (toMillimeter p.y)) else (Head.machine ⟨pos, total, feed, eo⟩).y
                    z := if p.z ≠ g.currentPosition.z ∨ !g.notFirstMoveZ then some (decimals 2 (toMillimeter p.z)) else (Head.machine ⟨pos, total, feed, eo⟩).z
                    f := if g.currentSpeed ≠ s then some (((s * 60 : Int)) : ℚ) else (Head.machine ⟨pos, total, feed, eo⟩).f
                    e := if e ≠ 0 then some (decimals 4 (r32 (g.extrusionAmount + e))) else (Head.machine ⟨pos, total, feed, eo⟩).e } : Machine)) =
          (Head.after ⟨pos, total, feed, eo⟩ ⟨p, e, s⟩).machine := by
        unfold Head.machine Head.after
        simp only [hx, hy, hz, hp, htot, Machine.mk.injEq, Option.map_some]
        refine ⟨?_, ?_, ?_, ?_, ?_⟩
        · cases pos with
          | none => simp
          | some q => by_cases hh : p.x = q.x <;> simp [hh]
        · cases pos with
          | none => simp
          | some q => by_cases hh : p.y = q.y <;> simp [hh]
        · cases pos with
          | none => simp
          | some q => by_cases hh : p.z = q.z <;> simp [hh]
        · by_cases he : e = 0 <;> simp [he]
        · by_cases hfn : feed = none
          · have h0 := hs hfn
            rw [h0, hfn]
            by_cases hs0 : s = 0
            · simp [hs0]
            · rw [if_pos (fun h => hs0 h.symm), if_neg (by simp [hs0])]
              push_cast; rw [mul_comm]
          · rw [if_neg hfn] at hf
            by_cases hcs : g.currentSpeed = s
            · rw [if_neg (by simpa using hcs), if_neg (by simp [hfn]), hf, hcs]
            · rw [if_pos hcs, if_neg (by simp [hfn])]
              push_cast; rw [mul_comm]
      rw [hm]
      simp only [Option.some.injEq, Prod.mk.injEq, true_and, List.append_cancel_left_eq, List.cons.injEq, and_true, Move.mk.injEq]
      by_cases he : e = 0 <;> simp [he]
    · simp [Head.after, htot]
    · simp only [Head.after]
      by_cases hh : feed = none ∧ s = 0
      · simp [hh]
      · simp [hh]
    · simp only [Head.after]
      by_cases hh : feed = none ∧ s = 0
      · simp [hh]
      · simp [hh]


/-! ## Histories -/

theorem effect_append (rs : List Request) (r : Request) : effect (rs ++ [r]) = effectStep (effect rs) r := by
  simp [effect]

theorem effectStep_pos (st : Head × List Move) (r : Request) : (effectStep st r).1.pos = some r.target := by
  unfold effectStep
  split
  · rename_i h
    simp only [Head.useless, decide_eq_true_eq] at h
    exact h.1
  · rfl

theorem effect_pos (rs : List Request) : (effect rs).1.pos = rs.getLast?.map Request.target := by
  rcases List.eq_nil_or_concat rs with rfl | ⟨l, r, rfl⟩
  · rfl
  · rw [List.concat_eq_append, effect_append, effectStep_pos]; simp

/-- The settings stored in a builder. -/
def settingsOf (g : Builder) : Settings :=
  ⟨g.moveSpeed, g.extrudeSpeed, g.extrudeSpeedOverride, g.retractionSpeed, g.retractionAmount, g.zHopOnRetract, g.extrusionPerMM⟩

/-- Filament per millimetre as computed by `setExtrusion`. -/
def flowOf (fd : Micrometer) (em : Int) (t w : Int) : ℚ := ((newBuilder fd em).setExtrusion t w).extrusionPerMM

/-- The builder agrees with settings and requests. -/
structure Follows (fd : Micrometer) (em : Int) (g : Builder) (s : Settings) (rs : List Request) : Prop where
  agrees : Agrees g (effect rs)
  settings : settingsOf g = s
  fd : g.filamentDiameter = fd
  em : g.extrusionMultiplier = em

section
variable {fd : Micrometer} {em : Int} {g : Builder} {s : Settings} {rs : List Request}

theorem Follows.position (h : Follows fd em g s rs) : g.currentPosition = Plan.last ⟨s, rs⟩ := by
  rw [h.agrees.pos, effect_pos]; rfl
theorem Follows.zHop (h : Follows fd em g s rs) : g.zHopOnRetract = s.zHop := by rw [← h.settings]; rfl
theorem Follows.amount (h : Follows fd em g s rs) : g.retractionAmount = s.retractionAmount := by rw [← h.settings]; rfl
theorem Follows.rspeed (h : Follows fd em g s rs) : g.retractionSpeed = s.retractionSpeed := by rw [← h.settings]; rfl
theorem Follows.perMM (h : Follows fd em g s rs) : g.extrusionPerMM = s.perMM := by rw [← h.settings]; rfl

theorem last_append (s : Settings) (rs : List Request) (r : Request) : Plan.last ⟨s, rs ++ [r]⟩ = r.target := by
  simp [Plan.last]

theorem addMoveSpeed_settings (g : Builder) (q : Vec3) (e : ℚ) (s : Int) :
    settingsOf (g.addMoveSpeed q e s) = settingsOf g ∧ (g.addMoveSpeed q e s).filamentDiameter = g.filamentDiameter ∧
      (g.addMoveSpeed q e s).extrusionMultiplier = g.extrusionMultiplier := by
  by_cases h : ((g.notFirstMoveX || g.notFirstMoveY || g.notFirstMoveZ) ∧ g.currentPosition.x = q.x ∧ g.currentPosition.y = q.y ∧
      g.currentPosition.z = q.z ∧ e = 0)
  · rw [addMoveSpeed_skip h]; exact ⟨rfl, rfl, rfl⟩
  · rw [addMoveSpeed_emit h]; exact ⟨rfl, rfl, rfl⟩

theorem Follows.addMoveSpeed (h : Follows fd em g s rs) (q : Vec3) (e : ℚ) (v : Int) :
    Follows fd em (g.addMoveSpeed q e v) s (rs ++ [⟨q, e, v⟩]) := by
  obtain ⟨a, b, c⟩ := addMoveSpeed_settings g q e v
  refine ⟨?_, a.trans h.settings, b.trans h.fd, c.trans h.em⟩
  rw [effect_append]
  exact agrees_addMoveSpeed h.agrees q e v

theorem Follows.addMove (h : Follows fd em g s rs) (q : Vec3) (e : ℚ) : Follows fd em (g.addMove q e) s (rs ++ [s.move q e]) := by
  unfold Builder.addMove Settings.move
  have : s.speed e = (if e ≠ 0 then (if g.extrudeSpeedOverride ≤ 0 then g.extrudeSpeed else g.extrudeSpeedOverride) else g.moveSpeed) := by
    rw [← h.settings]
    unfold Settings.speed settingsOf
    by_cases he : e = 0
    · simp [he]
    · simp only [he, ne_eq, not_false_eq_true, if_true, if_false]
      by_cases ho : g.extrudeSpeedOverride ≤ 0
      · rw [if_pos ho, if_neg (by omega)]
      · rw [if_neg ho, if_pos (by omega)]
  rw [this]
  exact h.addMoveSpeed q e _

end

theorem Follows.addLines {fd em s} (z : Micrometer) (path : Path) : ∀ {g rs} (_ : Follows fd em g s rs) (prev : Pt),
    Follows fd em (Builder.addLines z g prev path) s (rs ++ s.lines z prev path) := by
  induction path with
  | nil => intro g p h prev; simpa [Builder.addLines, Settings.lines] using h
  | cons q rest ih =>
    intro g rs h prev
    have h2 := ih (h.addMove ⟨q.x, q.y, z⟩ (r32 ((q.sub prev).sizeMM * g.extrusionPerMM))) q
    rw [List.append_assoc, List.singleton_append] at h2
    unfold Builder.addLines Settings.lines Settings.filament
    rw [← h.perMM]
    exact h2

theorem Follows.addTravel {fd em g s rs} (h : Follows fd em g s rs) (p0 : Pt) (z : Micrometer) (c : Bool) :
    Follows fd em (g.addTravel p0 z c) s (rs ++ s.approach c (Plan.last ⟨s, rs⟩) p0 z) := by
  unfold Builder.addTravel Settings.approach
  cases c with
  | false => simpa using h.addMove ⟨p0.x, p0.y, z⟩ 0
  | true =>
    simp only [if_true, true_and]
    have h1 := h.addMoveSpeed g.currentPosition (-g.retractionAmount) g.retractionSpeed
    rw [h.zHop]
    generalize g.addMoveSpeed g.currentPosition (-g.retractionAmount) g.retractionSpeed = g1 at h1 ⊢
    rw [h.amount, h.rspeed, h.position] at h1
    have hp := h1.position
    rw [last_append] at hp
    rw [h1.zHop, hp]
    by_cases hh : s.zHop > 0
    · simp only [hh, if_true]
      have h2 := h1.addMove ⟨(Plan.last ⟨s, rs⟩).x, (Plan.last ⟨s, rs⟩).y, z + toMicrometer s.zHop⟩ 0
      generalize g1.addMove ⟨(Plan.last ⟨s, rs⟩).x, (Plan.last ⟨s, rs⟩).y, z + toMicrometer s.zHop⟩ 0 = g2 at h2 ⊢
      have h3 := h2.addMove ⟨p0.x, p0.y, z + toMicrometer s.zHop⟩ 0
      generalize g2.addMove ⟨p0.x, p0.y, z + toMicrometer s.zHop⟩ 0 = g3 at h3 ⊢
      rw [h3.zHop]
      simp only [hh, if_true]
      have h4 := h3.addMove ⟨p0.x, p0.y, z⟩ 0
      generalize g3.addMove ⟨p0.x, p0.y, z⟩ 0 = g4 at h4 ⊢
      have h5 := h4.addMoveSpeed g4.currentPosition g4.retractionAmount g4.retractionSpeed
      have hp4 := h4.position
      rw [last_append] at hp4
      rw [h4.amount, h4.rspeed, hp4] at h5 ⊢
      simpa [List.append_assoc, Settings.move] using h5
    · simp only [hh, if_false]
      have h3 := h1.addMove ⟨p0.x, p0.y, z⟩ 0
      generalize g1.addMove ⟨p0.x, p0.y, z⟩ 0 = g3 at h3 ⊢
      rw [h3.zHop]
      simp only [hh, if_false]
      have h5 := h3.addMoveSpeed g3.currentPosition g3.retractionAmount g3.retractionSpeed
      have hp4 := h3.position
      rw [last_append] at hp4
      rw [h3.amount, h3.rspeed, hp4] at h5 ⊢
      simpa [List.append_assoc, Settings.move] using h5

theorem crossingTest_eq {crossing : List LayerPart → Path → Bool × Bool} {fd em g s rs} (h : Follows fd em g s rs)
    {layer : Option (List LayerPart)} {p0 : Pt} {c : Bool} (hc : g.crossingTest crossing layer p0 = .ok c) :
    c = Plan.retracts ⟨s, rs⟩ crossing layer p0 := by
  unfold Builder.crossingTest at hc
  unfold Plan.retracts
  cases layer with
  | none => simpa using (Except.ok.inj hc).symm
  | some parts =>
    simp only [h.amount, h.rspeed, h.position] at hc
    simp only
    by_cases hr : s.retractionSpeed ≠ 0 ∧ s.retractionAmount ≠ 0
    · rw [if_pos hr] at hc
      simp only [hr, ne_eq, not_false_eq_true, and_self, decide_true, Bool.true_and]
      split at hc
      · exact absurd hc (by simp)
      · exact (Except.ok.inj hc).symm
    · rw [if_neg hr] at hc
      rw [decide_eq_false hr]
      exact (Except.ok.inj hc).symm

theorem Follows.addPolygon {crossing : List LayerPart → Path → Bool × Bool} {fd em g g' s rs} (h : Follows fd em g s rs)
    {layer : Option (List LayerPart)} {path : Path} {z : Micrometer} {isOpen : Bool}
    (hok : g.addPolygon crossing layer path z isOpen = .ok g') :
    Follows fd em g' s (rs ++ Plan.polygon crossing ⟨s, rs⟩ layer path z isOpen) := by
  unfold Builder.addPolygon at hok
  unfold Plan.polygon
  by_cases hl : path.length = 0
  · rw [if_pos hl] at hok
    have : path = [] := List.length_eq_zero_iff.1 hl
    subst this
    rw [C05_int64_short _ _ (by simp)]
    rw [← Except.ok.inj hok]; simpa using h
  · rw [if_neg hl] at hok
    cases hd : douglasPeuckerM path (-1) with
    | nil => rw [hd] at hok; exact absurd hok (by simp)
    | cons p0 rest =>
      rw [hd] at hok
      simp only at hok ⊢
      cases hc : g.crossingTest crossing layer p0 with
      | error e => rw [hc] at hok; exact absurd hok (by simp [bind, Except.bind])
      | ok c =>
        rw [hc] at hok
        have hc' := crossingTest_eq h hc
        rw [← hc']
        have h1 := (h.addTravel p0 z c).addLines z rest p0
        simp only [bind, Except.bind, pure, Except.pure] at hok
        unfold Settings.draw
        cases isOpen with
        | true =>
          simp only [if_true] at hok ⊢
          rw [← Except.ok.inj hok]
          simpa [List.append_assoc] using h1
        | false =>
          simp only [Bool.false_eq_true, if_false] at hok ⊢
          rw [← Except.ok.inj hok]
          have h2 := h1.addMove ⟨p0.x, p0.y, z⟩ (r32 ((p0.sub ((p0 :: rest).getLast (by simp))).sizeMM * s.perMM))
          rw [h1.perMM]
          have : rest.getLastD p0 = (p0 :: rest).getLast (by simp) := by
            cases rest <;> simp [List.getLastD]
          unfold Settings.closing Settings.filament
          rw [this]
          simpa [List.append_assoc] using h2

theorem sprintf0_plain {t : Str} (ht : '%' ∉ t) : ∀ {n : Nat}, t.length < n → sprintf0 n t = t := by
  induction t with
  | nil => intro n hn; cases n with | zero => omega | succ n => rfl
  | cons c t ih =>
    intro n hn
    rw [List.mem_cons, not_or] at ht
    cases n with
    | zero => omega
    | succ n =>
      rw [sprintf0]
      · rw [ih ht.2 (by simpa using hn)]
      · rintro rfl; exact ht.1 rfl

/-- A command line without percent sign is appended as it is. -/
theorem addCommand_plain {g : Builder} {t : Str} (ht : '%' ∉ t) : g.addCommand t = g.addText t := by
  unfold Builder.addCommand Builder.addText
  simp only
  rw [sprintf0_plain (by simp [ht]) (by omega), List.append_assoc]

theorem addComment_plain {g : Builder} {t : Str} (ht : '%' ∉ t) : g.addComment t = g.addText (';' :: t) := by
  unfold Builder.addComment Builder.addText
  simp only
  rw [sprintf0_plain (by simp [ht]) (by omega), List.append_assoc]

theorem line_harmless {l : Str} (h : (split ' ' l).head? ≠ some ['G', '0'] ∧ (split ' ' l).head? ≠ some ['G', '1']) (st : State) :
    line st l = st := by
  unfold line
  cases st with
  | none => rfl
  | some r =>
    simp only
    cases hs : split ' ' l with
    | nil => rfl
    | cons w ws =>
      rw [hs] at h
      simp only [List.head?_cons, ne_eq, Option.some.injEq] at h
      simp [h.1, h.2]

theorem foldl_line_harmless {ls : List Str} (h : ∀ l ∈ ls, (split ' ' l).head? ≠ some ['G', '0'] ∧ (split ' ' l).head? ≠ some ['G', '1'])
    (st : State) : ls.foldl line st = st := by
  induction ls generalizing st with
  | nil => rfl
  | cons l ls ih =>
    rw [List.foldl_cons, line_harmless (h l (by simp)), ih (fun x hx => h x (List.mem_cons_of_mem _ hx))]

theorem Follows.addText {fd em g s rs} (h : Follows fd em g s rs) {t : Str} (ht : Harmless t) : Follows fd em (g.addText t) s rs := by
  obtain ⟨⟨hc, hr, a, b, c, d, e, f, k⟩, hs, h2, h3⟩ := h
  refine ⟨⟨closed_append_newline _, ?_, a, b, c, d, e, f, k⟩, hs, h2, h3⟩
  unfold Builder.addText
  simp only
  rw [List.append_assoc, run_append hc, split_append', List.foldl_append, foldl_line_harmless ht.2]
  simp [split, line_nil, hr]

theorem Follows.exec1 {crossing : List LayerPart → Path → Bool × Bool} {fd em g g' s rs} (h : Follows fd em g s rs) {c : Call}
    (hc : Call.Harmless c) (hok : g.exec1 crossing c = .ok g') :
    Follows fd em g' (Plan.call crossing (flowOf fd em) ⟨s, rs⟩ c).settings (Plan.call crossing (flowOf fd em) ⟨s, rs⟩ c).requests := by
  have hk : ∀ {a b : Builder}, Except.ok (ε := Fault) a = .ok b → a = b := fun h => Except.ok.inj h
  obtain ⟨ha, hs, h2, h3⟩ := h
  cases c with
  | polygon l p z o => exact Follows.addPolygon ⟨ha, hs, h2, h3⟩ hok
  | command t => rw [← hk hok, addCommand_plain hc.1]; exact Follows.addText ⟨ha, hs, h2, h3⟩ hc
  | comment t =>
    rw [← hk hok, addComment_plain (fun hh => hc.1 (List.mem_cons_of_mem _ hh))]; exact Follows.addText ⟨ha, hs, h2, h3⟩ hc
  | text t => rw [← hk hok]; exact Follows.addText ⟨ha, hs, h2, h3⟩ hc
  | moveSpeed p e v => rw [← hk hok]; exact Follows.addMoveSpeed ⟨ha, hs, h2, h3⟩ p e v
  | move p e => rw [← hk hok]; exact Follows.addMove ⟨ha, hs, h2, h3⟩ p e
  | setExtrusion t w =>
    rw [← hk hok]
    obtain ⟨a0, a1, a2, a3, a4, a5, a6, a7, a8⟩ := ha
    refine ⟨⟨a0, a1, a2, a3, a4, a5, a6, a7, a8⟩, ?_, h2, h3⟩
    rw [show (Plan.call crossing (flowOf fd em) ⟨s, rs⟩ (.setExtrusion t w)).settings = { s with perMM := flowOf fd em t w } from rfl, ← hs,
      ← h2, ← h3]
    rfl
  | setMoveSpeed v => rw [← hk hok]; obtain ⟨a0, a1, a2, a3, a4, a5, a6, a7, a8⟩ := ha; subst hs; exact ⟨⟨a0, a1, a2, a3, a4, a5, a6, a7, a8⟩, rfl, h2, h3⟩
  | setExtrudeSpeed v => rw [← hk hok]; obtain ⟨a0, a1, a2, a3, a4, a5, a6, a7, a8⟩ := ha; subst hs; exact ⟨⟨a0, a1, a2, a3, a4, a5, a6, a7, a8⟩, rfl, h2, h3⟩
  | setExtrudeSpeedOverride v => rw [← hk hok]; obtain ⟨a0, a1, a2, a3, a4, a5, a6, a7, a8⟩ := ha; subst hs; exact ⟨⟨a0, a1, a2, a3, a4, a5, a6, a7, a8⟩, rfl, h2, h3⟩
  | disableExtrudeSpeedOverride => rw [← hk hok]; obtain ⟨a0, a1, a2, a3, a4, a5, a6, a7, a8⟩ := ha; subst hs; exact ⟨⟨a0, a1, a2, a3, a4, a5, a6, a7, a8⟩, rfl, h2, h3⟩
  | setRetractionSpeed v => rw [← hk hok]; obtain ⟨a0, a1, a2, a3, a4, a5, a6, a7, a8⟩ := ha; subst hs; exact ⟨⟨a0, a1, a2, a3, a4, a5, a6, a7, a8⟩, rfl, h2, h3⟩
  | setRetractionAmount v => rw [← hk hok]; obtain ⟨a0, a1, a2, a3, a4, a5, a6, a7, a8⟩ := ha; subst hs; exact ⟨⟨a0, a1, a2, a3, a4, a5, a6, a7, a8⟩, rfl, h2, h3⟩
  | setRetractionZHop v => rw [← hk hok]; obtain ⟨a0, a1, a2, a3, a4, a5, a6, a7, a8⟩ := ha; subst hs; exact ⟨⟨a0, a1, a2, a3, a4, a5, a6, a7, a8⟩, rfl, h2, h3⟩

theorem Follows.exec {crossing : List LayerPart → Path → Bool × Bool} {fd em} (cs : List Call) : ∀ {g g' s rs} (_ : Follows fd em g s rs)
    (_ : ∀ c ∈ cs, Call.Harmless c) (_ : g.exec crossing cs = .ok g'),
    Follows fd em g' (cs.foldl (Plan.call crossing (flowOf fd em)) ⟨s, rs⟩).settings
      (cs.foldl (Plan.call crossing (flowOf fd em)) ⟨s, rs⟩).requests := by
  induction cs with
  | nil => intro g g' s rs h _ hok; rw [← Except.ok.inj hok]; exact h
  | cons c cs ih =>
    intro g g' s rs h hc hok
    unfold Builder.exec at hok
    cases h1 : g.exec1 crossing c with
    | error e => rw [h1] at hok; exact absurd hok (by simp [bind, Except.bind])
    | ok g1 =>
      rw [h1] at hok
      exact ih (h.exec1 (hc c (by simp)) h1) (fun x hx => hc x (List.mem_cons_of_mem _ hx)) hok

theorem follows_new (fd : Micrometer) (em : Int) : Follows fd em (newBuilder fd em) {} [] :=
  ⟨agrees_new fd em, rfl, rfl, rfl⟩

/-- **C18**: for every history of calls the emitted text, read by the interpreter, makes exactly the moves which the specification
demands for the requests of this history, and leaves the machine in the demanded state. -/
theorem C18_refines {crossing : List LayerPart → Path → Bool × Bool} {fd : Micrometer} {em : Int} {cs : List Call} {g : Builder}
    (hc : ∀ c ∈ cs, Call.Harmless c) (hok : (newBuilder fd em).exec crossing cs = .ok g) :
    run g.buf = some ((effect (plan crossing (flowOf fd em) cs).requests).1.machine,
      (effect (plan crossing (flowOf fd em) cs).requests).2) :=
  (Follows.exec cs (follows_new fd em) hc hok).agrees.text

/-- **C18**: after each request the machine is at the requested position, rounded to two decimals of a millimetre. -/
theorem C18_position {crossing : List LayerPart → Path → Bool × Bool} {fd : Micrometer} {em : Int} {cs : List Call} {g : Builder}
    (hc : ∀ c ∈ cs, Call.Harmless c) (hok : (newBuilder fd em).exec crossing cs = .ok g) {r : Request}
    (hr : (plan crossing (flowOf fd em) cs).requests.getLast? = some r) :
    ∃ m moves, run g.buf = some (m, moves) ∧ m.x = some (decimals 2 (toMillimeter r.target.x)) ∧
      m.y = some (decimals 2 (toMillimeter r.target.y)) ∧ m.z = some (decimals 2 (toMillimeter r.target.z)) := by
  refine ⟨_, _, C18_refines hc hok, ?_⟩
  simp [Head.machine, effect_pos, hr]

theorem emittedFrom_append (prev : Option Vec3) (rs : List Request) (r : Request) :
    emittedFrom prev (rs ++ [r]) = emittedFrom prev rs ++
      (if ((rs.getLast?.map Request.target).or prev) = some r.target ∧ r.extrusion = 0 then [] else [r]) := by
  induction rs generalizing prev with
  | nil => simp only [List.nil_append, emittedFrom, List.getLast?_nil, Option.map_none, Option.none_or]; congr
  | cons q rs ih =>
    simp only [List.cons_append, emittedFrom, ih]
    have : (((q :: rs).getLast?.map Request.target).or prev) = ((rs.getLast?.map Request.target).or (some q.target)) := by
      cases rs with
      | nil => simp
      | cons a l => simp [List.getLast?_eq_some_getLast]
    rw [this]
    split <;> simp

theorem emitted_append (rs : List Request) (r : Request) :
    emitted (rs ++ [r]) = if (effect rs).1.useless r then emitted rs else emitted rs ++ [r] := by
  unfold emitted
  rw [emittedFrom_append]
  simp only [Head.useless, effect_pos, Option.or_none, decide_eq_true_eq]
  split <;> simp

theorem sum32_append (rs : List Request) (r : Request) : sum32 (rs ++ [r]) = r32 (sum32 rs + r.extrusion) := by
  simp [sum32]

theorem r32_sum32 (rs : List Request) : r32 (sum32 rs) = sum32 rs := by
  rcases List.eq_nil_or_concat rs with rfl | ⟨l, r, rfl⟩
  · simp [sum32, r32_zero]
  · rw [List.concat_eq_append, sum32_append, r32_idem]

/-- The state of the head is determined by the emitted requests. -/
theorem effect_state (rs : List Request) :
    (effect rs).1.total = sum32 (emitted rs) ∧
    (effect rs).1.feed = (if ∀ q ∈ emitted rs, q.speed = 0 then none else some (60 * (((emitted rs).getLast?.map Request.speed).getD 0 : ℚ))) ∧
    (effect rs).1.e = (if ∀ q ∈ emitted rs, q.extrusion = 0 then none else some (decimals 4 (sum32 (emitted rs)))) := by
  induction rs using List.reverseRecOn with
  | nil => simp [effect, emitted, emittedFrom, sum32]
  | append_singleton rs r ih =>
    obtain ⟨h1, h2, h3⟩ := ih
    rw [effect_append, emitted_append]
    unfold effectStep
    split
    · exact ⟨h1, h2, h3⟩
    · simp only [Head.after, sum32_append, h1, true_and]
      constructor
      · rw [h2]
        by_cases ha : ∀ q ∈ emitted rs, q.speed = 0
        · rw [if_pos ha]
          by_cases hs : r.speed = 0
          · rw [if_pos ⟨rfl, hs⟩, if_pos]
            intro q hq
            rcases List.mem_append.1 hq with hq | hq
            · exact ha q hq
            · rw [List.mem_singleton.1 hq, hs]
          · rw [if_neg (by simp [hs]), if_neg (fun h => hs (h r (by simp)))]
            simp
        · rw [if_neg ha, if_neg (by simp), if_neg (fun h => ha (fun q hq => h q (List.mem_append_left _ hq)))]
          simp
      · rw [h3]
        by_cases he : r.extrusion = 0
        · rw [if_pos he, he, add_zero, r32_sum32]
          by_cases ha : ∀ q ∈ emitted rs, q.extrusion = 0
          · rw [if_pos ha, if_pos]
            intro q hq
            rcases List.mem_append.1 hq with hq | hq
            · exact ha q hq
            · rw [List.mem_singleton.1 hq, he]
          · rw [if_neg ha, if_neg (fun h => ha (fun q hq => h q (List.mem_append_left _ hq)))]
        · rw [if_neg he, if_neg (fun h => he (h r (by simp)))]

/-- The move which the specification demands for the request `r` after the emitted requests `pre`. -/
def moveFor (pre : List Request) (r : Request) : Move :=
  { g1 := decide (r.extrusion ≠ 0)
    hasE := decide (r.extrusion ≠ 0)
    after :=
      { x := some (decimals 2 (toMillimeter r.target.x))
        y := some (decimals 2 (toMillimeter r.target.y))
        z := some (decimals 2 (toMillimeter r.target.z))
        e := if ∀ q ∈ pre ++ [r], q.extrusion = 0 then none else some (decimals 4 (sum32 (pre ++ [r])))
        f := if ∀ q ∈ pre ++ [r], q.speed = 0 then none else some (60 * (r.speed : ℚ)) } }

theorem effect_moves (rs : List Request) :
    (effect rs).2 = (List.range (emitted rs).length).pmap (fun k (hk : k < (emitted rs).length) => moveFor ((emitted rs).take k) (emitted rs)[k])
      (fun k hk => List.mem_range.1 hk) := by
  induction rs using List.reverseRecOn with
  | nil => rfl
  | append_singleton rs r ih =>
    have hst := effect_state (rs ++ [r])
    rw [effect_append] at hst ⊢
    have hem := emitted_append rs r
    by_cases hu : (effect rs).1.useless r
    · rw [if_pos hu] at hem
      simp only [effectStep, hu, if_true]
      rw [ih]
      apply List.ext_getElem <;> simp [hem]
    · rw [if_neg hu] at hem
      have hst' := hst
      unfold effectStep at hst ⊢
      rw [if_neg hu] at hst ⊢
      simp only at hst ⊢
      apply List.ext_getElem
      · rw [ih]; simp [hem]
      · intro k hk1 hk2
        simp only [List.length_pmap, List.length_range] at hk2
        simp only [List.getElem_pmap, List.getElem_range]
        by_cases hk : k < (emitted rs).length
        · have hk' : k < (effect rs).2.length := by rw [ih]; simpa using hk
          rw [List.getElem_append_left hk']
          simp only [ih, List.getElem_pmap, List.getElem_range, hem]
          rw [List.getElem_append_left hk, List.take_append_of_le_length hk.le]
        · have hlen : (effect rs).2.length = (emitted rs).length := by rw [ih]; simp
          have hk3 : k = (emitted rs).length := by
            rw [hem] at hk2; simp at hk2; omega
          subst hk3
          rw [List.getElem_append_right (by omega)]
          simp only [hem, List.getElem_concat_length, List.take_left, hlen, Nat.sub_self, List.getElem_cons_zero]
          unfold moveFor Head.machine
          rw [hst.2.1, hst.2.2, hem]
          simp [Head.after]

section
variable {crossing : List LayerPart → Path → Bool × Bool} {fd : Micrometer} {em : Int} {cs : List Call} {g : Builder}

/-- **C18 to C21**: the moves read from the text are, one by one, the moves demanded for the emitted requests. -/
theorem C18_moves (hc : ∀ c ∈ cs, Call.Harmless c) (hok : (newBuilder fd em).exec crossing cs = .ok g) :
    ∃ m moves, run g.buf = some (m, moves) ∧ moves.length = (emitted (plan crossing (flowOf fd em) cs).requests).length ∧
      ∀ (k : Nat) (r : Request) (mv : Move), (emitted (plan crossing (flowOf fd em) cs).requests)[k]? = some r → moves[k]? = some mv →
        mv = moveFor ((emitted (plan crossing (flowOf fd em) cs).requests).take k) r := by
  refine ⟨_, _, C18_refines hc hok, ?_, ?_⟩
  · rw [effect_moves]; simp
  · intro k r mv hr hm
    obtain ⟨hk, hr⟩ := List.getElem?_eq_some_iff.1 hr
    rw [effect_moves] at hm
    obtain ⟨hk2, hm⟩ := List.getElem?_eq_some_iff.1 hm
    rw [← hm]
    simp only [List.getElem_pmap, List.getElem_range, hr]

/-- **C19**: the feed rate during the k-th move is 60 times the speed selected for it, unless all speeds up to now were 0. -/
theorem C19_feed (hc : ∀ c ∈ cs, Call.Harmless c) (hok : (newBuilder fd em).exec crossing cs = .ok g) :
    ∃ m moves, run g.buf = some (m, moves) ∧
      ∀ (k : Nat) (r : Request) (mv : Move), (emitted (plan crossing (flowOf fd em) cs).requests)[k]? = some r → moves[k]? = some mv →
        (∃ q ∈ (emitted (plan crossing (flowOf fd em) cs).requests).take k ++ [r], q.speed ≠ 0) → mv.after.f = some (60 * (r.speed : ℚ)) := by
  obtain ⟨m, moves, h1, _, h3⟩ := C18_moves hc hok
  refine ⟨m, moves, h1, fun k r mv hr hm ⟨q, hq, hq0⟩ => ?_⟩
  rw [h3 k r mv hr hm]
  exact if_neg fun h => hq0 (h q hq)

/-- **C19**: which speed is requested by a normal move. -/
theorem C19_selection (s : Settings) (p : Vec3) (e : ℚ) :
    (e ≠ 0 → 0 < s.override → (s.move p e).speed = s.override) ∧
    (e ≠ 0 → ¬ 0 < s.override → (s.move p e).speed = s.extrudeSpeed) ∧
    (s.move p 0).speed = s.moveSpeed := by
  refine ⟨fun h1 h2 => ?_, fun h1 h2 => ?_, ?_⟩ <;> simp [Settings.move, Settings.speed, *]

/-- **C20**: the E axis after the k-th move is the float32 total of all filament requested up to it, and exactly the moves with filament
are `G1` and have an E word. -/
theorem C20_total (hc : ∀ c ∈ cs, Call.Harmless c) (hok : (newBuilder fd em).exec crossing cs = .ok g) :
    ∃ m moves, run g.buf = some (m, moves) ∧
      ∀ (k : Nat) (r : Request) (mv : Move), (emitted (plan crossing (flowOf fd em) cs).requests)[k]? = some r → moves[k]? = some mv →
        (mv.g1 = true ↔ r.extrusion ≠ 0) ∧ (mv.hasE = true ↔ r.extrusion ≠ 0) ∧
        (r.extrusion ≠ 0 → mv.after.e = some (decimals 4 (sum32 ((emitted (plan crossing (flowOf fd em) cs).requests).take k ++ [r])))) := by
  obtain ⟨m, moves, h1, _, h3⟩ := C18_moves hc hok
  refine ⟨m, moves, h1, fun k r mv hr hm => ?_⟩
  rw [h3 k r mv hr hm]
  refine ⟨by simp [moveFor], by simp [moveFor], fun he => if_neg fun h => he (h r (by simp))⟩

/-- **C21**: one move for each request which extrudes or changes the position (or is the first), none for the others. -/
theorem C21_count (hc : ∀ c ∈ cs, Call.Harmless c) (hok : (newBuilder fd em).exec crossing cs = .ok g) :
    ∃ m moves, run g.buf = some (m, moves) ∧ moves.length = (emitted (plan crossing (flowOf fd em) cs).requests).length := by
  obtain ⟨m, moves, h1, h2, _⟩ := C18_moves hc hok
  exact ⟨m, moves, h1, h2⟩

end

theorem mem_emittedFrom {prev : Option Vec3} {rs : List Request} {r : Request} (h : r ∈ emittedFrom prev rs) : r ∈ rs := by
  induction rs generalizing prev with
  | nil => simp [emittedFrom] at h
  | cons q rs ih =>
    unfold emittedFrom at h
    split at h
    · exact List.mem_cons_of_mem _ (ih h)
    · rcases List.mem_cons.1 h with h | h
      · rw [h]; simp
      · exact List.mem_cons_of_mem _ (ih h)

/-- **C21**: consecutive emitted requests differ in the target or extrude. -/
theorem C21_no_useless (rs : List Request) : (emitted rs).IsChain (fun a b => a.target = b.target → b.extrusion ≠ 0) := by
  have key : ∀ (rs : List Request) (prev : Option Vec3),
      (emittedFrom prev rs).IsChain (fun a b => a.target = b.target → b.extrusion ≠ 0) ∧
        ∀ b, (emittedFrom prev rs).head? = some b → prev = some b.target → b.extrusion ≠ 0 := by
    intro rs
    induction rs with
    | nil => intro prev; simp [emittedFrom]
    | cons r rs ih =>
      intro prev
      unfold emittedFrom
      split
      · rename_i h
        refine ⟨(ih _).1, fun b hb hp => (ih _).2 b hb ?_⟩
        rw [← hp, h.1]
      · rename_i h
        refine ⟨?_, ?_⟩
        · rw [List.isChain_cons]
          refine ⟨fun b hb ht => (ih (some r.target)).2 b ?_ (by rw [ht]), (ih _).1⟩
          simpa using hb
        · intro b hb hp
          simp only [List.head?_cons, Option.some.injEq] at hb
          subst hb
          exact fun he => h ⟨hp, he⟩
  exact (key rs none).1

/-- A history with moves, a polygon, settings and texts. -/
def sampleCalls : List Call :=
  [.comment "start".toList, .command "M104 S200".toList, .setExtrusion 200 400, .setMoveSpeed 150, .setExtrudeSpeed 60,
   .setRetractionSpeed 30, .setRetractionAmount 2, .setRetractionZHop (1 / 2), .move ⟨0, 0, 200⟩ 0,
   .polygon (some []) [⟨1000, 1000⟩, ⟨2000, 1000⟩, ⟨2000, 2000⟩] 200 false]

/-- Non-vacuity: the history is harmless, it succeeds, and its text is the following (also with retraction and z hop). -/
example : ∀ c ∈ sampleCalls, Call.Harmless c := by
  intro c hc
  simp only [sampleCalls, List.mem_cons, List.not_mem_nil, or_false] at hc
  rcases hc with rfl | rfl | rfl | rfl | rfl | rfl | rfl | rfl | rfl | rfl <;> trivial

example : ((newBuilder 1750 100).exec (fun _ _ => (true, true)) sampleCalls).toOption.map Builder.buf =
    some (";start\nM104 S200\nG0 X0.00 Y0.00 Z0.20 F9000\nG1 F1800 E-2.0000\nG0 Z0.70 F9000\nG0 X1.00 Y1.00\n" ++
      "G0 Z0.20\nG1 F1800 E0.0000\nG1 X2.00 F3600 E0.0333\nG1 Y2.00 E0.0665\nG1 X1.00 Y1.00 E0.1136\n").toList := by
  decide +kernel

end Verif
