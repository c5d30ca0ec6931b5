import Verif.Props.Drawn

/-! # C112: nothing else is printed -/
namespace Verif
open Verif.Go Verif.Model Verif.Spec Verif.Spec.GCode

/-! ## From moves to requests -/

/-- Each extruding request is in a relation to the target before it. -/
def Extruding (P : Option Vec3 → Vec3 → Prop) : Option Vec3 → List Request → Prop
  | _, [] => True
  | prev, r :: rs => (r.extrusion ≠ 0 → P prev r.target) ∧ Extruding P (some r.target) rs

/-- The target of the last request. -/
def lastTarget (prev : Option Vec3) (rs : List Request) : Option Vec3 := (rs.getLast?.map Request.target).or prev

theorem extruding_append {P : Option Vec3 → Vec3 → Prop} (a b : List Request) : ∀ prev,
    Extruding P prev (a ++ b) ↔ Extruding P prev a ∧ Extruding P (lastTarget prev a) b := by
  induction a with
  | nil => intro prev; simp [Extruding, lastTarget]
  | cons r a ih =>
    intro prev
    have e : lastTarget prev (r :: a) = lastTarget (some r.target) a := by
      cases a with
      | nil => rfl
      | cons s a =>
        unfold lastTarget
        rw [List.getLast?_cons_cons]
        obtain ⟨x, hx⟩ : ∃ x, (s :: a).getLast? = some x := ⟨_, List.getLast?_eq_getLast_of_ne_nil (by simp)⟩
        rw [hx]
        rfl
    rw [List.cons_append, Extruding, ih, Extruding, e, and_assoc]

/-- The machine is at a target. -/
def AtVec (m : Machine) (v : Vec3) : Prop := At m ⟨v.x, v.y⟩ v.z

theorem extruding_moves {P : Option Vec3 → Vec3 → Prop} {rs : List Request} (h : Extruding P none rs) :
    (∀ line, (effect rs).2[0]? = some line → line.hasE = true → ∃ w, P none w ∧ AtVec line.after w) ∧
    ∀ (k : Nat) before line, (effect rs).2[k]? = some before → (effect rs).2[k + 1]? = some line → line.hasE = true →
      ∃ v w, P (some v) w ∧ AtVec before.after v ∧ AtVec line.after w := by
  induction rs using List.reverseRecOn with
  | nil => simp [effect]
  | append_singleton rs r ih =>
    obtain ⟨h1, h2⟩ := (extruding_append _ _ _).1 h
    obtain ⟨i1, i2⟩ := ih h1
    rw [effect_append]
    unfold effectStep
    split
    · exact ⟨i1, i2⟩
    · have hr : ∀ line : Move, line = ⟨decide (r.extrusion ≠ 0), decide (r.extrusion ≠ 0), ((effect rs).1.after r).machine⟩ → line.hasE = true →
          P (lastTarget none rs) r.target ∧ AtVec line.after r.target := by
        rintro line rfl he
        exact ⟨h2.1 (by simpa using he), machine_at (by simp [Head.after])⟩
      constructor
      · intro line hl he
        cases hm : (effect rs).2 with
        | nil =>
          rw [hm] at hl
          obtain ⟨e1, e2⟩ := hr line (by simpa using hl.symm) he
          have : rs = [] := by
            by_contra hne
            obtain ⟨ms, m, e, -⟩ := effect_last hne
            rw [hm] at e
            simp at e
          subst this
          exact ⟨_, e1, e2⟩
        | cons m ms =>
          rw [hm] at hl i1
          exact i1 line (by simpa using hl) he
      · intro k before line hb hl he
        rcases lt_or_ge (k + 1) (effect rs).2.length with hk | hk
        · rw [List.getElem?_append_left hk] at hl
          rw [List.getElem?_append_left (by omega)] at hb
          exact i2 k before line hb hl he
        · rw [List.getElem?_append_right hk, List.getElem?_singleton] at hl
          split at hl
          · rename_i hk0
            obtain ⟨e1, e2⟩ := hr line (by simpa using hl.symm) he
            have hlt : k < (effect rs).2.length := by omega
            rw [List.getElem?_append_left hlt] at hb
            have hne : rs ≠ [] := by rintro rfl; simp [effect] at hlt
            obtain ⟨ms, m, e3, e4⟩ := effect_last hne
            rw [e3] at hb hk hk0 hlt
            have hkm : k = ms.length := by simp at hk0 hlt hk; omega
            subst hkm
            have hbm : m = before := by simpa using hb
            subst hbm
            obtain ⟨q, hq⟩ : ∃ q, rs.getLast? = some q := ⟨_, List.getLast?_eq_getLast_of_ne_nil hne⟩
            refine ⟨q.target, r.target, ?_, ?_, e2⟩
            · simpa [lastTarget, hq] using e1
            · rw [e4]
              exact machine_at (by rw [effect_pos, hq]; rfl)
          · cases hl

/-! ## From requests to paths -/

section
variable {P : Option Vec3 → Vec3 → Prop}

theorem extruding_lines (s : Settings) (z : Int) (rest : Path) : ∀ p0 : Pt,
    (∀ ab ∈ (p0 :: rest).zip rest, P (some ⟨ab.1.x, ab.1.y, z⟩) ⟨ab.2.x, ab.2.y, z⟩) → Extruding P (some ⟨p0.x, p0.y, z⟩) (s.lines z p0 rest) := by
  induction rest with
  | nil => intro p0 _; trivial
  | cons b rest ih =>
    intro p0 h
    rw [List.zip_cons_cons] at h
    exact ⟨fun _ => h _ List.mem_cons_self, ih b fun ab hab => h ab (List.mem_cons_of_mem _ hab)⟩

/-- The relation allows to extrude or retract without moving; at the very start only at the origin. -/
def AllowsStanding (P : Option Vec3 → Vec3 → Prop) : Prop := (∀ v, P (some v) v) ∧ P none ⟨0, 0, 0⟩

theorem extruding_draw (hP : AllowsStanding P) (s : Settings) (c : Bool) (prev : Option Vec3) (p0 : Pt) (rest : Path) (z : Int) (isOpen : Bool)
    (h : ∀ ab ∈ pathLines isOpen (p0 :: rest), P (some ⟨ab.1.x, ab.1.y, z⟩) ⟨ab.2.x, ab.2.y, z⟩) :
    Extruding P prev (s.draw c (prev.getD ⟨0, 0, 0⟩) p0 rest z isOpen) := by
  have e : s.draw c (prev.getD ⟨0, 0, 0⟩) p0 rest z isOpen =
      s.approach c (prev.getD ⟨0, 0, 0⟩) p0 z ++ s.lines z p0 (rest ++ if isOpen then [] else [p0]) := by
    unfold Settings.draw
    cases isOpen with
    | true => simp
    | false =>
      rw [if_neg (by simp), if_neg (by simp), ← lines_append]
      simp [Settings.closing]
  have hlast : lastTarget prev (s.approach c (prev.getD ⟨0, 0, 0⟩) p0 z) = some ⟨p0.x, p0.y, z⟩ := by
    obtain ⟨xs, q, h1, h2⟩ := approach_last s c (prev.getD ⟨0, 0, 0⟩) p0 z
    rw [h1]
    simp [lastTarget, h2]
  have hstart : P prev (prev.getD ⟨0, 0, 0⟩) := by
    cases prev with
    | none => exact hP.2
    | some v => exact hP.1 v
  rw [e, extruding_append, hlast]
  constructor
  · unfold Settings.approach
    split
    · split
      · exact ⟨fun _ => hstart, by simp [Settings.move], by simp [Settings.move], by simp [Settings.move], fun _ => hP.1 _, trivial⟩
      · exact ⟨fun _ => hstart, by simp [Settings.move], fun _ => hP.1 _, trivial⟩
    · exact ⟨by simp [Settings.move], trivial⟩
  · refine extruding_lines s z _ p0 fun ab hab => h ab ?_
    rw [pathLines, zip_longer _ _ _ (by split <;> simp)]
    exact hab

variable {crossing : List LayerPart → Path → Bool × Bool} {flow : Int → Int → ℚ} {lib : ClipperLib} {o : Options} {pt : Patterns}

theorem last_eq (p : Plan) : p.last = (lastTarget none p.requests).getD ⟨0, 0, 0⟩ := by
  unfold Plan.last lastTarget
  cases p.requests.getLast? <;> rfl

/-- A call without requests, or a polygon with allowed lines. -/
def AllowedCall (P : Option Vec3 → Vec3 → Prop) : Call → Prop
  | .moveSpeed _ _ _ => False
  | .move _ _ => False
  | .polygon _ path z isOpen => ∀ ab ∈ pathLines isOpen (douglasPeuckerM path (-1)), P (some ⟨ab.1.x, ab.1.y, z⟩) ⟨ab.2.x, ab.2.y, z⟩
  | _ => True

theorem extruding_fold (hP : AllowsStanding P) (cs : List Call) : ∀ p : Plan, Extruding P none p.requests → (∀ c ∈ cs, AllowedCall P c) →
    Extruding P none (cs.foldl (Plan.call crossing flow) p).requests := by
  induction cs with
  | nil => intro p h _; exact h
  | cons c cs ih =>
    intro p h hc
    refine ih _ ?_ fun x hx => hc x (List.mem_cons_of_mem _ hx)
    have h0 := hc c List.mem_cons_self
    cases c with
    | moveSpeed q e s => exact h0.elim
    | move q e => exact h0.elim
    | polygon lay path z isOpen =>
      simp only [Plan.call]
      rw [extruding_append]
      refine ⟨h, ?_⟩
      unfold Plan.polygon
      split
      · trivial
      · rename_i p0 rest he
        rw [last_eq]
        refine extruding_draw hP _ _ _ _ _ _ _ ?_
        rw [← he]
        exact h0
    | _ => exact h

theorem printCalls_allowed {layers : List Layer} (h : ∀ n l, layers[n]? = some l → ∀ c ∈ layerDraws lib o pt (layers.length - 1) n l, AllowedCall P c) :
    ∀ c ∈ printCalls lib o pt layers, AllowedCall P c := by
  intro c hc
  unfold printCalls at hc
  rcases List.mem_append.1 hc with hc | hc
  · simp only [preLayerSettings, List.mem_cons, List.not_mem_nil, or_false] at hc
    rcases hc with rfl | rfl | rfl | rfl | rfl | rfl | rfl <;> trivial
  · obtain ⟨x, hx, hc⟩ := List.mem_flatMap.1 hc
    simp only [innerCalls, List.mem_append] at hc
    rcases hc with (hc | hc) | hc
    · split at hc
      · rw [List.mem_singleton.1 hc]; trivial
      · simp at hc
    · simp only [preLayerCommon, List.mem_append] at hc
      rcases hc with ((hc | hc) | hc) | hc
      · rw [List.mem_singleton.1 hc]; trivial
      · split at hc
        · simp only [List.mem_cons, List.not_mem_nil, or_false] at hc
          rcases hc with rfl | rfl <;> trivial
        · simp at hc
      · split at hc
        · split at hc <;> rw [List.mem_singleton.1 hc] <;> trivial
        · simp at hc
      · split at hc
        · simp only [List.mem_cons, List.not_mem_nil, or_false] at hc
          rcases hc with rfl | rfl | rfl <;> trivial
        · simp at hc
    · rw [List.mem_zipIdx_iff_getElem?] at hx
      exact h x.2 x.1 hx c hc

end

/-! ## C112 -/

section
variable {lib : ClipperLib} {o : Options} {pt : Patterns} {layers : List Layer} {g0 : Builder} {t : Str}
variable {crossing : List LayerPart → Path → Bool × Bool}

/-- A path belongs to layer `n`: it is a contour of a perimeter, an outline of the brim or the skirt, or a line of a pattern. -/
def BelongsTo (lib : ClipperLib) (o : Options) (pt : Patterns) (n : Nat) (l : Layer) (isOpen : Bool) (path : Path) : Prop :=
  (isOpen = false ∧ ∃ walls, l.perimeters = .ok walls ∧ ∃ p ∈ walls.flatten.flatten, path ∈ p.holes ++ [p.outline]) ∨
  (isOpen = false ∧ ∃ brim, l.brim = .ok brim ∧ ∃ p ∈ brim.flatten.flatten, path = p.outline) ∨
  (isOpen = false ∧ n = 0 ∧ o.print.brimSkirt.skirtCount ≠ 0 ∧ ∃ walls support, l.perimeters = .ok walls ∧ l.fullSupport = .ok support ∧
    ∃ p ∈ (skirtLines lib o support walls).flatten, path = p.outline) ∨
  (isOpen = true ∧ ∃ fill name, (some fill, name) ∈ infillKinds pt ∧ ∃ parts, l.partsAttribute name = .ok parts ∧ ∃ part ∈ parts,
    ∃ lines, fill n part = .ok lines ∧ path ∈ lines)

theorem infillCalls_only {comments : List Str} {fill : Pattern} {n : Nat} {l : Layer} {z : Int} {parts : List LayerPart} {lay : Option (List LayerPart)}
    {path : Path} {z' : Int} {isOpen : Bool} (h : Call.polygon lay path z' isOpen ∈ (infillCalls comments fill n l z parts).calls) :
    isOpen = true ∧ ∃ part ∈ parts, ∃ lines, fill n part = .ok lines ∧ path ∈ lines := by
  induction parts with
  | nil => simp [infillCalls] at h
  | cons p ps ih =>
    simp only [infillCalls] at h
    cases hf : fill n p with
    | error e => rw [hf] at h; simp at h
    | ok lines =>
      rw [hf] at h
      simp only [List.mem_append, List.mem_map, reduceCtorEq, and_false, exists_false, false_or] at h
      rcases h with ⟨q, hq, e⟩ | h
      · cases e
        exact ⟨rfl, p, List.mem_cons_self, lines, hf, hq⟩
      · obtain ⟨e, part, hp, r⟩ := ih h
        exact ⟨e, part, List.mem_cons_of_mem _ hp, r⟩

theorem infillRenderer_only {pattern : Option Pattern} {name : String} {comments : List Str} {n : Nat} {m : Int} {l : Layer} {z : Int}
    {lay : Option (List LayerPart)} {path : Path} {z' : Int} {isOpen : Bool} (hk : (pattern, name) ∈ infillKinds pt)
    (h : Call.polygon lay path z' isOpen ∈ (infillRenderer pattern name comments n m l z).calls) : BelongsTo lib o pt n l isOpen path := by
  unfold infillRenderer at h
  cases pattern with
  | none => simp at h
  | some fill =>
    simp only at h
    cases hp : l.partsAttribute name with
    | error e => rw [hp] at h; simp at h
    | ok parts =>
      rw [hp] at h
      obtain ⟨e, part, hpart, lines, h1, h2⟩ := infillCalls_only h
      exact .inr (.inr (.inr ⟨e, fill, name, hk, parts, hp, part, hpart, lines, h1, h2⟩))

theorem layerDraws_only {m : Int} {n : Nat} {l : Layer} {lay : Option (List LayerPart)} {path : Path} {z : Int} {isOpen : Bool}
    (h : Call.polygon lay path z isOpen ∈ layerDraws lib o pt m n l) : BelongsTo lib o pt n l isOpen path := by
  obtain ⟨r, hr, h⟩ := List.mem_flatMap.1 h
  simp only [drawingRenderers, List.mem_cons, List.not_mem_nil, or_false] at hr
  rcases hr with rfl | rfl | rfl | rfl | rfl | rfl | rfl | rfl
  · unfold skirtRenderer at h
    split at h
    · simp at h
    · rename_i hs
      split at h
      · rename_i hn
        cases hw : l.perimeters with
        | error e => rw [hw] at h; simp at h
        | ok walls =>
          cases hu : l.fullSupport with
          | error e => rw [hw, hu] at h; simp at h
          | ok support =>
            rw [hw, hu] at h
            simp only at h
            split at h
            · simp at h
            · simp only [List.mem_cons, reduceCtorEq, List.mem_flatMap, List.mem_map, false_or] at h
              obtain ⟨w, hw', p, hp, e⟩ := h
              cases e
              exact .inr (.inr (.inl ⟨rfl, hn, hs, walls, support, hw, hu, p, List.mem_flatten.2 ⟨w, hw', hp⟩, rfl⟩))
      · simp at h
  · cases hb : l.brim with
    | error e => simp [brimRenderer, hb] at h
    | ok brim =>
      cases brim with
      | nil => simp [brimRenderer, hb] at h
      | cons b bs =>
        simp only [brimRenderer, hb] at h
        rw [brim_calls] at h
        simp only [List.mem_cons, reduceCtorEq, List.mem_map, false_or] at h
        obtain ⟨p, hp, e⟩ := h
        cases e
        exact .inr (.inl ⟨rfl, _, hb, p, hp, rfl⟩)
  · have hopen := noInfill_walls lib o n m l (layerHeight o n) _ (List.mem_append_right _ h)
    cases hw : l.perimeters with
    | error e => simp [perimeterRenderer, hw] at h
    | ok walls =>
      have hm := (C36_each_once o n m l (layerHeight o n) walls hw).mem_iff.1 (List.mem_filterMap.2 ⟨_, h, rfl⟩)
      obtain ⟨p, hp, hc⟩ := List.mem_flatMap.1 hm
      exact .inl ⟨hopen, walls, hw, p, hp, hc⟩
  all_goals exact infillRenderer_only (by simp [infillKinds]) h

/-- **C112** Nothing but the layers is printed: each move which extrudes or retracts either stands still in x and y, or it is a line of a
(simplified) path which belongs to a layer, at the height of this layer, and starts where the move before ended. (A first move stands at the origin.) -/
theorem C112_only (hne : layers ≠ []) (h : (generateScripts crossing o (standardRenderers lib o pt) layers g0).2 = (t, none)) :
    ∃ body m moves, t = startText o ++ body ++ endText o ∧ run body = some (m, moves) ∧
      (∀ line, moves[0]? = some line → line.hasE = true → At line.after ⟨0, 0⟩ 0) ∧
      ∀ (k : Nat) before line, moves[k]? = some before → moves[k + 1]? = some line → line.hasE = true →
        (before.after.x = line.after.x ∧ before.after.y = line.after.y ∧ before.after.z = line.after.z) ∨
        ∃ n l isOpen path a b, layers[n]? = some l ∧ BelongsTo lib o pt n l isOpen path ∧ (a, b) ∈ pathLines isOpen (douglasPeuckerM path (-1)) ∧
          At before.after a (layerHeight o n) ∧ At line.after b (layerHeight o n) := by
  obtain ⟨g, ht, hb⟩ := print_body hne h
  let P : Option Vec3 → Vec3 → Prop := fun v w => v.getD ⟨0, 0, 0⟩ = w ∨ v ≠ none ∧ ∃ n l isOpen path a b, layers[n]? = some l ∧
    BelongsTo lib o pt n l isOpen path ∧ (a, b) ∈ pathLines isOpen (douglasPeuckerM path (-1)) ∧ v = some ⟨a.x, a.y, layerHeight o n⟩ ∧
    w = ⟨b.x, b.y, layerHeight o n⟩
  have hP : AllowsStanding P := ⟨fun v => .inl rfl, .inl rfl⟩
  have hall : ∀ c ∈ printCalls lib o pt layers, AllowedCall P c := by
    refine printCalls_allowed fun n l hl c hc => ?_
    have hd := layerDraws_drawCall lib o pt _ n l _ hc
    cases c with
    | polygon lay path z isOpen =>
      intro ab hab
      cases hd
      exact .inr ⟨by simp, n, l, isOpen, path, ab.1, ab.2, hl, layerDraws_only hc, hab, rfl, rfl⟩
    | _ => first | exact hd.elim | trivial
  have hex := extruding_fold (crossing := crossing) (flow := flowOf o.filament.filamentDiameter o.filament.extrusionMultiplier) hP _ {} trivial hall
  obtain ⟨m1, m2⟩ := extruding_moves hex
  refine ⟨g.buf, _, _, ht, C18_refines harmless_print hb, fun line hl he => ?_, fun k before line hbe hl he => ?_⟩
  · obtain ⟨w, hw, ha⟩ := m1 line hl he
    rcases hw with hw | ⟨hw, -⟩
    · rw [← hw] at ha
      exact ha
    · exact absurd rfl hw
  · obtain ⟨v, w, hw, ha, ha'⟩ := m2 k before line hbe hl he
    rcases hw with hw | ⟨-, n, l, isOpen, path, a, b, h1, h2, h3, h4, h5⟩
    · rw [← hw] at ha'
      exact .inl ⟨ha.1.trans ha'.1.symm, ha.2.1.trans ha'.2.1.symm, ha.2.2.trans ha'.2.2.symm⟩
    · obtain rfl := Option.some.inj h4
      subst h5
      exact .inr ⟨n, l, isOpen, path, a, b, h1, h2, h3, ha, ha'⟩

end

theorem wall_insets (part : LayerPart) (w : Micrometer) (n : Nat) : ∀ d : ℚ, (wallLib.insetLoop part w n d).flatten = [] := by
  induction n with
  | zero => intro d; rfl
  | succ n ih =>
    intro d
    rw [ClipperLib.insetLoop, List.flatten_cons, ih, List.append_nil]
    simp only [ClipperLib.inset1, wallLib, polyTreeToLayerParts]
    rw [polyRounds]
    simp

/-- Non-vacuity: the text for the square contains an extruding move, and each one which moves in x or y is one of its sides. -/
example : ∃ t body m moves, t = startText {} ++ body ++ endText {} ∧ run body = some (m, moves) ∧ Printed moves 200 ⟨10000, 0⟩ ⟨10000, 10000⟩ ∧
    ∀ (k : Nat) before line, moves[k]? = some before → moves[k + 1]? = some line → line.hasE = true →
      (before.after.x ≠ line.after.x ∨ before.after.y ≠ line.after.y) →
      ∃ a b, (a, b) ∈ pathLines false [⟨0, 0⟩, ⟨10000, 0⟩, ⟨10000, 10000⟩, (⟨0, 10000⟩ : Pt)] ∧ At before.after a 200 ∧ At line.after b 200 := by
  have hs : (generateScripts (fun _ _ => (false, true)) {} (standardRenderers wallLib {} ⟨none, none, none, none, none⟩) [squareLayer] (newBuilder 0 0)).2.2 =
      none := by decide +kernel
  have hs' : (generateScripts (fun _ _ => (false, true)) {} (standardRenderers wallLib {} ⟨none, none, none, none, none⟩) [squareLayer] (newBuilder 0 0)).2 =
      ((generateScripts (fun _ _ => (false, true)) {} (standardRenderers wallLib {} ⟨none, none, none, none, none⟩) [squareLayer] (newBuilder 0 0)).2.1, none) :=
    Prod.ext rfl hs
  obtain ⟨body, m, moves, h1, h2, h3⟩ := C111_printed extrudes_default (by simp) hs'
  obtain ⟨body', m', moves', g1, g2, -, g3⟩ := C112_only (by simp) hs'
  have hbody : body = body' := by
    have := h1.symm.trans g1
    rw [List.append_assoc, List.append_assoc] at this
    exact List.append_cancel_right (List.append_cancel_left this)
  subst hbody
  rw [g2] at h2
  obtain ⟨rfl, rfl⟩ := Prod.ext_iff.1 (Option.some.inj h2)
  have hw' : squareLayer.perimeters = .ok [[[⟨[⟨0, 0⟩, ⟨10000, 0⟩, ⟨10000, 10000⟩, ⟨0, 10000⟩], []⟩]]] := rfl
  refine ⟨_, body, m', moves', g1, g2, ?_, fun k before line hb hl he hne => ?_⟩
  · obtain ⟨⟨walls, hw, hp⟩, -⟩ := h3 0 squareLayer rfl
    rw [hw'] at hw
    have hw := Except.ok.inj hw
    subst hw
    exact hp _ (List.mem_singleton.2 rfl) [⟨0, 0⟩, ⟨10000, 0⟩, ⟨10000, 10000⟩, ⟨0, 10000⟩] (by simp) ⟨10000, 0⟩ ⟨10000, 10000⟩ (by decide +kernel)
      (by decide) (by decide) (by decide)
  · rcases g3 k before line hb hl he with ⟨e1, e2, -⟩ | ⟨n, l, isOpen, path, a, b, e1, e2, e3, e4, e5⟩
    · exact (hne.elim (fun h => h e1) (fun h => h e2)).elim
    · cases n with
      | succ n => simp at e1
      | zero =>
        obtain rfl : squareLayer = l := by simpa using e1
        rcases e2 with ⟨rfl, walls, hw, p, hp, hpath⟩ | ⟨-, brim, hbr, p, hp, -⟩ | ⟨-, -, -, walls, support, -, -, p, hp, -⟩ | ⟨-, fill, name, hk, -⟩
        · rw [hw'] at hw
          have hw := Except.ok.inj hw
          subst hw
          simp only [List.flatten_cons, List.flatten_nil, List.append_nil, List.mem_singleton] at hp
          subst hp
          simp only [List.nil_append, List.mem_singleton] at hpath
          subst hpath
          have hdp : douglasPeuckerM [⟨0, 0⟩, ⟨10000, 0⟩, ⟨10000, 10000⟩, ⟨0, 10000⟩] (-1) =
            [⟨0, 0⟩, ⟨10000, 0⟩, ⟨10000, 10000⟩, (⟨0, 10000⟩ : Pt)] := by decide +kernel
          rw [hdp] at e3
          exact ⟨a, b, e3, e4, e5⟩
        · have : squareLayer.brim = .ok [] := rfl
          rw [this] at hbr
          have hbr := Except.ok.inj hbr
          subst hbr
          simp at hp
        · have : (skirtLines wallLib {} support walls).flatten = [] := by
            unfold skirtLines ClipperLib.inset
            exact wall_insets _ _ _ _
          rw [this] at hp
          simp at hp
        · simp [infillKinds] at hk

end Verif
