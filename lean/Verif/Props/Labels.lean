import Verif.Props.Grammar
import Verif.Props.Filled

/-! # C135: the labels of the moves -/
namespace Verif
open Verif.Go Verif.Model Verif.Spec Verif.Spec.GCode

/-! ## Labels of lines -/

theorem labelsFrom_append (a b : List Str) : ∀ lab, labelsFrom lab (a ++ b) = labelsFrom lab a ++ labelsFrom (a.foldl Label.read lab) b := by
  induction a with
  | nil => intro lab; rfl
  | cons l a ih => intro lab; simp [labelsFrom, ih]

theorem line_count (st : State) (l : Str) {m : Machine} {log : List Move} (h : line st l = some (m, log)) :
    ∃ m' log', st = some (m', log') ∧ log.length = log'.length + if isMove l then 1 else 0 := by
  cases st with
  | none => cases h
  | some r =>
    obtain ⟨m', log'⟩ := r
    refine ⟨m', log', rfl, ?_⟩
    unfold line at h
    simp only at h
    unfold isMove
    cases hs : split ' ' l with
    | nil => exact absurd hs (split_ne_nil _ _)
    | cons w ws =>
      rw [hs] at h
      simp only at h
      split at h
      · rename_i hw
        split at h
        · cases h
        · cases h
          rw [if_pos (by rcases hw with rfl | rfl <;> simp)]
          simp
      · rename_i hw
        cases h
        rw [if_neg (by simpa [or_comm] using hw)]
        rfl

theorem labelsFrom_length (ls : List Str) : ∀ (st : State) (lab : Label) {m : Machine} {log : List Move}, ls.foldl line st = some (m, log) →
    ∃ m' log', st = some (m', log') ∧ log.length = log'.length + (labelsFrom lab ls).length := by
  induction ls with
  | nil => intro st lab m log h; exact ⟨m, log, h, by simp [labelsFrom]⟩
  | cons l ls ih =>
    intro st lab m log h
    obtain ⟨m1, log1, h1, h2⟩ := ih (line st l) (lab.read l) h
    obtain ⟨m2, log2, h3, h4⟩ := line_count st l h1
    refine ⟨m2, log2, h3, ?_⟩
    rw [h2, h4, labelsFrom]
    split <;> simp; omega

/-- There is one label per move. -/
theorem labels_length {text : Str} {m : Machine} {moves : List Move} (h : run text = some (m, moves)) : (labels text).length = moves.length := by
  obtain ⟨m', log', h1, h2⟩ := labelsFrom_length _ _ {} h
  cases h1
  unfold labels
  rw [h2]
  simp

theorem read_move {l : Str} (h : IsMove l) (lab : Label) : lab.read l = lab := by
  unfold Label.read
  have key : ∀ p : Str, p.head? = some ';' → p.isPrefixOf l = false := by
    intro p hp
    rw [Bool.eq_false_iff]
    intro hh
    rw [List.isPrefixOf_iff_prefix] at hh
    obtain ⟨t, rfl⟩ := hh
    cases p with
    | nil => cases hp
    | cons c p => cases hp; exact h.2.1 (by simp)
  rw [key _ rfl, key _ rfl]
  rfl

theorem labelsFrom_moves {ls : List Str} (h : ∀ l ∈ ls, IsMove l) (lab : Label) : labelsFrom lab ls = List.replicate ls.length lab ∧ ls.foldl Label.read lab = lab := by
  induction ls with
  | nil => exact ⟨rfl, rfl⟩
  | cons l ls ih =>
    obtain ⟨h1, h2⟩ := ih fun x hx => h x (List.mem_cons_of_mem _ hx)
    have hl := h l (by simp)
    refine ⟨?_, by rw [List.foldl_cons, read_move hl, h2]⟩
    have hm : isMove l = true := by
      unfold isMove
      exact decide_eq_true hl.2.2
    rw [labelsFrom, if_pos hm, read_move hl, h1]
    rfl

/-- The labels after a call. -/
def callLabel (lab : Label) : Call → Label
  | .command t => lab.read t
  | .comment t => lab.read (';' :: t)
  | .text t => lab.read t
  | _ => lab

/-- The texts of a call are one line. -/
def OneLine : Call → Prop
  | .command t => '\n' ∉ t
  | .comment t => '\n' ∉ t
  | .text t => '\n' ∉ t
  | _ => True

theorem isMove_harmless {t : Str} (h : Harmless t) (hn : '\n' ∉ t) : isMove t = false := by
  have := h.2 t (by rw [split_eq_singleton hn]; simp)
  unfold isMove
  exact decide_eq_false fun hh => hh.elim this.1 this.2

theorem callLines_labels {c : Call} {ls : List Str} (h : CallLines c ls) (hh : Call.Harmless c) (hn : OneLine c) (lab : Label) :
    ls.foldl Label.read lab = callLabel lab c ∧ (∀ l ∈ ls, '\n' ∉ l) ∧ ∀ x ∈ labelsFrom lab ls, x = callLabel lab c := by
  have text : ∀ t, ls = [t] → Harmless t → '\n' ∉ t → labelsFrom lab ls = [] ∧ ls.foldl Label.read lab = lab.read t ∧ ∀ l ∈ ls, '\n' ∉ l := by
    rintro t rfl h1 h2
    refine ⟨by simp [labelsFrom, isMove_harmless h1 h2], rfl, by simpa using h2⟩
  have moves : (∀ l ∈ ls, MoveLine l ∧ IsMove l) → ls.foldl Label.read lab = lab ∧ (∀ l ∈ ls, '\n' ∉ l) ∧ ∀ x ∈ labelsFrom lab ls, x = lab := by
    intro h
    obtain ⟨h1, h2⟩ := labelsFrom_moves (fun l hl => (h l hl).2) lab
    exact ⟨h2, fun l hl => (h l hl).2.1, by rw [h1]; exact fun x hx => List.eq_of_mem_replicate hx⟩
  cases c with
  | command t => obtain ⟨a, b, c⟩ := text t h hh hn; exact ⟨b, c, by rw [a]; simp⟩
  | comment t => obtain ⟨a, b, c⟩ := text (';' :: t) h hh (by have : '\n' ∉ t := hn; simp [this]); exact ⟨b, c, by rw [a]; simp⟩
  | text t => obtain ⟨a, b, c⟩ := text t h hh hn; exact ⟨b, c, by rw [a]; simp⟩
  | moveSpeed p e s => exact ⟨(moves h).1, (moves h).2.1, (moves h).2.2⟩
  | move p e => exact ⟨(moves h).1, (moves h).2.1, (moves h).2.2⟩
  | polygon a b c d => exact ⟨(moves h).1, (moves h).2.1, (moves h).2.2⟩
  | _ => cases h; exact ⟨rfl, by simp, by simp [labelsFrom]⟩

/-! ## Moves of one call -/

theorem extruding_moves_from {P : Option Vec3 → Vec3 → Prop} {rs1 : List Request} (rs2 : List Request) (h : Extruding P (lastTarget none rs1) rs2) :
    ∀ (k : Nat) before line, (effect (rs1 ++ rs2)).2[k]? = some before → (effect (rs1 ++ rs2)).2[k + 1]? = some line → (effect rs1).2.length ≤ k + 1 →
      line.hasE = true → ∃ v w, P (some v) w ∧ AtVec before.after v ∧ AtVec line.after w := by
  induction rs2 using List.reverseRecOn with
  | nil =>
    intro k before line _ hl hk
    rw [List.append_nil] at hl
    have := (List.getElem?_eq_some_iff.1 hl).1
    omega
  | append_singleton rs r ih =>
    obtain ⟨h1, h2⟩ := (extruding_append _ _ _).1 h
    have i2 := ih h1
    rw [← List.append_assoc, effect_append]
    unfold effectStep
    split
    · exact i2
    · intro k before line hb hl hk he
      rcases lt_or_ge (k + 1) (effect (rs1 ++ rs)).2.length with hlt | hge
      · rw [List.getElem?_append_left hlt] at hl
        rw [List.getElem?_append_left (by omega)] at hb
        exact i2 k before line hb hl hk he
      · rw [List.getElem?_append_right hge, List.getElem?_singleton] at hl
        split at hl
        · rename_i hk0
          have hline := (Option.some.inj hl).symm
          have he' : r.extrusion ≠ 0 := by rw [hline] at he; simpa using he
          have hlt : k < (effect (rs1 ++ rs)).2.length := by omega
          rw [List.getElem?_append_left hlt] at hb
          have hne : rs1 ++ rs ≠ [] := by intro e; rw [e] at hlt; simp [effect] at hlt
          obtain ⟨ms, m, e3, e4⟩ := effect_last hne
          rw [e3] at hb hge hk0 hlt
          have hkm : k = ms.length := by simp at hk0 hlt hge; omega
          subst hkm
          have hbm : m = before := by simpa using hb
          subst hbm
          obtain ⟨q, hq⟩ : ∃ q, (rs1 ++ rs).getLast? = some q := ⟨_, List.getLast?_eq_getLast_of_ne_nil hne⟩
          have hlast : lastTarget (lastTarget none rs1) rs = some q.target := by
            unfold lastTarget
            cases hrs : rs.getLast? with
            | none =>
              rw [List.getLast?_eq_none_iff] at hrs
              subst hrs
              rw [List.append_nil] at hq
              simp [hq]
            | some x =>
              rw [List.getLast?_append, hrs] at hq
              cases hq
              rfl
          rw [hlast] at h2
          refine ⟨q.target, r.target, h2.1 he', ?_, ?_⟩
          · rw [e4]
            exact machine_at (by rw [effect_pos, hq]; rfl)
          · rw [hline]
            exact machine_at (by simp [Head.after])
        · cases hl

/-- Each call satisfies a condition together with the labels before it. -/
def Tagged (R : Label → Call → Prop) : Label → List Call → Prop
  | _, [] => True
  | lab, c :: cs => R lab c ∧ Tagged R (callLabel lab c) cs

theorem tagged_append {R : Label → Call → Prop} (a b : List Call) : ∀ lab, Tagged R lab (a ++ b) ↔ Tagged R lab a ∧ Tagged R (a.foldl callLabel lab) b := by
  induction a with
  | nil => intro lab; simp [Tagged]
  | cons c a ih => intro lab; simp [Tagged, ih, and_assoc]

section
variable {crossing : List LayerPart → Path → Bool × Bool} {fd : Micrometer} {em : Int}

/-- A line of a polygon with these labels. -/
def LineOf (R : Label → Call → Prop) (lab : Label) (before line : Move) : Prop :=
  ∃ layer path z isOpen a b, R lab (.polygon layer path z isOpen) ∧ (a, b) ∈ pathLines isOpen (douglasPeuckerM path (-1)) ∧
    At before.after a z ∧ At line.after b z

/-- Each extruding move between different places is a line of a polygon call, and has the labels which are valid for this call. -/
theorem labelled_moves {R : Label → Call → Prop} (cs : List Call) : ∀ {g : Builder}, (∀ c ∈ cs, Call.Harmless c) → (∀ c ∈ cs, OneLine c) →
    (∀ c ∈ cs, AllowedCall (fun _ _ => True) c) → Tagged R {} cs → (newBuilder fd em).exec crossing cs = .ok g →
    ∃ ls, g.buf = textOf ls ∧ (∀ l ∈ ls, '\n' ∉ l) ∧ ls.foldl Label.read {} = cs.foldl callLabel {} ∧
      ∀ k before line lab, (effect (plan crossing (flowOf fd em) cs).requests).2[k]? = some before →
        (effect (plan crossing (flowOf fd em) cs).requests).2[k + 1]? = some line → (labelsFrom {} ls)[k + 1]? = some lab → line.hasE = true →
        (before.after.x = line.after.x ∧ before.after.y = line.after.y ∧ before.after.z = line.after.z) ∨ LineOf R lab before line := by
  induction cs using List.reverseRecOn with
  | nil =>
    intro g _ _ _ _ h
    cases h
    exact ⟨[], rfl, by simp, rfl, by simp [plan, effect]⟩
  | append_singleton cs c ih =>
    intro g hh hn ha ht h
    rw [exec_append] at h
    obtain ⟨g1, h1, h2⟩ := bind_ok.1 h
    have hc : g1.exec1 crossing c = .ok g := by
      simp only [Builder.exec, bind_ok] at h2
      obtain ⟨g2, h3, h4⟩ := h2
      cases h4
      exact h3
    obtain ⟨t1, t2⟩ := (tagged_append _ _ _).1 ht
    have mem : c ∈ cs ++ [c] := by simp
    obtain ⟨ls, l1, l2, l3, l4⟩ := ih (fun x hx => hh x (by simp [hx])) (fun x hx => hn x (by simp [hx])) (fun x hx => ha x (by simp [hx])) t1 h1
    obtain ⟨xs, x1, x2⟩ := exec1_form (harmless_plain (hh c mem)) hc
    obtain ⟨y1, y2, y3⟩ := callLines_labels x1 (hh c mem) (hn c mem) (cs.foldl callLabel {})
    have hbuf : g.buf = textOf (ls ++ xs) := by rw [x2, l1, textOf_append]
    have hnl : ∀ l ∈ ls ++ xs, '\n' ∉ l := fun l hl => (List.mem_append.1 hl).elim (l2 l) (y2 l)
    refine ⟨ls ++ xs, hbuf, hnl, by rw [List.foldl_append, l3, y1, List.foldl_append]; rfl, ?_⟩
    have hlen : (labelsFrom {} ls).length = (effect (plan crossing (flowOf fd em) cs).requests).2.length := by
      have := labels_length (C18_refines (fun x hx => hh x (by simp [hx])) h1)
      rw [l1] at this
      unfold labels at this
      have e : split '\n' (textOf ls) = ls ++ [[]] := split_unlines l2
      rw [e, labelsFrom_append] at this
      simpa [labelsFrom, isMove, split] using this
    rw [labelsFrom_append, l3]
    have hplan : plan crossing (flowOf fd em) (cs ++ [c]) = (plan crossing (flowOf fd em) cs).call crossing (flowOf fd em) c := by
      unfold plan
      rw [List.foldl_append]
      rfl
    rw [hplan]
    have simple : ((plan crossing (flowOf fd em) cs).call crossing (flowOf fd em) c).requests = (plan crossing (flowOf fd em) cs).requests →
        ∀ k before line lab, (effect ((plan crossing (flowOf fd em) cs).call crossing (flowOf fd em) c).requests).2[k]? = some before →
        (effect ((plan crossing (flowOf fd em) cs).call crossing (flowOf fd em) c).requests).2[k + 1]? = some line →
        (labelsFrom {} ls ++ labelsFrom (cs.foldl callLabel {}) xs)[k + 1]? = some lab → line.hasE = true →
        (before.after.x = line.after.x ∧ before.after.y = line.after.y ∧ before.after.z = line.after.z) ∨ LineOf R lab before line := by
      intro e k before line lab hb hl hlab he
      rw [e] at hb hl
      rw [List.getElem?_append_left (by rw [hlen]; exact (List.getElem?_eq_some_iff.1 hl).1)] at hlab
      exact l4 k before line lab hb hl hlab he
    cases c with
    | moveSpeed p e s => exact (ha _ mem).elim
    | move p e => exact (ha _ mem).elim
    | polygon layer path z isOpen =>
      intro k before line lab hb hl hlab he
      set p := plan crossing (flowOf fd em) cs with hp
      have hreq : (p.call crossing (flowOf fd em) (.polygon layer path z isOpen)).requests = p.requests ++ p.polygon crossing layer path z isOpen := rfl
      rw [hreq] at hb hl
      have hpre : ∃ more, (effect (p.requests ++ p.polygon crossing layer path z isOpen)).2 = (effect p.requests).2 ++ more := by
        obtain ⟨more, hm⟩ := effect_prefix p.requests (p.polygon crossing layer path z isOpen)
        exact ⟨more, hm.symm⟩
      rcases lt_or_ge (k + 1) (effect p.requests).2.length with hk | hk
      · obtain ⟨more, hm⟩ := hpre
        rw [hm, List.getElem?_append_left hk] at hl
        rw [hm, List.getElem?_append_left (by omega)] at hb
        rw [List.getElem?_append_left (by omega)] at hlab
        exact l4 k before line lab hb hl hlab he
      · rw [List.getElem?_append_right (by omega)] at hlab
        have hlab' : lab = cs.foldl callLabel {} := y3 lab (List.mem_of_getElem? hlab)
        let P : Option Vec3 → Vec3 → Prop := fun v w => v.getD ⟨0, 0, 0⟩ = w ∨ v ≠ none ∧ ∃ a b, (a, b) ∈ pathLines isOpen (douglasPeuckerM path (-1)) ∧
          v = some ⟨a.x, a.y, z⟩ ∧ w = ⟨b.x, b.y, z⟩
        have hP : AllowsStanding P := ⟨fun v => .inl rfl, .inl rfl⟩
        have hex : Extruding P (lastTarget none p.requests) (p.polygon crossing layer path z isOpen) := by
          unfold Plan.polygon
          split
          · trivial
          · rename_i p0 rest hd
            rw [last_eq]
            refine extruding_draw hP _ _ _ _ _ _ _ ?_
            rw [← hd]
            exact fun ab hab => .inr ⟨by simp, ab.1, ab.2, hab, rfl, rfl⟩
        obtain ⟨v, w, hvw, hv, hw⟩ := extruding_moves_from _ hex k before line hb hl hk he
        rcases hvw with hvw | ⟨-, a, b, hab, e1, e2⟩
        · left
          have e : v = w := hvw
          subst e
          exact ⟨hv.1.trans hw.1.symm, hv.2.1.trans hw.2.1.symm, hv.2.2.trans hw.2.2.symm⟩
        · right
          cases e1
          cases e2
          exact ⟨layer, path, z, isOpen, a, b, by rw [hlab']; exact t2.1, hab, hv, hw⟩
    | _ => exact simple rfl

end

/-! ## The labels of a print -/

section
variable {lib : ClipperLib} {o : Options} {pt : Patterns} {layers : List Layer} {g0 : Builder} {t : Str}
variable {crossing : List LayerPart → Path → Bool × Bool}

/-- A path of layer `n` belongs to the type of a label: the outermost walls, the other walls, brim and skirt, the support, or the infill (including bottom and top). -/
def DrawnAs (lib : ClipperLib) (o : Options) (pt : Patterns) (n : Nat) (l : Layer) (isOpen : Bool) (path : Path) (kind : Str) : Prop :=
  (kind = "WALL-OUTER".toList ∧ isOpen = false ∧ ∃ walls, l.perimeters = .ok walls ∧ ∃ part ∈ walls, ∃ ps, part[0]? = some ps ∧ ∃ p ∈ ps, path ∈ p.holes ++ [p.outline]) ∨
  (kind = "WALL-INNER".toList ∧ isOpen = false ∧ ∃ walls, l.perimeters = .ok walls ∧ ∃ part ∈ walls, ∃ k ps, part[k + 1]? = some ps ∧ ∃ p ∈ ps, path ∈ p.holes ++ [p.outline]) ∨
  (kind = "SKIRT".toList ∧ isOpen = false ∧ ∃ brim, l.brim = .ok brim ∧ ∃ p ∈ brim.flatten.flatten, path = p.outline) ∨
  (kind = "SKIRT".toList ∧ isOpen = false ∧ n = 0 ∧ o.print.brimSkirt.skirtCount ≠ 0 ∧ ∃ walls support, l.perimeters = .ok walls ∧ l.fullSupport = .ok support ∧
    ∃ p ∈ (skirtLines lib o support walls).flatten, path = p.outline) ∨
  (isOpen = true ∧ ∃ fill name, (kind = "SUPPORT".toList ∧ (some fill, name) ∈ [(pt.support, "support"), (pt.supportInterface, "supportInterface")] ∨
      kind = "FILL".toList ∧ (some fill, name) ∈ [(pt.bottom, "bottom"), (pt.top, "top"), (pt.infill, "infill")]) ∧
    ∃ parts, l.partsAttribute name = .ok parts ∧ ∃ part ∈ parts, ∃ lines, fill n part = .ok lines ∧ path ∈ lines)

/-- The labels are those of the layer and of the type of a polygon. -/
def RightLabel (lib : ClipperLib) (o : Options) (pt : Patterns) (layers : List Layer) (lab : Label) : Call → Prop
  | .polygon _ path z isOpen => ∃ n l v kind, layers[n]? = some l ∧ z = layerHeight o n ∧ lab = ⟨some v, some kind⟩ ∧ number v = some (n : ℚ) ∧
      DrawnAs lib o pt n l isOpen path kind
  | _ => True

theorem read_type {c : Str} (h : ';' :: c ∈ typeComments) (lab : Label) : (lab.read (';' :: c)).layer = lab.layer := by
  simp only [typeComments, List.mem_cons, List.not_mem_nil, or_false] at h
  rcases h with h | h | h | h | h | h | h | h <;> rw [h] <;> rfl

theorem fold_layer {cs : List Call} (h : ∀ c ∈ cs, DrawsOnly c) (lab : Label) : (cs.foldl callLabel lab).layer = lab.layer := by
  induction cs generalizing lab with
  | nil => rfl
  | cons c cs ih =>
    rw [List.foldl_cons, ih fun x hx => h x (List.mem_cons_of_mem _ hx)]
    have := h c (by simp)
    cases c with
    | comment t => exact read_type this lab
    | setExtrudeSpeed v => rfl
    | polygon _ _ _ _ => rfl
    | _ => exact this.elim

theorem tagged_polygons {R : Label → Call → Prop} {lab : Label} {cs : List Call} (h : ∀ c ∈ cs, R lab c ∧ callLabel lab c = lab) :
    Tagged R lab cs ∧ cs.foldl callLabel lab = lab := by
  induction cs with
  | nil => exact ⟨trivial, rfl⟩
  | cons c cs ih =>
    obtain ⟨h1, h2⟩ := h c (by simp)
    obtain ⟨h3, h4⟩ := ih fun x hx => h x (List.mem_cons_of_mem _ hx)
    exact ⟨⟨h1, by rw [h2]; exact h3⟩, by rw [List.foldl_cons, h2, h4]⟩

section
variable {n : Nat} {l : Layer} {v : Str}

theorem tagged_infill (hl : layers[n]? = some l) (hv : number v = some (n : ℚ)) {comments : List Str} {kind : Str}
    (hk : ∀ lab : Label, lab.layer = some v → (comments.map Call.comment).foldl callLabel lab = ⟨some v, some kind⟩)
    (fill : Pattern) (name : String)
    (hf : kind = "SUPPORT".toList ∧ (some fill, name) ∈ [(pt.support, "support"), (pt.supportInterface, "supportInterface")] ∨
      kind = "FILL".toList ∧ (some fill, name) ∈ [(pt.bottom, "bottom"), (pt.top, "top"), (pt.infill, "infill")])
    {all : List LayerPart} (ha : l.partsAttribute name = .ok all) (parts : List LayerPart) (hp : ∀ p ∈ parts, p ∈ all) :
    ∀ lab : Label, lab.layer = some v → Tagged (RightLabel lib o pt layers) lab (infillCalls comments fill n l (layerHeight o n) parts).calls := by
  have hcom : ∀ lab, Tagged (RightLabel lib o pt layers) lab (comments.map Call.comment) := by
    generalize comments = cs
    induction cs with
    | nil => intro lab; trivial
    | cons c cs ih => intro lab; exact ⟨trivial, ih _⟩
  induction parts with
  | nil => intro lab _; trivial
  | cons p ps ih =>
    intro lab hlab
    simp only [infillCalls]
    cases hfp : fill n p with
    | error e => exact hcom lab
    | ok lines =>
      simp only
      have hpoly : Tagged (RightLabel lib o pt layers) ⟨some v, some kind⟩ (lines.map fun path => .polygon (some l.parts) path (layerHeight o n) true) ∧
          (lines.map fun path => Call.polygon (some l.parts) path (layerHeight o n) true).foldl callLabel ⟨some v, some kind⟩ = ⟨some v, some kind⟩ := by
        refine tagged_polygons fun c hc => ?_
        obtain ⟨path, hpath, rfl⟩ := List.mem_map.1 hc
        exact ⟨⟨n, l, v, kind, hl, rfl, rfl, hv, .inr (.inr (.inr (.inr ⟨rfl, fill, name, hf, all, ha, p, hp p (by simp), lines, hfp, hpath⟩)))⟩, rfl⟩
      rw [tagged_append, tagged_append, List.foldl_append, hk lab hlab, hpoly.2]
      exact ⟨⟨hcom lab, hpoly.1⟩, ih (fun q hq => hp q (by simp [hq])) _ rfl⟩

theorem tagged_infillRenderer (hl : layers[n]? = some l) (hv : number v = some (n : ℚ)) {comments : List Str} {kind : Str}
    (hk : ∀ lab : Label, lab.layer = some v → (comments.map Call.comment).foldl callLabel lab = ⟨some v, some kind⟩)
    (pattern : Option Pattern) (name : String)
    (hf : kind = "SUPPORT".toList ∧ (pattern, name) ∈ [(pt.support, "support"), (pt.supportInterface, "supportInterface")] ∨
      kind = "FILL".toList ∧ (pattern, name) ∈ [(pt.bottom, "bottom"), (pt.top, "top"), (pt.infill, "infill")]) (m : Int) (lab : Label) (hlab : lab.layer = some v) :
    Tagged (RightLabel lib o pt layers) lab (infillRenderer pattern name comments n m l (layerHeight o n)).calls := by
  unfold infillRenderer
  cases pattern with
  | none => trivial
  | some fill =>
    simp only
    cases ha : l.partsAttribute name with
    | error e => trivial
    | ok parts => exact tagged_infill hl hv hk fill name hf ha parts (fun p hp => hp) lab hlab

theorem tagged_layer (hl : layers[n]? = some l) (hv : number v = some (n : ℚ)) (m : Int) (lab : Label) (hlab : lab.layer = some v) :
    Tagged (RightLabel lib o pt layers) lab (layerDraws lib o pt m n l) := by
  have key : ∀ (rs : List Scripts), (∀ r ∈ rs, ∀ c ∈ (r n m l (layerHeight o n)).calls, DrawsOnly c) →
      (∀ r ∈ rs, ∀ lab : Label, lab.layer = some v → Tagged (RightLabel lib o pt layers) lab (r n m l (layerHeight o n)).calls) →
      ∀ lab : Label, lab.layer = some v → Tagged (RightLabel lib o pt layers) lab (rs.flatMap fun r => (r n m l (layerHeight o n)).calls) := by
    intro rs
    induction rs with
    | nil => intro _ _ lab _; trivial
    | cons r rs ih =>
      intro h1 h2 lab hlab
      rw [List.flatMap_cons, tagged_append]
      exact ⟨h2 r (by simp) lab hlab, ih (fun x hx => h1 x (by simp [hx])) (fun x hx => h2 x (by simp [hx])) _
        ((fold_layer (h1 r (by simp)) lab).trans hlab)⟩
  refine key _ (fun r hr c hc => layerDraws_draws m n l c (List.mem_flatMap.2 ⟨r, hr, hc⟩)) ?_ lab hlab
  intro r hr lab hlab
  obtain ⟨layer, kind⟩ := lab
  cases hlab
  simp only [drawingRenderers, List.mem_cons, List.not_mem_nil, or_false] at hr
  rcases hr with rfl | rfl | rfl | rfl | rfl | rfl | rfl | rfl
  · unfold skirtRenderer
    split
    · trivial
    · rename_i hs
      split
      · rename_i hn
        cases hw : l.perimeters with
        | error e => trivial
        | ok walls =>
          cases hu : l.fullSupport with
          | error e => trivial
          | ok support =>
            simp only
            split
            · trivial
            · refine ⟨trivial, (tagged_polygons fun c hc => ?_).1⟩
              simp only [List.mem_flatMap, List.mem_map] at hc
              obtain ⟨w, hw', p, hp, rfl⟩ := hc
              exact ⟨⟨n, l, v, "SKIRT".toList, hl, rfl, rfl, hv,
                .inr (.inr (.inr (.inl ⟨rfl, rfl, hn, hs, walls, support, hw, hu, p, List.mem_flatten.2 ⟨w, hw', hp⟩, rfl⟩)))⟩, rfl⟩
      · trivial
  · cases hb : l.brim with
    | error e => simp [brimRenderer, hb, Tagged]
    | ok brim =>
      cases brim with
      | nil => simp [brimRenderer, hb, Tagged]
      | cons b bs =>
        simp only [brimRenderer, hb]
        rw [brim_calls]
        refine ⟨trivial, (tagged_polygons fun c hc => ?_).1⟩
        obtain ⟨p, hp, rfl⟩ := List.mem_map.1 hc
        exact ⟨⟨n, l, v, "SKIRT".toList, hl, rfl, rfl, hv, .inr (.inr (.inl ⟨rfl, rfl, _, hb, p, hp, rfl⟩))⟩, rfl⟩
  · unfold perimeterRenderer
    cases hw : l.perimeters with
    | error e => trivial
    | ok walls =>
      simp only
      have flat : ∀ {α : Type} (xs : List α) (f : α → List Call), (∀ x ∈ xs, ∀ c ∈ f x, DrawsOnly c) →
          (∀ x ∈ xs, ∀ lab : Label, lab.layer = some v → Tagged (RightLabel lib o pt layers) lab (f x)) →
          ∀ lab : Label, lab.layer = some v → Tagged (RightLabel lib o pt layers) lab (xs.flatMap f) := by
        intro α xs f
        induction xs with
        | nil => intro _ _ lab _; trivial
        | cons x xs ih =>
          intro h1 h2 lab hlab
          rw [List.flatMap_cons, tagged_append]
          exact ⟨h2 x (by simp) lab hlab, ih (fun y hy => h1 y (by simp [hy])) (fun y hy => h2 y (by simp [hy])) _
            ((fold_layer (h1 x (by simp)) lab).trans hlab)⟩
      have only : ∀ c ∈ walls.flatMap (perimeterPartCalls o l (layerHeight o n)), DrawsOnly c := by
        intro c hc
        refine layerDraws_draws (lib := lib) (o := o) (pt := pt) m n l c (List.mem_flatMap.2 ⟨perimeterRenderer o, by simp [drawingRenderers], ?_⟩)
        simp only [perimeterRenderer, hw]
        exact hc
      refine flat _ _ (fun x hx c hc => only c (List.mem_flatMap.2 ⟨x, hx, hc⟩)) (fun part hpart => ?_) _ rfl
      unfold perimeterPartCalls
      have only' : ∀ c ∈ perimeterPartCalls o l (layerHeight o n) part, DrawsOnly c := fun c hc => only c (List.mem_flatMap.2 ⟨part, hpart, hc⟩)
      refine flat _ _ (fun k hk c hc => only' c (List.mem_flatMap.2 ⟨k, hk, hc⟩)) (fun k hk => ?_)
      refine flat _ _ (fun p hp c hc => only' c (List.mem_flatMap.2 ⟨k, hk, List.mem_flatMap.2 ⟨p, hp, hc⟩⟩)) (fun p hp => ?_)
      intro lab hlab
      obtain ⟨layer, kind⟩ := lab
      cases hlab
      have hps : part[insetOrder part.length k]? = some (part.getD (insetOrder part.length k) []) := by
        rw [List.getD_eq_getElem?_getD]
        cases he : part[insetOrder part.length k]? with
        | some ps => rfl
        | none => rw [List.getD_eq_getElem?_getD, he] at hp; simp at hp
      generalize part.getD (insetOrder part.length k) [] = ps at hp hps
      generalize insetOrder part.length k = i at hps ⊢
      unfold insetPartCalls
      have contour : ∀ c ∈ p.holes.map (fun hole => Call.polygon (some l.parts) hole (layerHeight o n) false) ++ [Call.polygon (some l.parts) p.outline (layerHeight o n) false],
          ∃ path ∈ p.holes ++ [p.outline], c = .polygon (some l.parts) path (layerHeight o n) false := by
        intro c hc
        rcases List.mem_append.1 hc with hc | hc
        · obtain ⟨hole, hh, rfl⟩ := List.mem_map.1 hc
          exact ⟨hole, by simp [hh], rfl⟩
        · rw [List.mem_singleton.1 hc]
          exact ⟨p.outline, by simp, rfl⟩
      rw [List.append_assoc]
      cases i with
      | zero =>
        refine ⟨trivial, trivial, (tagged_polygons fun c hc => ?_).1⟩
        obtain ⟨path, hpath, rfl⟩ := contour c hc
        exact ⟨⟨n, l, v, "WALL-OUTER".toList, hl, rfl, rfl, hv, .inl ⟨rfl, rfl, walls, hw, part, hpart, ps, hps, p, hp, hpath⟩⟩, rfl⟩
      | succ i =>
        refine ⟨trivial, trivial, (tagged_polygons fun c hc => ?_).1⟩
        obtain ⟨path, hpath, rfl⟩ := contour c hc
        exact ⟨⟨n, l, v, "WALL-INNER".toList, hl, rfl, rfl, hv, .inr (.inl ⟨rfl, rfl, walls, hw, part, hpart, i, ps, hps, p, hp, hpath⟩)⟩, rfl⟩
  · exact tagged_infillRenderer hl hv (kind := "SUPPORT".toList) (by rintro ⟨layer, kind⟩ rfl; rfl) _ _ (.inl ⟨rfl, by simp⟩) m _ rfl
  · exact tagged_infillRenderer hl hv (kind := "SUPPORT".toList) (by rintro ⟨layer, kind⟩ rfl; rfl) _ _ (.inl ⟨rfl, by simp⟩) m _ rfl
  · exact tagged_infillRenderer hl hv (kind := "FILL".toList) (by rintro ⟨layer, kind⟩ rfl; rfl) _ _ (.inr ⟨rfl, by simp⟩) m _ rfl
  · exact tagged_infillRenderer hl hv (kind := "FILL".toList) (by rintro ⟨layer, kind⟩ rfl; rfl) _ _ (.inr ⟨rfl, by simp⟩) m _ rfl
  · exact tagged_infillRenderer hl hv (kind := "FILL".toList) (by rintro ⟨layer, kind⟩ rfl; rfl) _ _ (.inr ⟨rfl, by simp⟩) m _ rfl

end

/-- Calls which draw nothing. -/
theorem tagged_settings {cs : List Call} (h : ∀ c ∈ cs, NoMove c) : ∀ lab, Tagged (RightLabel lib o pt layers) lab cs := by
  induction cs with
  | nil => intro lab; trivial
  | cons c cs ih =>
    intro lab
    refine ⟨?_, ih (fun x hx => h x (List.mem_cons_of_mem _ hx)) _⟩
    have := h c (by simp)
    cases c <;> first | exact this.elim | trivial

theorem fold_label_common (n : Nat) (lab : Label) : ((preLayerCommon o n).foldl callLabel lab).layer = some (formatInt n) := by
  unfold preLayerCommon
  rw [List.foldl_append, List.foldl_append, List.foldl_append]
  have h1 : (([.text (";LAYER:".toList ++ formatInt n)] : List Call).foldl callLabel lab).layer = some (formatInt n) := by
    simp [callLabel, Label.read]
  have keep : ∀ (cs : List Call) (lab : Label), (∀ c ∈ cs, ∀ lab, (callLabel lab c).layer = lab.layer) → (cs.foldl callLabel lab).layer = lab.layer := by
    intro cs
    induction cs with
    | nil => intro lab _; rfl
    | cons c cs ih =>
      intro lab h
      rw [List.foldl_cons, ih _ fun x hx => h x (List.mem_cons_of_mem _ hx), h c (by simp)]
  rw [keep, keep, keep, h1]
  · intro c hc lab
    split at hc
    · simp only [List.mem_cons, List.not_mem_nil, or_false] at hc
      rcases hc with rfl | rfl <;> rfl
    · simp at hc
  · intro c hc lab
    split at hc
    · split at hc <;> rw [List.mem_singleton.1 hc]
      · rfl
      · simp [callLabel, Label.read]
    · simp at hc
  · intro c hc lab
    split at hc
    · simp only [List.mem_cons, List.not_mem_nil, or_false] at hc
      rcases hc with rfl | rfl | rfl
      · rfl
      · simp [callLabel, Label.read]
      · simp [callLabel, Label.read]
    · simp at hc

theorem tagged_inner (m : Int) {n : Nat} {l : Layer} (hl : layers[n]? = some l) (lab : Label) :
    Tagged (RightLabel lib o pt layers) lab (innerCalls lib o pt m n l) := by
  unfold innerCalls
  rw [tagged_append, tagged_append]
  refine ⟨⟨tagged_settings (fun c hc => ?_) _, tagged_settings (preLayerCommon_noMove o n) _⟩, ?_⟩
  · split at hc
    · rw [List.mem_singleton.1 hc]; trivial
    · simp at hc
  · rw [List.foldl_append]
    exact tagged_layer hl (number_nat n).2 m _ (fold_label_common n _)

theorem tagged_print : Tagged (RightLabel lib o pt layers) {} (printCalls lib o pt layers) := by
  unfold printCalls
  rw [tagged_append]
  refine ⟨tagged_settings (fun c hc => ?_) _, ?_⟩
  · simp only [preLayerSettings, List.mem_cons, List.not_mem_nil, or_false] at hc
    rcases hc with rfl | rfl | rfl | rfl | rfl | rfl | rfl <;> trivial
  · have key : ∀ (xs : List (Layer × Nat)), (∀ x ∈ xs, layers[x.2]? = some x.1) → ∀ lab,
        Tagged (RightLabel lib o pt layers) lab (xs.flatMap fun x => innerCalls lib o pt (layers.length - 1) x.2 x.1) := by
      intro xs
      induction xs with
      | nil => intro _ lab; trivial
      | cons x xs ih =>
        intro h lab
        rw [List.flatMap_cons, tagged_append]
        exact ⟨tagged_inner _ (h x (by simp)) lab, ih (fun y hy => h y (by simp [hy])) _⟩
    exact key _ (fun x hx => List.mem_zipIdx_iff_getElem?.1 hx) _

theorem oneLine_print : ∀ c ∈ printCalls lib o pt layers, OneLine c := by
  intro c hc
  unfold printCalls at hc
  rcases List.mem_append.1 hc with hc | hc
  · simp only [preLayerSettings, List.mem_cons, List.not_mem_nil, or_false] at hc
    rcases hc with rfl | rfl | rfl | rfl | rfl | rfl | rfl <;> trivial
  · obtain ⟨x, -, hc⟩ := List.mem_flatMap.1 hc
    have hnum : ∀ v : Int, '\n' ∉ formatInt v := fun v => not_mem_formatInt v (by decide) (by decide)
    simp only [innerCalls, List.mem_append] at hc
    rcases hc with (hc | hc) | hc
    · split at hc
      · rw [List.mem_singleton.1 hc]; trivial
      · simp at hc
    · simp only [preLayerCommon, List.mem_append] at hc
      rcases hc with ((hc | hc) | hc) | hc
      · rw [List.mem_singleton.1 hc]
        simp [OneLine, hnum]
      · split at hc
        · simp only [List.mem_cons, List.not_mem_nil, or_false] at hc
          rcases hc with rfl | rfl <;> trivial
        · simp at hc
      · split at hc
        · split at hc <;> rw [List.mem_singleton.1 hc] <;> simp [OneLine, hnum]
        · simp at hc
      · split at hc
        · simp only [List.mem_cons, List.not_mem_nil, or_false] at hc
          rcases hc with rfl | rfl | rfl <;> simp [OneLine, hnum]
        · simp at hc
    · have hd := layerDraws_drawCall lib o pt _ _ _ c hc
      cases c with
      | comment t => exact hd.1
      | _ => first | exact hd.elim | trivial

/-- **C135** The labels are right: each move of a print has labels, and an extruding move between different places is a line of a path of the layer with the number
of its label, at the height of this layer, and of the type of its label. -/
theorem C135_labels (hne : layers ≠ []) (h : (generateScripts crossing o (standardRenderers lib o pt) layers g0).2 = (t, none)) :
    ∃ body m moves, t = startText o ++ body ++ endText o ∧ run body = some (m, moves) ∧ (labels body).length = moves.length ∧
      ∀ k before line lab, moves[k]? = some before → moves[k + 1]? = some line → (labels body)[k + 1]? = some lab → line.hasE = true →
        (before.after.x = line.after.x ∧ before.after.y = line.after.y ∧ before.after.z = line.after.z) ∨
        ∃ (n : Nat) (l : Layer) (v kind : Str) (isOpen : Bool) (path : Path) (a b : Pt), layers[n]? = some l ∧ lab = ⟨some v, some kind⟩ ∧ number v = some (n : ℚ) ∧ DrawnAs lib o pt n l isOpen path kind ∧
          (a, b) ∈ pathLines isOpen (douglasPeuckerM path (-1)) ∧ At before.after a (layerHeight o n) ∧ At line.after b (layerHeight o n) := by
  obtain ⟨g, ht, hb⟩ := print_body hne h
  have hrun := C18_refines harmless_print hb
  refine ⟨g.buf, _, _, ht, hrun, labels_length hrun, ?_⟩
  have hall : ∀ c ∈ printCalls lib o pt layers, AllowedCall (fun _ _ => True) c := by
    refine printCalls_allowed fun n l hl c hc => ?_
    have hd := layerDraws_drawCall lib o pt _ n l _ hc
    cases c with
    | polygon lay path z isOpen => exact fun _ _ => trivial
    | _ => first | exact hd.elim | trivial
  obtain ⟨ls, l1, l2, -, l4⟩ := labelled_moves _ harmless_print oneLine_print hall tagged_print hb
  intro k before line lab h1 h2 h3 h4
  have e : labels g.buf = labelsFrom {} ls := by
    unfold labels
    have e : split '\n' g.buf = ls ++ [[]] := by rw [l1]; exact split_unlines l2
    rw [e, labelsFrom_append]
    simp [labelsFrom, isMove, split]
  rw [e] at h3
  rcases l4 k before line lab h1 h2 h3 h4 with hs | ⟨layer, path, z, isOpen, a, b, ⟨n, l, v, kind, r1, rfl, r2, r3, r4⟩, r5, r6, r7⟩
  · exact .inl hs
  · exact .inr ⟨n, l, v, kind, isOpen, path, a, b, r1, r2, r3, r4, r5, r6, r7⟩

end

/-- **C135** for the whole program. -/
theorem C135_gcode {ext : Externals} {o : Options} {content t : Str} (h : gcodeOf ext o content = .ok t) :
    ∃ om sliced layers pt, optimize o ((ext.stl content).map stlTriangleToFace) = .ok om ∧ slice ext.lib o om = .ok sliced ∧
      (standardModifiers ext.lib ext.tan o).foldlM (fun ls m => m ls) sliced = .ok layers ∧ initPatterns ext.lib ext.trig o om = .ok pt ∧
      (layers = [] ∨ ∃ (blocks : List (List Str)) (m : Machine) (moves : List Move),
        t = startText o ++ textOf blocks.flatten ++ endText o ∧ blocks.length = layers.length ∧ (∀ n block, blocks[n]? = some block → LayerLines n block) ∧
        run (textOf blocks.flatten) = some (m, moves) ∧ (labels (textOf blocks.flatten)).length = moves.length ∧
        ∀ k before line lab, moves[k]? = some before → moves[k + 1]? = some line → (labels (textOf blocks.flatten))[k + 1]? = some lab → line.hasE = true →
          (before.after.x = line.after.x ∧ before.after.y = line.after.y ∧ before.after.z = line.after.z) ∨
          ∃ (n : Nat) (l : Layer) (v kind : Str) (isOpen : Bool) (path : Path) (a b : Pt), layers[n]? = some l ∧ lab = ⟨some v, some kind⟩ ∧
            number v = some (n : ℚ) ∧ DrawnAs ext.lib o pt n l isOpen path kind ∧
            (a, b) ∈ pathLines isOpen (douglasPeuckerM path (-1)) ∧ At before.after a (layerHeight o n) ∧ At line.after b (layerHeight o n)) := by
  obtain ⟨om, sliced, layers, pt, g0, h1, h2, h3, h4, h5⟩ := gcodeOf_steps h
  refine ⟨om, sliced, layers, pt, h1, h2, h3, h4, ?_⟩
  by_cases hne : layers = []
  · exact .inl hne
  · obtain ⟨blocks, b1, b2, b3⟩ := C135_grammar hne h5
    obtain ⟨body, m, moves, c1, c2, c3, c4⟩ := C135_labels hne h5
    have e : body = textOf blocks.flatten := by
      have := c1.symm.trans b1
      rw [List.append_assoc, List.append_assoc] at this
      exact List.append_cancel_right (List.append_cancel_left this)
    subst e
    exact .inr ⟨blocks, m, moves, b1, b2, b3, c2, c3, c4⟩

/-- Non-vacuity: the wall of a printed square has moves with the labels of the outermost walls of the first layer. -/
example : ∃ t body m moves, t = startText {} ++ body ++ endText {} ∧ run body = some (m, moves) ∧ ∃ v, number v = some 0 ∧
    ⟨some v, some "WALL-OUTER".toList⟩ ∈ labels body := by
  have hs : (generateScripts (fun _ _ => (false, true)) {} (standardRenderers wallLib {} ⟨none, none, none, none, none⟩) [squareLayer] (newBuilder 0 0)).2.2 =
      none := by decide +kernel
  have hs' : (generateScripts (fun _ _ => (false, true)) {} (standardRenderers wallLib {} ⟨none, none, none, none, none⟩) [squareLayer] (newBuilder 0 0)).2 =
      ((generateScripts (fun _ _ => (false, true)) {} (standardRenderers wallLib {} ⟨none, none, none, none, none⟩) [squareLayer] (newBuilder 0 0)).2.1, none) :=
    Prod.ext rfl hs
  obtain ⟨body, m, moves, h1, h2, h3⟩ := C111_printed extrudes_default (by simp) hs'
  obtain ⟨body', m', moves', g1, g2, g3, g4⟩ := C135_labels (by simp) hs'
  have hbody : body = body' := by
    have := h1.symm.trans g1
    rw [List.append_assoc, List.append_assoc] at this
    exact List.append_cancel_right (List.append_cancel_left this)
  subst hbody
  rw [g2] at h2
  obtain ⟨rfl, rfl⟩ := Prod.ext_iff.1 (Option.some.inj h2)
  have hw' : squareLayer.perimeters = .ok [[[⟨[⟨0, 0⟩, ⟨10000, 0⟩, ⟨10000, 10000⟩, ⟨0, 10000⟩], []⟩]]] := rfl
  obtain ⟨⟨walls, hw, hp⟩, -⟩ := h3 0 squareLayer rfl
  rw [hw'] at hw
  have hw := Except.ok.inj hw
  subst hw
  obtain ⟨k, before, line, k1, k2, k3, -, k4, k5⟩ := hp _ (List.mem_singleton.2 rfl) [⟨0, 0⟩, ⟨10000, 0⟩, ⟨10000, 10000⟩, ⟨0, 10000⟩] (by simp) ⟨10000, 0⟩
    ⟨10000, 10000⟩ (by decide +kernel) (by decide) (by decide) (by decide)
  have hk : k + 1 < (labels body).length := by rw [g3]; exact (List.getElem?_eq_some_iff.1 k2).1
  have hlab := List.getElem?_eq_getElem hk
  refine ⟨_, body, m', moves', g1, g2, ?_⟩
  rcases g4 k before line _ k1 k2 hlab k4 with ⟨-, e, -⟩ | ⟨n, l, v, kind, isOpen, path, a, b, e1, e2, e3, e4, -⟩
  · rw [k3.2.1, k5.2.1] at e
    exact absurd e (by decide +kernel)
  · cases n with
    | succ n => simp at e1
    | zero =>
      obtain rfl : squareLayer = l := by simpa using e1
      rcases e4 with ⟨rfl, -⟩ | ⟨-, -, walls, hw, part, hpart, i, ps, hps, -⟩ | ⟨-, -, brim, hbr, p, hp, -⟩ | ⟨-, -, -, -, walls, support, -, -, p, hp, -⟩ |
        ⟨-, fill, name, hk, -⟩
      · exact ⟨v, by simpa using e3, by rw [← e2]; exact List.getElem_mem hk⟩
      · rw [hw'] at hw
        have hw := Except.ok.inj hw
        subst hw
        rw [List.mem_singleton.1 hpart] at hps
        simp at hps
      · have : squareLayer.brim = .ok [] := rfl
        rw [this] at hbr
        have hbr := Except.ok.inj hbr
        subst hbr
        simp at hp
      · have : (skirtLines wallLib {} support walls).flatten = [] := by
          unfold skirtLines ClipperLib.inset
          exact wall_insets _ _ _ _
        rw [this] at hp
        simp at hp
      · simp at hk

end Verif
