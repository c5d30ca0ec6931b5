import Verif.Props.Nothing
import Verif.Spec.Speeds

/-! # C116: the speed of every move -/
namespace Verif
open Verif.Go Verif.Model Verif.Spec Verif.Spec.GCode

/-! ## From moves to requests -/

/-- Each request is in a relation to the target before it. -/
def Moving (P : Option Vec3 → Request → Prop) : Option Vec3 → List Request → Prop
  | _, [] => True
  | prev, r :: rs => P prev r ∧ Moving P (some r.target) rs

theorem lastTarget_cons (prev : Option Vec3) (r : Request) (a : List Request) : lastTarget prev (r :: a) = lastTarget (some r.target) a := by
  cases a with
  | nil => rfl
  | cons s a =>
    unfold lastTarget
    rw [List.getLast?_cons_cons]
    obtain ⟨x, hx⟩ : ∃ x, (s :: a).getLast? = some x := ⟨_, List.getLast?_eq_getLast_of_ne_nil (by simp)⟩
    rw [hx]
    rfl

theorem moving_append {P : Option Vec3 → Request → Prop} (a b : List Request) : ∀ prev,
    Moving P prev (a ++ b) ↔ Moving P prev a ∧ Moving P (lastTarget prev a) b := by
  induction a with
  | nil => intro prev; simp [Moving, lastTarget]
  | cons r a ih =>
    intro prev
    rw [List.cons_append, Moving, ih, Moving, lastTarget_cons, and_assoc]

theorem moves_after (h : Head) (r : Request) : Moves (h.after r).machine r.speed := by
  unfold Moves Head.after Head.machine
  by_cases hf : h.feed = none ∧ r.speed = 0
  · right
    simp [hf]
  · left
    simp [hf]

/-- The E word is the float32 total with four decimals; without an E word the total is 0. -/
theorem effect_filament (rs : List Request) : (effect rs).1.e.getD 0 = decimals 4 (effect rs).1.total ∧ r32 (effect rs).1.total = (effect rs).1.total := by
  induction rs using List.reverseRecOn with
  | nil => simp [effect, decimals, roundEven_zero]
  | append_singleton rs r ih =>
    rw [effect_append]
    unfold effectStep
    split
    · exact ih
    · simp only [Head.after]
      refine ⟨?_, r32_idem _⟩
      split
      · rename_i h0
        rw [h0, add_zero, ih.2]
        exact ih.1
      · rfl

theorem moving_moves {P : Option Vec3 → Request → Prop} {rs : List Request} (h : Moving P none rs) :
    (∀ line, (effect rs).2[0]? = some line → ∃ r, P none r ∧ AtVec line.after r.target ∧ line.hasE = decide (r.extrusion ≠ 0) ∧
      Moves line.after r.speed) ∧
    ∀ (k : Nat) before line, (effect rs).2[k]? = some before → (effect rs).2[k + 1]? = some line →
      ∃ v r total, P (some v) r ∧ AtVec before.after v ∧ AtVec line.after r.target ∧ line.hasE = decide (r.extrusion ≠ 0) ∧ Moves line.after r.speed ∧
        r32 total = total ∧ before.after.e.getD 0 = decimals 4 total ∧ line.after.e.getD 0 = decimals 4 (r32 (total + r.extrusion)) := by
  induction rs using List.reverseRecOn with
  | nil => simp [effect]
  | append_singleton rs r ih =>
    obtain ⟨h1, h2⟩ := (moving_append _ _ _).1 h
    obtain ⟨i1, i2⟩ := ih h1
    rw [effect_append]
    unfold effectStep
    split
    · exact ⟨i1, i2⟩
    · have hr : ∀ line : Move, line = ⟨decide (r.extrusion ≠ 0), decide (r.extrusion ≠ 0), ((effect rs).1.after r).machine⟩ →
          P (lastTarget none rs) r ∧ AtVec line.after r.target ∧ line.hasE = decide (r.extrusion ≠ 0) ∧ Moves line.after r.speed := by
        rintro line rfl
        exact ⟨h2.1, machine_at (by simp [Head.after]), rfl, moves_after _ _⟩
      constructor
      · intro line hl
        cases hm : (effect rs).2 with
        | nil =>
          rw [hm] at hl
          have e := hr line (by simpa using hl.symm)
          have : rs = [] := by
            by_contra hne
            obtain ⟨ms, m, e, -⟩ := effect_last hne
            rw [hm] at e
            simp at e
          subst this
          exact ⟨_, e⟩
        | cons m ms =>
          rw [hm] at hl i1
          exact i1 line (by simpa using hl)
      · intro k before line hb hl
        rcases lt_or_ge (k + 1) (effect rs).2.length with hk | hk
        · rw [List.getElem?_append_left hk] at hl
          rw [List.getElem?_append_left (by omega)] at hb
          exact i2 k before line hb hl
        · rw [List.getElem?_append_right hk, List.getElem?_singleton] at hl
          split at hl
          · rename_i hk0
            obtain ⟨e1, e2⟩ := hr line (by simpa using hl.symm)
            have hlt : k < (effect rs).2.length := by omega
            rw [List.getElem?_append_left hlt] at hb
            have hne : rs ≠ [] := by rintro rfl; simp [effect] at hlt
            obtain ⟨ms, m, e3, e4⟩ := effect_last hne
            rw [e3] at hb hk hk0 hlt
            have hkm : k = ms.length := by simp at hk0 hlt hk; omega
            subst hkm
            have hbm : m = before := by simpa using hb
            subst hbm
            obtain ⟨q, hq⟩ : ∃ q, rs.getLast? = some q := ⟨_, List.getLast?_eq_getLast_of_ne_nil hne⟩
            obtain ⟨t1, t2⟩ := effect_filament rs
            refine ⟨q.target, r, (effect rs).1.total, ?_, ?_, e2.1, e2.2.1, e2.2.2, t2, ?_, ?_⟩
            · simpa [lastTarget, hq] using e1
            · rw [e4]
              exact machine_at (by rw [effect_pos, hq]; rfl)
            · rw [e4]
              exact t1
            · have hl : line = ⟨decide (r.extrusion ≠ 0), decide (r.extrusion ≠ 0), ((effect rs).1.after r).machine⟩ := by simpa using hl.symm
              rw [hl]
              simp only [Head.after, Head.machine]
              split
              · rename_i h0
                rw [h0, add_zero, t2]
                exact t1
              · rfl
          · cases hl

/-! ## From requests to calls -/

section
variable {crossing : List LayerPart → Path → Bool × Bool} {flow : Int → Int → ℚ} {lib : ClipperLib} {o : Options} {pt : Patterns}
variable {P : Option Vec3 → Request → Prop}

/-- Calls lead from settings with one property to settings with another one, by requests which are allowed. -/
def Leads (crossing : List LayerPart → Path → Bool × Bool) (flow : Int → Int → ℚ) (P : Option Vec3 → Request → Prop) (I J : Settings → Prop)
    (cs : List Call) : Prop :=
  ∀ p : Plan, I p.settings → Moving P none p.requests →
    J (cs.foldl (Plan.call crossing flow) p).settings ∧ Moving P none (cs.foldl (Plan.call crossing flow) p).requests

theorem leads_append {I J K : Settings → Prop} {a b : List Call} (ha : Leads crossing flow P I J a) (hb : Leads crossing flow P J K b) :
    Leads crossing flow P I K (a ++ b) := by
  intro p hi hm
  rw [List.foldl_append]
  obtain ⟨h1, h2⟩ := ha p hi hm
  exact hb _ h1 h2

theorem leads_nil {I : Settings → Prop} : Leads crossing flow P I I [] := fun _ hi hm => ⟨hi, hm⟩

theorem leads_each {I : Settings → Prop} {cs : List Call} (h : ∀ c ∈ cs, Leads crossing flow P I I [c]) : Leads crossing flow P I I cs := by
  induction cs with
  | nil => exact leads_nil
  | cons c cs ih =>
    exact leads_append (a := [c]) (h c List.mem_cons_self) (ih fun x hx => h x (List.mem_cons_of_mem _ hx))

theorem leads_flatMap {α : Type} {I : Settings → Prop} {f : α → List Call} {xs : List α} (h : ∀ x ∈ xs, Leads crossing flow P I I (f x)) :
    Leads crossing flow P I I (xs.flatMap f) := by
  induction xs with
  | nil => exact leads_nil
  | cons x xs ih =>
    rw [List.flatMap_cons]
    exact leads_append (h x List.mem_cons_self) (ih fun y hy => h y (List.mem_cons_of_mem _ hy))

/-- The requests which draw a path with some settings are allowed. -/
structure AllowsLines (P : Option Vec3 → Request → Prop) (s : Settings) (z : Int) (isOpen : Bool) (path : Path) : Prop where
  travel : ∀ v p, P v ⟨p, 0, s.moveSpeed⟩
  retract : ∀ v e, e ≠ 0 → e = -s.retractionAmount ∨ e = s.retractionAmount → P v ⟨v.getD ⟨0, 0, 0⟩, e, s.retractionSpeed⟩
  line : ∀ a b, (a, b) ∈ pathLines isOpen (douglasPeuckerM path (-1)) → P (some ⟨a.x, a.y, z⟩) (s.move ⟨b.x, b.y, z⟩ (s.filament a b))

theorem moving_lines (s : Settings) (z : Int) (rest : Path) : ∀ p0 : Pt,
    (∀ ab ∈ (p0 :: rest).zip rest, P (some ⟨ab.1.x, ab.1.y, z⟩) (s.move ⟨ab.2.x, ab.2.y, z⟩ (s.filament ab.1 ab.2))) →
    Moving P (some ⟨p0.x, p0.y, z⟩) (s.lines z p0 rest) := by
  induction rest with
  | nil => intro p0 _; trivial
  | cons b rest ih =>
    intro p0 h
    rw [List.zip_cons_cons] at h
    exact ⟨h _ List.mem_cons_self, ih b fun ab hab => h ab (List.mem_cons_of_mem _ hab)⟩

theorem moving_draw {s : Settings} {path : Path} {p0 : Pt} {rest : Path} {z : Int} {isOpen : Bool} (hP : AllowsLines P s z isOpen path)
    (he : douglasPeuckerM path (-1) = p0 :: rest) (c : Bool) (hc : c = true → s.retractionAmount ≠ 0) (prev : Option Vec3) :
    Moving P prev (s.draw c (prev.getD ⟨0, 0, 0⟩) p0 rest z isOpen) := by
  have e : s.draw c (prev.getD ⟨0, 0, 0⟩) p0 rest z isOpen =
      s.approach c (prev.getD ⟨0, 0, 0⟩) p0 z ++ s.lines z p0 (rest ++ if isOpen then [] else [p0]) := by
    unfold Settings.draw
    cases isOpen with
    | true => simp
    | false =>
      rw [if_neg (by simp), if_neg (by simp), ← lines_append]
      simp [Settings.closing]
  have hlast : lastTarget prev (s.approach c (prev.getD ⟨0, 0, 0⟩) p0 z) = some ⟨p0.x, p0.y, z⟩ := by
    obtain ⟨xs, q, h1, h2⟩ := approach_last s c (prev.getD ⟨0, 0, 0⟩) p0 z
    rw [h1]
    simp [lastTarget, h2]
  have ht : ∀ v p, P v (s.move p 0) := fun v p => by simpa [Settings.move, Settings.speed] using hP.travel v p
  rw [e, moving_append, hlast]
  constructor
  · unfold Settings.approach
    split
    · rename_i hct
      have h0 := hc hct
      split
      · exact ⟨hP.retract _ _ (neg_ne_zero.2 h0) (.inl rfl), ht _ _, ht _ _, ht _ _, hP.retract (some _) _ h0 (.inr rfl), trivial⟩
      · exact ⟨hP.retract _ _ (neg_ne_zero.2 h0) (.inl rfl), ht _ _, hP.retract (some _) _ h0 (.inr rfl), trivial⟩
    · exact ⟨ht _ _, trivial⟩
  · refine moving_lines s z _ p0 fun ab hab => hP.line ab.1 ab.2 ?_
    rw [he, pathLines, zip_longer _ _ _ (by split <;> simp)]
    exact hab

theorem leads_polygon {I : Settings → Prop} {lay : Option (List LayerPart)} {path : Path} {z : Int} {isOpen : Bool}
    (h : ∀ s, I s → AllowsLines P s z isOpen path) : Leads crossing flow P I I [.polygon lay path z isOpen] := by
  intro p hi hm
  refine ⟨hi, ?_⟩
  simp only [List.foldl_cons, List.foldl_nil, Plan.call]
  rw [moving_append]
  refine ⟨hm, ?_⟩
  unfold Plan.polygon
  split
  · trivial
  · rename_i p0 rest he
    rw [last_eq]
    refine moving_draw (h _ hi) he _ (fun hc => ?_) _
    unfold Plan.retracts at hc
    split at hc
    · cases hc
    · rw [Bool.and_eq_true, decide_eq_true_eq] at hc
      exact hc.1.2

theorem leads_comment {I : Settings → Prop} (t : Str) : Leads crossing flow P I I [.comment t] := fun _ hi hm => ⟨hi, hm⟩

/-! ## The layers -/

/-- The settings while drawing layer `n`, with a speed for lines. -/
def DrawsAt (o : Options) (flow : Int → Int → ℚ) (n : Nat) (v : ℚ) (s : Settings) : Prop := LayerSettings o flow n s ∧ s.extrudeSpeed = truncZ v

/-- The requests a print may consist of. -/
def SpeedOf (flow : Int → Int → ℚ) (lib : ClipperLib) (o : Options) (pt : Patterns) (layers : List Layer) (v : Option Vec3) (r : Request) : Prop :=
  (r.extrusion = 0 ∧ r.speed = truncZ o.print.moveSpeed) ∨
  (r.extrusion ≠ 0 ∧ v.getD ⟨0, 0, 0⟩ = r.target ∧ r.speed = truncZ o.filament.retractionSpeed ∧
    (r.extrusion = -o.filament.retractionLength ∨ r.extrusion = o.filament.retractionLength)) ∨
  (r.extrusion ≠ 0 ∧ ∃ n l isOpen path speed a b, layers[n]? = some l ∧ PrintedWith lib o pt n l isOpen path speed ∧
    (a, b) ∈ pathLines isOpen (douglasPeuckerM path (-1)) ∧ v = some ⟨a.x, a.y, layerHeight o n⟩ ∧ r.target = ⟨b.x, b.y, layerHeight o n⟩ ∧
    r.speed = lineSpeed o n speed ∧ r.extrusion = r32 ((b.sub a).sizeMM * flow (thicknessOf o n) o.printer.extrusionWidth))

variable {layers : List Layer} {n : Nat} {l : Layer}

theorem allows_lines (hl : layers[n]? = some l) {isOpen : Bool} {path : Path} {v : ℚ} (hp : PrintedWith lib o pt n l isOpen path v) {s : Settings}
    (hs : DrawsAt o flow n v s) : AllowsLines (SpeedOf flow lib o pt layers) s (layerHeight o n) isOpen path where
  travel _ _ := .inl ⟨rfl, hs.1.move⟩
  retract _ _ h h' := .inr (.inl ⟨h, rfl, hs.1.retraction.1, by rwa [← hs.1.retraction.2.1]⟩)
  line a b hab := by
    by_cases he : s.filament a b = 0
    · exact .inl ⟨he, by simp [Settings.move, Settings.speed, he, hs.1.move]⟩
    · refine .inr (.inr ⟨he, n, l, isOpen, path, v, a, b, hl, hp, hab, rfl, rfl, ?_, by simp [Settings.move, Settings.filament, hs.1.flow]⟩)
      simp only [Settings.move, Settings.speed, if_neg he, hs.1.override, hs.2, lineSpeed]
      by_cases hn : n = 0
      · simp [hn]
      · simp [hn]

theorem leads_line (hl : layers[n]? = some l) {isOpen : Bool} {path : Path} {v : ℚ} (hp : PrintedWith lib o pt n l isOpen path v)
    (lay : Option (List LayerPart)) :
    Leads crossing flow (SpeedOf flow lib o pt layers) (DrawsAt o flow n v) (DrawsAt o flow n v) [.polygon lay path (layerHeight o n) isOpen] :=
  leads_polygon fun _ hs => allows_lines hl hp hs

theorem leads_skirt (hl : layers[n]? = some l) (m : Int) : Leads crossing flow (SpeedOf flow lib o pt layers) (DrawsAt o flow n o.print.layerSpeed)
    (DrawsAt o flow n o.print.layerSpeed) (skirtRenderer lib o n m l (layerHeight o n)).calls := by
  unfold skirtRenderer
  split
  · exact leads_nil
  · rename_i hs
    split
    · rename_i hn
      split
      · exact leads_nil
      · rename_i walls hw
        split
        · exact leads_nil
        · rename_i support hu
          split
          · exact leads_nil
          · refine leads_append (a := [_]) (leads_comment _) (leads_flatMap fun w hw' => leads_each fun c hc => ?_)
            obtain ⟨p, hp, rfl⟩ := List.mem_map.1 hc
            exact leads_line hl (.skirt hn hs hw hu (List.mem_flatten.2 ⟨w, hw', hp⟩)) _
    · exact leads_nil

theorem leads_brim (hl : layers[n]? = some l) (m : Int) : Leads crossing flow (SpeedOf flow lib o pt layers) (DrawsAt o flow n o.print.layerSpeed)
    (DrawsAt o flow n o.print.layerSpeed) (brimRenderer n m l (layerHeight o n)).calls := by
  unfold brimRenderer
  split
  · exact leads_nil
  · exact leads_nil
  · rename_i brim hne hb
    rw [brim_calls]
    refine leads_append (a := [_]) (leads_comment _) (leads_each fun c hc => ?_)
    obtain ⟨p, hp, rfl⟩ := List.mem_map.1 hc
    exact leads_line hl (.brim hb hp) _

theorem leads_wall (hl : layers[n]? = some l) {outer : Bool} {p : LayerPart} (hp : ∀ path ∈ p.holes ++ [p.outline],
      PrintedWith lib o pt n l false path (if outer then o.print.outerPerimeterSpeed else o.print.layerSpeed)) (v : ℚ) :
    Leads crossing flow (SpeedOf flow lib o pt layers) (DrawsAt o flow n v)
      (DrawsAt o flow n (if outer then o.print.outerPerimeterSpeed else o.print.layerSpeed)) (drawWall o l (layerHeight o n) outer p) := by
  unfold drawWall
  refine leads_append (J := DrawsAt o flow n (if outer then o.print.outerPerimeterSpeed else o.print.layerSpeed)) ?_ (leads_each fun c hc => ?_)
  · intro q hi hm
    refine ⟨⟨⟨hi.1.move, hi.1.override, ?_, hi.1.retraction, hi.1.flow⟩, ?_⟩, hm⟩ <;> cases outer <;> simp [Plan.call]
  · obtain ⟨path, hpath, rfl⟩ := List.mem_map.1 hc
    exact leads_line hl (hp path hpath) _

theorem leads_walls (hl : layers[n]? = some l) {outer : Bool} {ps : List LayerPart} (hp : ∀ p ∈ ps, ∀ path ∈ p.holes ++ [p.outline],
      PrintedWith lib o pt n l false path (if outer then o.print.outerPerimeterSpeed else o.print.layerSpeed)) (v : ℚ) :
    Leads crossing flow (SpeedOf flow lib o pt layers) (DrawsAt o flow n v)
      (DrawsAt o flow n (if ps = [] then v else if outer then o.print.outerPerimeterSpeed else o.print.layerSpeed))
      (ps.flatMap (drawWall o l (layerHeight o n) outer)) := by
  induction ps generalizing v with
  | nil => exact leads_nil
  | cons p ps ih =>
    rw [List.flatMap_cons, if_neg (by simp)]
    have h2 := ih (fun q hq => hp q (List.mem_cons_of_mem _ hq)) (if outer then o.print.outerPerimeterSpeed else o.print.layerSpeed)
    rw [ite_self] at h2
    exact leads_append (leads_wall hl (hp p List.mem_cons_self) v) h2

/-- The speed after the walls of a part, given the speed before. -/
def speedAfter (o : Options) (v : ℚ) (part : List (List LayerPart)) : ℚ :=
  if part.flatten = [] then v else if part.headD [] = [] then o.print.layerSpeed else o.print.outerPerimeterSpeed

theorem leads_part (hl : layers[n]? = some l) {walls : OffsetResult} (hw : l.perimeters = .ok walls) {part : List (List LayerPart)}
    (hpart : part ∈ walls) (v : ℚ) :
    Leads crossing flow (SpeedOf flow lib o pt layers) (DrawsAt o flow n v) (DrawsAt o flow n (speedAfter o v part))
      ((part.drop 1).flatMap (fun inset => inset.flatMap (drawWall o l (layerHeight o n) false)) ++
       (part.take 1).flatMap (fun inset => inset.flatMap (drawWall o l (layerHeight o n) true))) := by
  cases part with
  | nil => exact leads_nil
  | cons first rest =>
    simp only [List.drop_succ_cons, List.drop_zero, List.take_succ_cons, List.take_zero, List.flatMap_cons, List.flatMap_nil, List.append_nil]
    have e : rest.flatMap (fun inset => inset.flatMap (drawWall o l (layerHeight o n) false)) =
        rest.flatten.flatMap (drawWall o l (layerHeight o n) false) := by
      rw [List.flatten_eq_flatMap, List.flatMap_assoc]
      rfl
    rw [e]
    have h1 := leads_walls (crossing := crossing) (flow := flow) (lib := lib) (o := o) (pt := pt) hl (outer := false) (ps := rest.flatten)
      (fun p hp path hc => by
        obtain ⟨inset, hi, hp⟩ := List.mem_flatten.1 hp
        exact .innerWall hw hpart rfl hi hp hc) v
    have h2 := leads_walls (crossing := crossing) (flow := flow) (lib := lib) (o := o) (pt := pt) hl (outer := true) (ps := first)
      (fun p hp path hc => .outerWall hw hpart rfl hp hc) (if rest.flatten = [] then v else o.print.layerSpeed)
    have := leads_append h1 h2
    have e2 : speedAfter o v (first :: rest) =
        if first = [] then (if rest.flatten = [] then v else o.print.layerSpeed) else o.print.outerPerimeterSpeed := by
      unfold speedAfter
      by_cases hf : first = []
      · simp [hf]
      · simp [hf]
    rw [e2]
    exact this

theorem fillSpeed_eq {walls : OffsetResult} (hw : l.perimeters = .ok walls) : fillSpeed o l = walls.foldl (speedAfter o) o.print.layerSpeed := by
  unfold fillSpeed
  rw [hw]
  simp only
  clear hw
  induction walls using List.reverseRecOn with
  | nil => rfl
  | append_singleton walls part ih =>
    rw [List.foldl_append, List.foldl_cons, List.foldl_nil, ← ih, List.filter_append]
    unfold speedAfter
    by_cases he : part.flatten = []
    · rw [if_pos he, List.filter_cons_of_neg (by simp [he])]
      simp
    · rw [if_neg he, List.filter_cons_of_pos (by simpa using he), List.filter_nil, List.getLast?_append]
      cases part with
      | nil => simp at he
      | cons first rest =>
        cases first with
        | nil => simp
        | cons p ps => simp

theorem leads_perimeters (hl : layers[n]? = some l) (m : Int) :
    Leads crossing flow (SpeedOf flow lib o pt layers) (DrawsAt o flow n o.print.layerSpeed)
      (DrawsAt o flow n (fillSpeed o l)) (perimeterRenderer o n m l (layerHeight o n)).calls := by
  cases hw : l.perimeters with
  | error e =>
    have e1 : fillSpeed o l = o.print.layerSpeed := by simp [fillSpeed, hw]
    have e2 : (perimeterRenderer o n m l (layerHeight o n)).calls = [] := by simp [perimeterRenderer, hw]
    rw [e1, e2]
    exact leads_nil
  | ok walls =>
    rw [fillSpeed_eq hw, C36_order o n m l _ walls hw]
    have key : ∀ (ps : OffsetResult), (∀ part ∈ ps, part ∈ walls) → ∀ v, Leads crossing flow (SpeedOf flow lib o pt layers) (DrawsAt o flow n v)
        (DrawsAt o flow n (ps.foldl (speedAfter o) v)) (ps.flatMap fun part =>
          (part.drop 1).flatMap (fun inset => inset.flatMap (drawWall o l (layerHeight o n) false)) ++
          (part.take 1).flatMap (fun inset => inset.flatMap (drawWall o l (layerHeight o n) true))) := by
      intro ps
      induction ps with
      | nil => intro _ v; exact leads_nil
      | cons part ps ih =>
        intro h v
        rw [List.flatMap_cons, List.foldl_cons]
        exact leads_append (leads_part hl hw (h part List.mem_cons_self) v) (ih (fun q hq => h q (List.mem_cons_of_mem _ hq)) _)
    exact key walls (fun _ h => h) _

theorem leads_infill (hl : layers[n]? = some l) (m : Int) {pattern : Option Pattern} {name : String} (hk : (pattern, name) ∈ infillKinds pt)
    (comments : List Str) :
    Leads crossing flow (SpeedOf flow lib o pt layers) (DrawsAt o flow n (fillSpeed o l)) (DrawsAt o flow n (fillSpeed o l))
      (infillRenderer pattern name comments n m l (layerHeight o n)).calls := by
  unfold infillRenderer
  split
  · exact leads_nil
  · rename_i fill
    split
    · exact leads_nil
    · rename_i parts hp
      have key : ∀ ps : List LayerPart, (∀ part ∈ ps, part ∈ parts) →
          Leads crossing flow (SpeedOf flow lib o pt layers) (DrawsAt o flow n (fillSpeed o l)) (DrawsAt o flow n (fillSpeed o l))
            (infillCalls comments fill n l (layerHeight o n) ps).calls := by
        intro ps
        have hcom : Leads crossing flow (SpeedOf flow lib o pt layers) (DrawsAt o flow n (fillSpeed o l)) (DrawsAt o flow n (fillSpeed o l))
            (comments.map Call.comment) := leads_each fun c hc => by
          obtain ⟨t, -, rfl⟩ := List.mem_map.1 hc
          exact leads_comment t
        induction ps with
        | nil => intro _; exact leads_nil
        | cons part ps ih =>
          intro h
          simp only [infillCalls]
          split
          · exact hcom
          · rename_i lines hf
            refine leads_append (leads_append hcom (leads_each fun c hc => ?_)) (ih fun q hq => h q (List.mem_cons_of_mem _ hq))
            obtain ⟨path, hpath, rfl⟩ := List.mem_map.1 hc
            exact leads_line hl (.infill hk hp (h part List.mem_cons_self) hf hpath) _
      exact key parts fun _ h => h

theorem leads_draws (hl : layers[n]? = some l) (m : Int) :
    Leads crossing flow (SpeedOf flow lib o pt layers) (DrawsAt o flow n o.print.layerSpeed) (DrawsAt o flow n (fillSpeed o l))
      (layerDraws lib o pt m n l) := by
  unfold layerDraws drawingRenderers
  simp only [List.flatMap_cons, List.flatMap_nil, List.append_nil]
  refine leads_append (leads_skirt hl m) (leads_append (leads_brim hl m) (leads_append (leads_perimeters hl m) ?_))
  refine leads_append (leads_infill hl m (by simp [infillKinds]) _) (leads_append (leads_infill hl m (by simp [infillKinds]) _)
    (leads_append (leads_infill hl m (by simp [infillKinds]) _) (leads_append (leads_infill hl m (by simp [infillKinds]) _)
      (leads_infill hl m (by simp [infillKinds]) _))))

/-- What is in force before the calls of layer `n`. -/
def BeforeLayer (o : Options) (flow : Int → Int → ℚ) (n : Nat) (s : Settings) : Prop :=
  Before o flow n s ∧ (n = 0 → s.extrudeSpeed = truncZ o.print.layerSpeed)

theorem leads_inner (hl : layers[n]? = some l) (m : Int) :
    Leads crossing flow (SpeedOf flow lib o pt layers) (BeforeLayer o flow n) (BeforeLayer o flow (n + 1)) (innerCalls lib o pt m n l) := by
  intro p hi hm
  have hend := (fold_inner (crossing := crossing) (lib := lib) (pt := pt) (m := m) (l := l) p hi.1).1
  refine ⟨⟨by unfold Before; rw [if_neg (by omega)]; exact hend, by omega⟩, ?_⟩
  obtain ⟨h, h'⟩ := hi
  unfold Before at h
  unfold innerCalls
  rw [List.foldl_append, List.foldl_append, fold_common]
  by_cases h0 : n = 0
  · subst h0
    rw [if_pos rfl] at h
    exact (leads_draws hl m p ⟨h, h' rfl⟩ hm).2
  · rw [if_neg h0] at h
    rw [if_neg h0]
    by_cases h1 : n = 1
    · subst h1
      apply And.right
      apply leads_draws (flow := flow) hl m
      · refine ⟨⟨h.move, rfl, .inl rfl, h.retraction, ?_⟩, rfl⟩
        simp [Plan.call, thicknessOf]
      · exact hm
    · rw [if_neg h1]
      apply And.right
      apply leads_draws (flow := flow) hl m
      · refine ⟨⟨h.move, by simp [h0], .inl rfl, h.retraction, ?_⟩, rfl⟩
        have := h.flow
        have e : thicknessOf o n = thicknessOf o (n - 1) := by unfold thicknessOf; rw [if_neg h0, if_neg (by omega)]
        rw [e]
        exact this
      · exact hm

theorem leads_print : Moving (SpeedOf flow lib o pt layers) none (plan crossing flow (printCalls lib o pt layers)).requests := by
  have key : ∀ (ls : List Layer) (k : Nat) (m : Int), (∀ i l, ls[i]? = some l → layers[k + i]? = some l) →
      Leads crossing flow (SpeedOf flow lib o pt layers) (BeforeLayer o flow k) (fun _ => True)
        ((ls.zipIdx k).flatMap fun x => innerCalls lib o pt m x.2 x.1) := by
    intro ls
    induction ls with
    | nil => intro k m _ p _ hm; exact ⟨trivial, hm⟩
    | cons l ls ih =>
      intro k m h
      rw [List.zipIdx_cons, List.flatMap_cons]
      refine leads_append (leads_inner (h 0 l rfl) m) (ih (k + 1) m fun i x hx => ?_)
      have := h (i + 1) x (by simpa using hx)
      rwa [show k + 1 + i = k + (i + 1) by omega]
  unfold plan printCalls
  rw [List.foldl_append]
  refine (key layers 0 _ (fun i x hx => by rwa [Nat.zero_add]) _ ?_ ?_).2
  · refine ⟨?_, fun _ => rfl⟩
    unfold Before
    rw [if_pos rfl]
    exact ⟨rfl, rfl, .inl rfl, ⟨rfl, rfl, rfl⟩, rfl⟩
  · trivial

variable {g0 : Builder} {t : Str}

/-- **C116** The speed of every move of a print: a move without filament has the travel speed; a move with filament which stands still has the
retraction speed; any other one is a line of a path of a layer and has exactly the speed which belongs to its kind: outer walls the speed for outer
walls, inner walls, brim and skirt the layer speed, infill and support the speed of the wall drawn before (C76), all of them the speed for the
first layer there. -/
theorem C116_speeds (hne : layers ≠ []) (h : (generateScripts crossing o (standardRenderers lib o pt) layers g0).2 = (t, none)) :
    ∃ body m moves, t = startText o ++ body ++ endText o ∧ run body = some (m, moves) ∧
      (∀ line ∈ moves, line.hasE = false → Moves line.after (truncZ o.print.moveSpeed)) ∧
      ∀ (k : Nat) before line, moves[k]? = some before → moves[k + 1]? = some line → line.hasE = true →
        (before.after.x = line.after.x ∧ before.after.y = line.after.y ∧ before.after.z = line.after.z ∧
          Moves line.after (truncZ o.filament.retractionSpeed)) ∨
        ∃ n l isOpen path speed a b, layers[n]? = some l ∧ PrintedWith lib o pt n l isOpen path speed ∧
          (a, b) ∈ pathLines isOpen (douglasPeuckerM path (-1)) ∧ At before.after a (layerHeight o n) ∧ At line.after b (layerHeight o n) ∧
          Moves line.after (lineSpeed o n speed) := by
  obtain ⟨g, ht, hb⟩ := print_body hne h
  obtain ⟨m1, m2⟩ := moving_moves (leads_print (crossing := crossing) (flow := flowOf o.filament.filamentDiameter o.filament.extrusionMultiplier)
    (lib := lib) (o := o) (pt := pt) (layers := layers))
  refine ⟨g.buf, _, _, ht, C18_refines harmless_print hb, fun line hl he => ?_, fun k before line hbe hl he => ?_⟩
  · have key : ∀ v r, SpeedOf (flowOf o.filament.filamentDiameter o.filament.extrusionMultiplier) lib o pt layers v r → (r.extrusion = 0 → r.speed = truncZ o.print.moveSpeed) := by
      rintro v r (⟨-, h⟩ | ⟨h, -⟩ | ⟨h, -⟩) h0
      exacts [h, absurd h0 h, absurd h0 h]
    obtain ⟨k, hk⟩ := List.mem_iff_getElem?.1 hl
    cases k with
    | zero =>
      obtain ⟨r, h1, -, h2, h3⟩ := m1 line hk
      rw [he] at h2
      rwa [key _ r h1 (by simpa using h2.symm)] at h3
    | succ k =>
      obtain ⟨hlt, -⟩ := List.getElem?_eq_some_iff.1 hk
      obtain ⟨v, r, -, h1, -, -, h2, h3, -⟩ := m2 k _ line (List.getElem?_eq_getElem (by omega)) hk
      rw [he] at h2
      rwa [key _ r h1 (by simpa using h2.symm)] at h3
  · obtain ⟨v, r, -, h1, h2, h3, h4, h5, -⟩ := m2 k before line hbe hl
    rw [he] at h4
    have hr : r.extrusion ≠ 0 := by simpa using h4.symm
    rcases h1 with ⟨h1, -⟩ | ⟨-, h1, h6, -⟩ | ⟨-, n, l, isOpen, path, speed, a, b, e1, e2, e3, e4, e5, e6, -⟩
    · exact absurd h1 hr
    · have h1 : v = r.target := h1
      subst h1
      rw [h6] at h5
      exact .inl ⟨h2.1.trans h3.1.symm, h2.2.1.trans h3.2.1.symm, h2.2.2.trans h3.2.2.symm, h5⟩
    · obtain rfl := Option.some.inj e4
      rw [e5] at h3
      rw [e6] at h5
      exact .inr ⟨n, l, isOpen, path, speed, a, b, e1, e2, e3, h2, h3, h5⟩

end

/-- Non-vacuity: a side of the square is printed, with the default speed for the first layer (30 mm/s). -/
example : ∃ t body m moves, t = startText {} ++ body ++ endText {} ∧ run body = some (m, moves) ∧
    ∃ (k : Nat) (before line : Move), moves[k]? = some before ∧ moves[k + 1]? = some line ∧ At before.after ⟨10000, 0⟩ 200 ∧
      At line.after ⟨10000, 10000⟩ 200 ∧ line.hasE = true ∧ line.after.f = some 1800 := by
  have hs : (generateScripts (fun _ _ => (false, true)) {} (standardRenderers wallLib {} ⟨none, none, none, none, none⟩) [squareLayer] (newBuilder 0 0)).2.2 =
      none := by decide +kernel
  have hs' : (generateScripts (fun _ _ => (false, true)) {} (standardRenderers wallLib {} ⟨none, none, none, none, none⟩) [squareLayer] (newBuilder 0 0)).2 =
      ((generateScripts (fun _ _ => (false, true)) {} (standardRenderers wallLib {} ⟨none, none, none, none, none⟩) [squareLayer] (newBuilder 0 0)).2.1, none) :=
    Prod.ext rfl hs
  obtain ⟨body, m, moves, h1, h2, h3⟩ := C111_printed extrudes_default (by simp) hs'
  obtain ⟨body', m', moves', g1, g2, -, g3⟩ := C116_speeds (by simp) hs'
  have hbody : body = body' := by
    have := h1.symm.trans g1
    rw [List.append_assoc, List.append_assoc] at this
    exact List.append_cancel_right (List.append_cancel_left this)
  subst hbody
  rw [g2] at h2
  obtain ⟨rfl, rfl⟩ := Prod.ext_iff.1 (Option.some.inj h2)
  have hw' : squareLayer.perimeters = .ok [[[⟨[⟨0, 0⟩, ⟨10000, 0⟩, ⟨10000, 10000⟩, ⟨0, 10000⟩], []⟩]]] := rfl
  obtain ⟨⟨walls, hw, hp⟩, -⟩ := h3 0 squareLayer rfl
  rw [hw'] at hw
  have hw := Except.ok.inj hw
  subst hw
  obtain ⟨k, before, line, p1, p2, p3, -, p5, p6⟩ := hp _ (List.mem_singleton.2 rfl) [⟨0, 0⟩, ⟨10000, 0⟩, ⟨10000, 10000⟩, ⟨0, 10000⟩] (by simp)
    ⟨10000, 0⟩ ⟨10000, 10000⟩ (by decide +kernel) (by decide) (by decide) (by decide)
  refine ⟨_, body, m', moves', g1, g2, k, before, line, p1, p2, p3, p6, p5, ?_⟩
  rcases g3 k before line p1 p2 p5 with ⟨-, hy, -⟩ | ⟨n, l, isOpen, path, speed, a, b, e1, -, -, -, -, e6⟩
  · have := (p3.2.1.symm.trans hy).trans p6.2.1
    exact absurd this (by decide +kernel)
  · cases n with
    | succ n => simp at e1
    | zero =>
      have hl : lineSpeed {} 0 speed = 30 := by
        have : truncZ ({} : Options).print.initialLayerSpeed = 30 := by decide +kernel
        simp [lineSpeed, this]
      rw [hl] at e6
      rcases e6 with e6 | ⟨e6, -⟩
      · rw [e6]; norm_num
      · norm_num at e6

-- outer walls, inner walls and the lines after them
example : fillSpeed {} squareLayer = ({} : Options).print.outerPerimeterSpeed := rfl
example : lineSpeed {} 1 ({} : Options).print.outerPerimeterSpeed = 40 ∧ lineSpeed {} 1 ({} : Options).print.layerSpeed = 60 := by decide +kernel

end Verif
