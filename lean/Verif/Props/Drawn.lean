import Verif.Props.Print
import Verif.Props.Volume
import Verif.Spec.Drawn

/-! # C111: everything is printed -/
namespace Verif
open Verif.Go Verif.Model Verif.Spec Verif.Spec.GCode

/-! ## From requests to moves -/

theorem effect_last {rs : List Request} (h : rs ≠ []) : ∃ ms m, (effect rs).2 = ms ++ [m] ∧ m.after = (effect rs).1.machine := by
  induction rs using List.reverseRecOn with
  | nil => exact absurd rfl h
  | append_singleton rs r ih =>
    rw [effect_append]
    unfold effectStep
    split
    · rename_i hu
      refine ih ?_
      rintro rfl
      simp [Head.useless, effect] at hu
    · exact ⟨_, _, rfl, rfl⟩

theorem effectStep_prefix (st : Head × List Move) (r : Request) : st.2 <+: (effectStep st r).2 := by
  unfold effectStep
  split
  · exact List.prefix_refl _
  · exact List.prefix_append _ _

theorem effect_prefix (xs ys : List Request) : (effect xs).2 <+: (effect (xs ++ ys)).2 := by
  unfold effect
  rw [List.foldl_append]
  generalize xs.foldl effectStep ({}, []) = st
  induction ys generalizing st with
  | nil => exact List.prefix_refl _
  | cons r ys ih => exact (effectStep_prefix st r).trans (ih _)

theorem machine_at {h : Head} {p : Pt} {z : Int} (hp : h.pos = some ⟨p.x, p.y, z⟩) : At h.machine p z := by
  simp [At, Head.machine, hp]

/-- An extruding request leads to a printed line from the target of the request before. -/
theorem printed_of_requests (xs ys : List Request) (q r : Request) {z : Int} {a b : Pt} (hq : q.target = ⟨a.x, a.y, z⟩) (hr : r.target = ⟨b.x, b.y, z⟩)
    (he : r.extrusion ≠ 0) : Printed (effect (xs ++ [q, r] ++ ys)).2 z a b := by
  obtain ⟨ms, m, h1, h2⟩ := effect_last (rs := xs ++ [q]) (by simp)
  obtain ⟨tail, ht⟩ := effect_prefix (xs ++ [q, r]) ys
  have e : xs ++ [q, r] = (xs ++ [q]) ++ [r] := by simp
  have hu : (effect (xs ++ [q])).1.useless r = false := by simp [Head.useless, he]
  rw [← ht, e, effect_append, effectStep, hu]
  simp only [Bool.false_eq_true, if_false, h1]
  refine ⟨ms.length, m, ⟨decide (r.extrusion ≠ 0), decide (r.extrusion ≠ 0), ((effect (xs ++ [q])).1.after r).machine⟩, ?_, ?_, ?_, ?_, ?_, ?_⟩
  · simp
  · simp
  · rw [h2]
    exact machine_at (by rw [effect_pos]; simp [hq])
  · simp [he]
  · simp [he]
  · exact machine_at (by simp [Head.after, hr])

/-! ## From paths to requests -/

theorem approach_last (s : Settings) (c : Bool) (last : Vec3) (p0 : Pt) (z : Int) :
    ∃ xs q, s.approach c last p0 z = xs ++ [q] ∧ q.target = ⟨p0.x, p0.y, z⟩ := by
  unfold Settings.approach
  split
  · split
    · exact ⟨[_, _, _, _], _, rfl, rfl⟩
    · exact ⟨[_, _], _, rfl, rfl⟩
  · exact ⟨[], _, rfl, rfl⟩

/-- The lines of a path, each with the line (or the approach) before it. -/
theorem lines_requests (s : Settings) (z : Int) (rest : Path) : ∀ (p0 : Pt) (q : Request), q.target = ⟨p0.x, p0.y, z⟩ →
    ∀ ab ∈ (p0 :: rest).zip rest, ∃ xs ys q' r, q :: s.lines z p0 rest = xs ++ [q', r] ++ ys ∧ q'.target = ⟨ab.1.x, ab.1.y, z⟩ ∧
      r = s.move ⟨ab.2.x, ab.2.y, z⟩ (s.filament ab.1 ab.2) := by
  induction rest with
  | nil => simp
  | cons b rest ih =>
    intro p0 q hq ab hab
    rw [List.zip_cons_cons, List.mem_cons] at hab
    rcases hab with rfl | hab
    · exact ⟨[], s.lines z b rest, q, _, rfl, hq, rfl⟩
    · obtain ⟨xs, ys, q', r, h1, h2, h3⟩ := ih b (s.move ⟨b.x, b.y, z⟩ (s.filament p0 b)) rfl ab hab
      refine ⟨q :: xs, ys, q', r, ?_, h2, h3⟩
      rw [Settings.lines, h1]
      simp

theorem lines_append (s : Settings) (z : Int) (rest : Path) : ∀ (p0 : Pt) (c : Pt),
    s.lines z p0 rest ++ [s.move ⟨c.x, c.y, z⟩ (s.filament (rest.getLastD p0) c)] = s.lines z p0 (rest ++ [c]) := by
  induction rest with
  | nil => intro p0 c; rfl
  | cons b rest ih =>
    intro p0 c
    have := ih b c
    rw [List.cons_append, Settings.lines, Settings.lines, ← this, List.getLastD_cons, List.cons_append]

theorem zip_longer {α : Type} (p : α) (rest ys : List α) (h : ys.length ≤ 1) : (p :: rest).zip (rest ++ ys) = (p :: (rest ++ ys)).zip (rest ++ ys) := by
  induction rest generalizing p with
  | nil =>
    cases ys with
    | nil => rfl
    | cons y ys =>
      have : ys = [] := List.length_eq_zero_iff.1 (by simp only [List.length_cons] at h; omega)
      subst this
      rfl
  | cons b rest ih => rw [List.cons_append, List.zip_cons_cons, List.zip_cons_cons, ih b]

/-- All lines of a path are requested. -/
theorem draw_requests (s : Settings) (c : Bool) (last : Vec3) (p0 : Pt) (rest : Path) (z : Int) (isOpen : Bool) :
    ∀ ab ∈ pathLines isOpen (p0 :: rest), ∃ xs ys q r, s.draw c last p0 rest z isOpen = xs ++ [q, r] ++ ys ∧ q.target = ⟨ab.1.x, ab.1.y, z⟩ ∧
      r = s.move ⟨ab.2.x, ab.2.y, z⟩ (s.filament ab.1 ab.2) := by
  intro ab hab
  obtain ⟨pre, q, h1, hq⟩ := approach_last s c last p0 z
  have e : s.draw c last p0 rest z isOpen = pre ++ (q :: s.lines z p0 (rest ++ if isOpen then [] else [p0])) := by
    unfold Settings.draw
    rw [h1]
    cases isOpen with
    | true => simp
    | false =>
      rw [if_neg (by simp), if_neg (by simp), ← lines_append]
      simp [Settings.closing]
  rw [pathLines, zip_longer _ _ _ (by split <;> simp)] at hab
  obtain ⟨xs, ys, q', r, h2, h3, h4⟩ := lines_requests s z _ p0 q hq ab hab
  refine ⟨pre ++ xs, ys, q', r, ?_, h3, h4⟩
  rw [e, h2]
  simp

/-! ## From calls to requests -/

section
variable {crossing : List LayerPart → Path → Bool × Bool} {flow : Int → Int → ℚ} {lib : ClipperLib} {o : Options} {pt : Patterns}

theorem call_prefix (p : Plan) (c : Call) : p.requests <+: (p.call crossing flow c).requests := by
  cases c <;> first | exact List.prefix_refl _ | exact List.prefix_append _ _

theorem calls_prefix (cs : List Call) : ∀ p : Plan, p.requests <+: (cs.foldl (Plan.call crossing flow) p).requests := by
  induction cs with
  | nil => intro p; exact List.prefix_refl _
  | cons c cs ih => intro p; exact (call_prefix p c).trans (ih _)

theorem plan_polygon (A B : List Call) (lay : Option (List LayerPart)) (path : Path) (z : Int) (isOpen : Bool) :
    ∃ xs ys, (plan crossing flow (A ++ .polygon lay path z isOpen :: B)).requests = xs ++ (plan crossing flow A).polygon crossing lay path z isOpen ++ ys := by
  obtain ⟨ys, hy⟩ := calls_prefix (crossing := crossing) (flow := flow) B ((plan crossing flow A).call crossing flow (.polygon lay path z isOpen))
  refine ⟨(plan crossing flow A).requests, ys, ?_⟩
  have e : plan crossing flow (A ++ .polygon lay path z isOpen :: B) =
      B.foldl (Plan.call crossing flow) ((plan crossing flow A).call crossing flow (.polygon lay path z isOpen)) := by simp [plan]
  rw [e, ← hy]
  rfl

/-- The settings before the first drawing call of a layer. -/
theorem fold_opening {n : Nat} (p : Plan) (h : Before o flow n p.settings) :
    LayerSettings o flow n ((((if n = 1 then [Call.setExtrusion o.print.layerThickness o.printer.extrusionWidth] else []) ++
      preLayerCommon o n).foldl (Plan.call crossing flow) p)).settings := by
  rw [List.foldl_append, fold_common]
  unfold Before at h
  by_cases h0 : n = 0
  · subst h0
    rw [if_pos rfl] at h
    exact h
  · rw [if_neg h0] at h
    rw [if_neg h0]
    by_cases h1 : n = 1
    · subst h1
      refine ⟨h.move, rfl, .inl rfl, h.retraction, ?_⟩
      simp [Plan.call, thicknessOf]
    · rw [if_neg h1]
      refine ⟨h.move, by simp [h0], .inl rfl, h.retraction, ?_⟩
      have e : thicknessOf o n = thicknessOf o (n - 1) := by unfold thicknessOf; rw [if_neg h0, if_neg (by omega)]
      rw [e]
      exact h.flow

theorem fold_before {m : Int} (ls : List Layer) : ∀ (k : Nat) (p : Plan), Before o flow k p.settings →
    Before o flow (k + ls.length) (((ls.zipIdx k).flatMap fun x => innerCalls lib o pt m x.2 x.1).foldl (Plan.call crossing flow) p).settings := by
  induction ls with
  | nil => intro k p h; exact h
  | cons l ls ih =>
    intro k p h
    obtain ⟨hs, -⟩ := fold_inner (crossing := crossing) (lib := lib) (pt := pt) (m := m) (l := l) p h
    rw [List.zipIdx_cons, List.flatMap_cons, List.foldl_append, List.length_cons, show k + (ls.length + 1) = k + 1 + ls.length by omega]
    refine ih (k + 1) _ ?_
    unfold Before
    rw [if_neg (by omega)]
    exact hs

/-- The requests for a drawing call of layer `n` are among those of the print, and the settings are those of the layer. -/
theorem polygon_requests {layers : List Layer} {n : Nat} {l : Layer} (hl : layers[n]? = some l) {lay : Option (List LayerPart)} {path : Path} {z : Int} {isOpen : Bool}
    (hc : Call.polygon lay path z isOpen ∈ layerDraws lib o pt (layers.length - 1) n l) :
    ∃ (p : Plan) (xs ys : List Request), LayerSettings o flow n p.settings ∧
      (plan crossing flow (printCalls lib o pt layers)).requests = xs ++ p.polygon crossing lay path z isOpen ++ ys := by
  obtain ⟨hn, hl⟩ := List.getElem?_eq_some_iff.1 hl
  obtain ⟨D1, D2, hD⟩ := List.append_of_mem hc
  have e : layers = layers.take n ++ l :: layers.drop (n + 1) := by
    rw [← hl, List.getElem_cons_drop, List.take_append_drop]
  have hlen : (layers.take n).length = n := by simp; omega
  have h0 : Before o flow 0 ((preLayerSettings o).foldl (Plan.call crossing flow) {}).settings := by
    unfold Before
    rw [if_pos rfl]
    exact ⟨rfl, rfl, .inl rfl, ⟨rfl, rfl, rfl⟩, rfl⟩
  have h1 := fold_before (crossing := crossing) (lib := lib) (pt := pt) (m := layers.length - 1) (layers.take n) 0 _ h0
  rw [hlen, Nat.zero_add] at h1
  have h2 := fold_opening (crossing := crossing) _ h1
  obtain ⟨h3, -⟩ := fold_draw (crossing := crossing) D1 _ h2 (fun c hc => layerDraws_drawCall lib o pt (layers.length - 1) n l c (by rw [hD]; simp [hc]))
  have hcalls : printCalls lib o pt layers =
      (preLayerSettings o ++ (((layers.take n).zipIdx 0).flatMap fun x => innerCalls lib o pt (layers.length - 1) x.2 x.1) ++
        ((if n = 1 then [Call.setExtrusion o.print.layerThickness o.printer.extrusionWidth] else []) ++ preLayerCommon o n) ++ D1) ++
      Call.polygon lay path z isOpen :: (D2 ++ ((layers.drop (n + 1)).zipIdx (n + 1)).flatMap fun x => innerCalls lib o pt (layers.length - 1) x.2 x.1) := by
    have hz : layers.zipIdx = (layers.take n).zipIdx 0 ++ (l, n) :: (layers.drop (n + 1)).zipIdx (n + 1) := by
      conv_lhs => rw [e]
      rw [List.zipIdx_append, hlen, List.zipIdx_cons, Nat.zero_add]
    unfold printCalls
    rw [hz, List.flatMap_append, List.flatMap_cons]
    simp only [innerCalls, hD]
    simp
  refine ⟨plan crossing flow (preLayerSettings o ++ (((layers.take n).zipIdx 0).flatMap fun x => innerCalls lib o pt (layers.length - 1) x.2 x.1) ++
        ((if n = 1 then [Call.setExtrusion o.print.layerThickness o.printer.extrusionWidth] else []) ++ preLayerCommon o n) ++ D1), ?_⟩
  obtain ⟨xs, ys, h⟩ := plan_polygon (crossing := crossing) (flow := flow) (preLayerSettings o ++ (((layers.take n).zipIdx 0).flatMap fun x => innerCalls lib o pt (layers.length - 1) x.2 x.1) ++
        ((if n = 1 then [Call.setExtrusion o.print.layerThickness o.printer.extrusionWidth] else []) ++ preLayerCommon o n) ++ D1)
        (D2 ++ ((layers.drop (n + 1)).zipIdx (n + 1)).flatMap fun x => innerCalls lib o pt (layers.length - 1) x.2 x.1) lay path z isOpen
  refine ⟨xs, ys, ?_, by rw [hcalls, h]⟩
  unfold plan
  simp only [List.foldl_append] at h3 ⊢
  exact h3

end

/-! ## C111 -/

/-- The options with which each line that is not a single point needs filament. -/
structure Extrudes (o : Options) : Prop where
  diameter : 1 ≤ o.filament.filamentDiameter ∧ o.filament.filamentDiameter ≤ 10 ^ 6
  multiplier : 1 ≤ o.filament.extrusionMultiplier
  initial : 1 ≤ o.print.initialLayerThickness ∧ o.print.initialLayerThickness ≤ 2 ^ 53
  thickness : 1 ≤ o.print.layerThickness ∧ o.print.layerThickness ≤ 2 ^ 53
  width : 1 ≤ o.printer.extrusionWidth ∧ o.printer.extrusionWidth ≤ 2 ^ 53

theorem filament_pos {o : Options} (ho : Extrudes o) {n : Nat} {s : Settings}
    (hs : LayerSettings o (flowOf o.filament.filamentDiameter o.filament.extrusionMultiplier) n s) {a b : Pt} (hne : a ≠ b)
    (hx : |b.x - a.x| ≤ 2 ^ 53) (hy : |b.y - a.y| ≤ 2 ^ 53) : s.filament a b ≠ 0 := by
  have ht : 1 ≤ thicknessOf o n ∧ thicknessOf o n ≤ 2 ^ 53 := by
    unfold thicknessOf
    split
    · exact ho.initial
    · exact ho.thickness
  have h := C28_volume ho.diameter ho.multiplier ht ho.width s hs.flow a b hne hx hy
  intro h0
  simp only [h0] at h
  have hl : 0 < euclid2 (b.x - a.x) (b.y - a.y) := by
    unfold euclid2
    apply Real.sqrt_pos.2
    by_contra hc
    have h1 : ((b.x - a.x : Int) : ℝ) ^ 2 + ((b.y - a.y : Int) : ℝ) ^ 2 ≤ 0 := not_lt.1 hc
    have h2 := sq_nonneg ((b.x - a.x : Int) : ℝ)
    have h3 := sq_nonneg ((b.y - a.y : Int) : ℝ)
    have h4 : ((b.x - a.x : Int) : ℝ) = 0 := pow_eq_zero_iff (two_ne_zero) |>.1 (by linarith)
    have h5 : ((b.y - a.y : Int) : ℝ) = 0 := pow_eq_zero_iff (two_ne_zero) |>.1 (by linarith)
    have h6 : b.x - a.x = 0 := by exact_mod_cast h4
    have h7 : b.y - a.y = 0 := by exact_mod_cast h5
    apply hne
    cases a; cases b
    simp only [Pt.mk.injEq] at *
    omega
  have hv : 0 < euclid2 (b.x - a.x) (b.y - a.y) / 1000 * ((thicknessOf o n : ℝ) / 1000) * ((o.printer.extrusionWidth : ℝ) / 1000) *
      ((o.filament.extrusionMultiplier : ℝ) / 100) := by
    have h1 : (0 : ℝ) < thicknessOf o n := by exact_mod_cast (by omega : 0 < thicknessOf o n)
    have h2 : (0 : ℝ) < o.printer.extrusionWidth := by exact_mod_cast (by have := ho.width; omega : 0 < o.printer.extrusionWidth)
    have h3 : (0 : ℝ) < o.filament.extrusionMultiplier := by exact_mod_cast (by have := ho.multiplier; omega : 0 < o.filament.extrusionMultiplier)
    positivity
  rw [Rat.cast_zero, zero_mul, zero_sub, abs_neg, abs_of_pos hv] at h
  linarith

section
variable {lib : ClipperLib} {o : Options} {pt : Patterns} {layers : List Layer} {g0 : Builder} {t : Str}
variable {crossing : List LayerPart → Path → Bool × Bool}

/-- All lines of a path are printed at the height of layer `n`, apart from those of length 0. (Lines longer than 9000 km are not considered.)
The path is simplified before (C05, C06, C74). -/
def PathPrinted (o : Options) (moves : List Move) (n : Nat) (isOpen : Bool) (path : Path) : Prop :=
  ∀ a b, (a, b) ∈ pathLines isOpen (douglasPeuckerM path (-1)) → a ≠ b → |b.x - a.x| ≤ 2 ^ 53 → |b.y - a.y| ≤ 2 ^ 53 →
    Printed moves (layerHeight o n) a b

/-- **C111** Everything the renderers draw is printed: for each line of each (simplified) path drawn for layer `n`, there is in the text a move which
extrudes from its first to its last point, at the height of the layer. -/
theorem C111_drawn (ho : Extrudes o) (hne : layers ≠ []) (h : (generateScripts crossing o (standardRenderers lib o pt) layers g0).2 = (t, none)) :
    ∃ body m moves, t = startText o ++ body ++ endText o ∧ run body = some (m, moves) ∧
      ∀ n l, layers[n]? = some l → ∀ lay path z isOpen, Call.polygon lay path z isOpen ∈ layerDraws lib o pt (layers.length - 1) n l →
        PathPrinted o moves n isOpen path := by
  obtain ⟨g, ht, hb⟩ := print_body hne h
  refine ⟨g.buf, _, _, ht, C18_refines harmless_print hb, fun n l hl lay path z isOpen hc a b hab hne hx hy => ?_⟩
  · have hz : z = layerHeight o n := layerDraws_drawCall lib o pt _ n l _ hc
    subst hz
    obtain ⟨p, xs, ys, hs, hr⟩ := polygon_requests (crossing := crossing) (flow := flowOf o.filament.filamentDiameter o.filament.extrusionMultiplier) hl hc
    rw [hr]
    unfold Plan.polygon
    cases hd : douglasPeuckerM path (-1) with
    | nil => rw [hd] at hab; simp [pathLines] at hab
    | cons p0 rest =>
      rw [hd] at hab
      obtain ⟨xs', ys', q, r, h1, h2, h3⟩ := draw_requests p.settings (p.retracts crossing lay p0) p.last p0 rest (layerHeight o n) isOpen (a, b) hab
      simp only [h1]
      rw [show xs ++ (xs' ++ [q, r] ++ ys') ++ ys = (xs ++ xs') ++ [q, r] ++ (ys' ++ ys) by simp]
      refine printed_of_requests _ _ q r h2 (by rw [h3]; rfl) ?_
      rw [h3]
      exact filament_pos ho hs hne hx hy

/-- The patterns and the attributes with the areas to which they are applied. -/
def infillKinds (pt : Patterns) : List (Option Pattern × String) :=
  [(pt.support, "support"), (pt.supportInterface, "supportInterface"), (pt.bottom, "bottom"), (pt.top, "top"), (pt.infill, "infill")]

theorem infillCalls_all {comments : List Str} {fill : Pattern} {n : Nat} {l : Layer} {z : Int} {parts : List LayerPart}
    (h : (infillCalls comments fill n l z parts).fault = none) : ∀ part ∈ parts, ∃ lines, fill n part = .ok lines ∧
      ∀ path ∈ lines, Call.polygon (some l.parts) path z true ∈ (infillCalls comments fill n l z parts).calls := by
  induction parts with
  | nil => simp
  | cons p ps ih =>
    intro part hpart
    simp only [infillCalls] at h ⊢
    cases hf : fill n p with
    | error e => rw [hf] at h; cases h
    | ok lines =>
      rw [hf] at h
      simp only at h ⊢
      rcases List.mem_cons.1 hpart with rfl | hpart
      · refine ⟨lines, hf, fun path hp => ?_⟩
        rw [List.mem_append, List.mem_append]
        exact .inl (.inr (List.mem_map_of_mem hp))
      · obtain ⟨lines', h1, h2⟩ := ih h part hpart
        exact ⟨lines', h1, fun path hp => List.mem_append_right _ (h2 path hp)⟩

theorem no_fault (h : (generateScripts crossing o (standardRenderers lib o pt) layers g0).2 = (t, none)) {n : Nat} {l : Layer} (hl : layers[n]? = some l)
    {r : Scripts} (hr : r ∈ drawingRenderers lib o pt) : (r n (layers.length - 1) l (layerHeight o n)).fault = none := by
  refine (C30_scripts.1 h).1 _ (List.mem_flatMap.2 ⟨(l, n), ?_, List.mem_map.2 ⟨r, by simp [standardRenderers, hr], rfl⟩⟩)
  rw [List.mem_zipIdx_iff_getElem?]
  exact hl

/-- **C111** All contours of the perimeters, the brim, the skirt, and all lines of the patterns are printed, in their layer. -/
theorem C111_printed (ho : Extrudes o) (hne : layers ≠ []) (h : (generateScripts crossing o (standardRenderers lib o pt) layers g0).2 = (t, none)) :
    ∃ body m moves, t = startText o ++ body ++ endText o ∧ run body = some (m, moves) ∧ ∀ n l, layers[n]? = some l →
      (∃ walls, l.perimeters = .ok walls ∧ ∀ p ∈ walls.flatten.flatten, ∀ contour ∈ p.holes ++ [p.outline], PathPrinted o moves n false contour) ∧
      (∃ brim, l.brim = .ok brim ∧ ∀ p ∈ brim.flatten.flatten, PathPrinted o moves n false p.outline) ∧
      (∀ fill name, (some fill, name) ∈ infillKinds pt → ∃ parts, l.partsAttribute name = .ok parts ∧ ∀ part ∈ parts,
        ∃ lines, fill n part = .ok lines ∧ ∀ path ∈ lines, PathPrinted o moves n true path) ∧
      (n = 0 → o.print.brimSkirt.skirtCount ≠ 0 → ∃ walls support, l.perimeters = .ok walls ∧ l.fullSupport = .ok support ∧
        (¬ (support = [] ∧ walls = []) → ∀ p ∈ (skirtLines lib o support walls).flatten, PathPrinted o moves n false p.outline)) := by
  obtain ⟨body, m, moves, h1, h2, h3⟩ := C111_drawn ho hne h
  refine ⟨body, m, moves, h1, h2, fun n l hl => ⟨?_, ?_, ?_, ?_⟩⟩
  · have hf := no_fault h hl (r := perimeterRenderer o) (by simp [drawingRenderers])
    cases hw : l.perimeters with
    | error e => simp [perimeterRenderer, hw] at hf
    | ok walls =>
      refine ⟨walls, rfl, fun p hp contour hc => ?_⟩
      have hm := (C36_each_once o n (layers.length - 1) l (layerHeight o n) walls hw).mem_iff.2 (List.mem_flatMap.2 ⟨p, hp, hc⟩)
      obtain ⟨c, hc, hpoly⟩ := List.mem_filterMap.1 hm
      cases c with
      | polygon lay path z isOpen =>
        cases hpoly
        have hopen : isOpen = false := noInfill_walls lib o n (layers.length - 1) l (layerHeight o n) _ (List.mem_append_right _ hc)
        subst hopen
        exact h3 n l hl lay _ z false (List.mem_flatMap.2 ⟨perimeterRenderer o, by simp [drawingRenderers], hc⟩)
      | _ => cases hpoly
  · have hf := no_fault h hl (r := brimRenderer) (by simp [drawingRenderers])
    cases hb : l.brim with
    | error e => simp [brimRenderer, hb] at hf
    | ok brim =>
      refine ⟨brim, rfl, fun p hp => ?_⟩
      refine h3 n l hl none _ (layerHeight o n) false (List.mem_flatMap.2 ⟨brimRenderer, by simp [drawingRenderers], ?_⟩)
      cases brim with
      | nil => simp at hp
      | cons b bs =>
        simp only [brimRenderer, hb]
        rw [brim_calls]
        exact List.mem_cons_of_mem _ (List.mem_map.2 ⟨p, hp, rfl⟩)
  · intro fill name hk
    have hr : ∃ comments, infillRenderer (some fill) name comments ∈ drawingRenderers lib o pt := by
      simp only [infillKinds, List.mem_cons, Prod.mk.injEq, List.not_mem_nil, or_false] at hk
      rcases hk with ⟨h1, rfl⟩ | ⟨h1, rfl⟩ | ⟨h1, rfl⟩ | ⟨h1, rfl⟩ | ⟨h1, rfl⟩ <;> rw [h1]
      · exact ⟨_, List.mem_of_getElem? (i := 3) rfl⟩
      · exact ⟨_, List.mem_of_getElem? (i := 4) rfl⟩
      · exact ⟨_, List.mem_of_getElem? (i := 5) rfl⟩
      · exact ⟨_, List.mem_of_getElem? (i := 6) rfl⟩
      · exact ⟨_, List.mem_of_getElem? (i := 7) rfl⟩
    obtain ⟨comments, hr⟩ := hr
    have hf := no_fault h hl hr
    cases hp : l.partsAttribute name with
    | error e => simp [infillRenderer, hp] at hf
    | ok parts =>
      refine ⟨parts, rfl, fun part hpart => ?_⟩
      simp only [infillRenderer, hp] at hf
      obtain ⟨lines, hl1, hl2⟩ := infillCalls_all hf part hpart
      refine ⟨lines, hl1, fun path hpath => h3 n l hl (some l.parts) path (layerHeight o n) true (List.mem_flatMap.2 ⟨infillRenderer (some fill) name comments, hr, ?_⟩)⟩
      simp only [infillRenderer, hp]
      exact hl2 path hpath
  · rintro rfl hs
    have hf := no_fault h hl (r := skirtRenderer lib o) (by simp [drawingRenderers])
    cases hw : l.perimeters with
    | error e => simp [skirtRenderer, hw, hs] at hf
    | ok walls =>
      cases hu : l.fullSupport with
      | error e => simp [skirtRenderer, hw, hu, hs] at hf
      | ok support =>
        refine ⟨walls, support, rfl, rfl, fun hn p hp => ?_⟩
        refine h3 0 l hl none _ (layerHeight o 0) false (List.mem_flatMap.2 ⟨skirtRenderer lib o, by simp [drawingRenderers], ?_⟩)
        simp only [skirtRenderer, if_neg hs, hw, hu, if_neg hn, if_true]
        obtain ⟨w, hw', hp'⟩ := List.mem_flatten.1 hp
        exact List.mem_cons_of_mem _ (List.mem_flatMap.2 ⟨w, hw', List.mem_map.2 ⟨p, hp', rfl⟩⟩)

end
/-! ## Examples -/

/-- The default options need filament for all lines. -/
theorem extrudes_default : Extrudes {} := ⟨by decide, by decide, by decide, by decide, by decide⟩

/-- A layer with one wall: a square of 10 mm. -/
def squareLayer : Layer :=
  ⟨[], some (AttrMap.insert (fun _ => none) "perimeters" (.offsetResult [[[⟨[⟨0, 0⟩, ⟨10000, 0⟩, ⟨10000, 10000⟩, ⟨0, 10000⟩], []⟩]]]))⟩

/-- A library for the example. -/
def wallLib : ClipperLib := ⟨fun _ _ _ => some [], fun _ _ _ => some [], fun _ _ => [], id⟩

/-- Non-vacuity: its side from (10, 0) to (10, 10) and the closing line are printed. -/
example : ∃ t body m moves, t = startText {} ++ body ++ endText {} ∧ run body = some (m, moves) ∧
    Printed moves 200 ⟨10000, 0⟩ ⟨10000, 10000⟩ ∧ Printed moves 200 ⟨0, 10000⟩ ⟨0, 0⟩ := by
  have hs : (generateScripts (fun _ _ => (false, true)) {} (standardRenderers wallLib {} ⟨none, none, none, none, none⟩) [squareLayer] (newBuilder 0 0)).2.2 =
      none := by decide +kernel
  obtain ⟨body, m, moves, h1, h2, h3⟩ := C111_printed (t := (generateScripts (fun _ _ => (false, true)) {}
    (standardRenderers wallLib {} ⟨none, none, none, none, none⟩) [squareLayer] (newBuilder 0 0)).2.1) extrudes_default (by simp) (Prod.ext rfl hs)
  obtain ⟨⟨walls, hw, hp⟩, -⟩ := h3 0 squareLayer rfl
  have hw' : squareLayer.perimeters = .ok [[[⟨[⟨0, 0⟩, ⟨10000, 0⟩, ⟨10000, 10000⟩, ⟨0, 10000⟩], []⟩]]] := rfl
  rw [hw'] at hw
  have hw := Except.ok.inj hw
  subst hw
  have hpath := hp _ (List.mem_singleton.2 rfl) [⟨0, 0⟩, ⟨10000, 0⟩, ⟨10000, 10000⟩, ⟨0, 10000⟩] (by simp)
  exact ⟨_, body, m, moves, h1, h2, hpath ⟨10000, 0⟩ ⟨10000, 10000⟩ (by decide +kernel) (by decide) (by decide) (by decide),
    hpath ⟨0, 10000⟩ ⟨0, 0⟩ (by decide +kernel) (by decide) (by decide) (by decide)⟩

end Verif
