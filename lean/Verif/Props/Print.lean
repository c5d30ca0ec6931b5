import Verif.Props.Renderers
import Verif.Props.BuilderMore
import Verif.Spec.Frame

/-! # C37, C77: the moves of a whole print -/
namespace Verif
open Verif.Go Verif.Model Verif.Spec Verif.Spec.GCode

/-! ## Calls without the custom G-code -/

/-- The calls of a layer between header and end G-code. -/
def innerCalls (lib : ClipperLib) (o : Options) (pt : Patterns) (m : Int) (n : Nat) (l : Layer) : List Call :=
  (if n = 1 then [.setExtrusion o.print.layerThickness o.printer.extrusionWidth] else []) ++ preLayerCommon o n ++ layerDraws lib o pt m n l

/-- All calls of a print besides those for start and end G-code. -/
def printCalls (lib : ClipperLib) (o : Options) (pt : Patterns) (layers : List Layer) : List Call :=
  preLayerSettings o ++ layers.zipIdx.flatMap fun x => innerCalls lib o pt (layers.length - 1) x.2 x.1

theorem bodies_eq (lib : ClipperLib) (o : Options) (pt : Patterns) (m : Int) (ls : List Layer) : ∀ k : Nat, ls ≠ [] → (m : Int) = k + ls.length - 1 →
    ((ls.zipIdx k).flatMap fun x => bodyCalls lib o pt m x.2 x.1) =
      ((ls.zipIdx k).flatMap fun x => innerCalls lib o pt m x.2 x.1) ++ postLayerEnd o := by
  induction ls with
  | nil => intro k h; exact absurd rfl h
  | cons l ls ih =>
    intro k _ hm
    rw [List.zipIdx_cons, List.flatMap_cons, List.flatMap_cons]
    cases ls with
    | nil =>
      have : (k : Int) = m := by simp at hm; omega
      simp [bodyCalls, innerCalls, postLayer, this]
    | cons l' ls =>
      rw [ih (k + 1) (by simp) (by simp at hm ⊢; omega)]
      have : ¬ (k : Int) = m := by simp at hm; omega
      simp [bodyCalls, innerCalls, postLayer, this]

theorem allCalls_print (lib : ClipperLib) (o : Options) (pt : Patterns) {layers : List Layer} (hne : layers ≠ []) :
    (allScripts o (standardRenderers lib o pt) layers).flatMap Script.calls =
      preLayerStart o ++ printCalls lib o pt layers ++ postLayerEnd o := by
  rw [allCalls_eq lib o pt hne, printCalls, headerCalls]
  have := bodies_eq lib o pt (layers.length - 1) layers 0 hne (by simp)
  rw [← List.flatMap_def, this]
  simp

/-! ## C37 -/

/-- The layer thickness that belongs to layer `n`. -/
def thicknessOf (o : Options) (n : Nat) : Int := if n = 0 then o.print.initialLayerThickness else o.print.layerThickness

/-- The settings that have to be in force while drawing layer `n`. -/
structure LayerSettings (o : Options) (flow : Int → Int → ℚ) (n : Nat) (s : Settings) : Prop where
  move : s.moveSpeed = truncZ o.print.moveSpeed
  override : s.override = if n = 0 then truncZ o.print.initialLayerSpeed else 0
  extrude : s.extrudeSpeed = truncZ o.print.layerSpeed ∨ s.extrudeSpeed = truncZ o.print.outerPerimeterSpeed
  retraction : s.retractionSpeed = truncZ o.filament.retractionSpeed ∧ s.retractionAmount = o.filament.retractionLength ∧
    s.zHop = o.filament.retractionZHop
  flow : s.perMM = flow (thicknessOf o n) o.printer.extrusionWidth

/-- What a move of layer `n` may be: a travel, a retraction or its end, or an extruding line at the height of the layer with the filament
for the thickness of the layer and the right speed. -/
def LayerMove (o : Options) (flow : Int → Int → ℚ) (n : Nat) (r : Request) : Prop :=
  (r.extrusion = 0 ∧ r.speed = truncZ o.print.moveSpeed) ∨
  ((r.extrusion = -o.filament.retractionLength ∨ r.extrusion = o.filament.retractionLength) ∧ r.speed = truncZ o.filament.retractionSpeed) ∨
  ∃ a b : Pt, r.target = ⟨b.x, b.y, layerHeight o n⟩ ∧ r.extrusion ≠ 0 ∧
    r.extrusion = r32 ((b.sub a).sizeMM * flow (thicknessOf o n) o.printer.extrusionWidth) ∧
    if n = 0 ∧ 0 < truncZ o.print.initialLayerSpeed then r.speed = truncZ o.print.initialLayerSpeed
    else r.speed = truncZ o.print.layerSpeed ∨ r.speed = truncZ o.print.outerPerimeterSpeed

section
variable {crossing : List LayerPart → Path → Bool × Bool} {flow : Int → Int → ℚ} {lib : ClipperLib} {o : Options} {pt : Patterns}

theorem layerMove_move {n : Nat} {s : Settings} (h : LayerSettings o flow n s) (a b : Pt) :
    LayerMove o flow n (s.move ⟨b.x, b.y, layerHeight o n⟩ (s.filament a b)) := by
  by_cases he : s.filament a b = 0
  · left
    simp [Settings.move, Settings.speed, he, h.move]
  · right; right
    refine ⟨a, b, rfl, he, ?_, ?_⟩
    · simp only [Settings.move, Settings.filament, h.flow]
    · simp only [Settings.move, Settings.speed, if_neg he, h.override]
      by_cases hn : n = 0
      · by_cases h0 : 0 < truncZ o.print.initialLayerSpeed
        · simp [hn, h0]
        · simpa [hn, h0] using h.extrude
      · simpa [hn] using h.extrude

theorem layerMove_draw {n : Nat} {s : Settings} (h : LayerSettings o flow n s) (c : Bool) (last : Vec3) (p0 : Pt) (rest : Path) (isOpen : Bool) :
    ∀ r ∈ s.draw c last p0 rest (layerHeight o n) isOpen, LayerMove o flow n r := by
  have htravel : ∀ p, LayerMove o flow n (s.move p 0) := fun p => .inl ⟨rfl, by simp [Settings.move, Settings.speed, h.move]⟩
  have hretract : ∀ p, LayerMove o flow n ⟨p, -s.retractionAmount, s.retractionSpeed⟩ := fun p =>
    .inr (.inl ⟨.inl (by rw [h.retraction.2.1]), h.retraction.1⟩)
  have hrestore : ∀ p, LayerMove o flow n ⟨p, s.retractionAmount, s.retractionSpeed⟩ := fun p =>
    .inr (.inl ⟨.inr h.retraction.2.1, h.retraction.1⟩)
  have hlines : ∀ (rest : Path) (p : Pt), ∀ r ∈ s.lines (layerHeight o n) p rest, LayerMove o flow n r := by
    intro rest
    induction rest with
    | nil => intro p r hr; simp [Settings.lines] at hr
    | cons b rest ih =>
      intro p r hr
      rcases List.mem_cons.1 hr with rfl | hr
      · exact layerMove_move h p b
      · exact ih b r hr
  intro r hr
  unfold Settings.draw at hr
  rw [List.mem_append, List.mem_append] at hr
  rcases hr with (hr | hr) | hr
  · unfold Settings.approach at hr
    split_ifs at hr <;> simp only [List.mem_cons, List.not_mem_nil, or_false] at hr
    · rcases hr with rfl | rfl | rfl | rfl | rfl
      exacts [hretract _, htravel _, htravel _, htravel _, hrestore _]
    · rcases hr with rfl | rfl | rfl
      exacts [hretract _, htravel _, hrestore _]
    · rw [hr]; exact htravel _
  · exact hlines rest p0 r hr
  · split at hr
    · simp at hr
    · rw [List.mem_singleton.1 hr]
      exact layerMove_move h _ _

/-- Drawing calls keep the settings of the layer and add moves of the layer. -/
theorem fold_draw {n : Nat} (cs : List Call) : ∀ p : Plan, LayerSettings o flow n p.settings → (∀ c ∈ cs, DrawCall o (layerHeight o n) c) →
    LayerSettings o flow n (cs.foldl (Plan.call crossing flow) p).settings ∧
    ∃ rs, (cs.foldl (Plan.call crossing flow) p).requests = p.requests ++ rs ∧ ∀ r ∈ rs, LayerMove o flow n r := by
  induction cs with
  | nil => intro p h _; exact ⟨h, [], by simp, by simp⟩
  | cons c cs ih =>
    intro p h hc
    have hc0 := hc c (by simp)
    have step : LayerSettings o flow n (p.call crossing flow c).settings ∧
        ∃ rs, (p.call crossing flow c).requests = p.requests ++ rs ∧ ∀ r ∈ rs, LayerMove o flow n r := by
      cases c with
      | comment t => exact ⟨h, [], by simp [Plan.call], by simp⟩
      | setExtrudeSpeed v =>
        refine ⟨⟨h.move, h.override, ?_, h.retraction, h.flow⟩, [], by simp [Plan.call], by simp⟩
        rcases hc0 with rfl | rfl
        · exact .inl rfl
        · exact .inr rfl
      | polygon layer path z isOpen =>
        cases hc0
        refine ⟨h, _, rfl, ?_⟩
        unfold Plan.polygon
        split
        · simp
        · exact layerMove_draw h _ _ _ _ _
      | _ => exact absurd hc0 (by simp [DrawCall])
    obtain ⟨hs, rs, hr, hrs⟩ := step
    obtain ⟨hs', rs', hr', hrs'⟩ := ih _ hs fun c hc' => hc c (List.mem_cons_of_mem _ hc')
    refine ⟨hs', rs ++ rs', ?_, ?_⟩
    · rw [List.foldl_cons, hr', hr, List.append_assoc]
    · intro r hr
      exact (List.mem_append.1 hr).elim (hrs r) (hrs' r)

/-- What is in force before the calls of layer `n`. -/
def Before (o : Options) (flow : Int → Int → ℚ) (n : Nat) (s : Settings) : Prop :=
  if n = 0 then LayerSettings o flow 0 s else LayerSettings o flow (n - 1) s

theorem fold_texts (cs : List Call) (h : ∀ c ∈ cs, (∃ t, c = .text t) ∨ (∃ t, c = .comment t) ∨ ∃ t, c = .command t) :
    ∀ p : Plan, cs.foldl (Plan.call crossing flow) p = p := by
  induction cs with
  | nil => intro p; rfl
  | cons c cs ih =>
    intro p
    rw [List.foldl_cons]
    have : p.call crossing flow c = p := by
      rcases h c (by simp) with ⟨t, rfl⟩ | ⟨t, rfl⟩ | ⟨t, rfl⟩ <;> rfl
    rw [this]
    exact ih (fun c hc => h c (List.mem_cons_of_mem _ hc)) p

theorem fold_common (n : Nat) (p : Plan) : (preLayerCommon o n).foldl (Plan.call crossing flow) p =
    if n = 0 then p else { p with settings := { p.settings with override := 0, extrudeSpeed := truncZ o.print.layerSpeed } } := by
  unfold preLayerCommon
  rw [List.foldl_append, List.foldl_append, List.foldl_append]
  refine (fold_texts _ (by split <;> simp) _).trans ((fold_texts _ (by
    split
    · split <;> simp
    · simp) _).trans ?_)
  rw [fold_texts (crossing := crossing) (flow := flow) [Call.text (";LAYER:".toList ++ formatInt n)] (by simp)]
  by_cases h : n = 0
  · simp [h]
  · have : n > 0 := by omega
    simp [h, this, Plan.call]

theorem fold_inner {m : Int} {n : Nat} {l : Layer} (p : Plan) (h : Before o flow n p.settings) :
    LayerSettings o flow n ((innerCalls lib o pt m n l).foldl (Plan.call crossing flow) p).settings ∧
    ∃ rs, ((innerCalls lib o pt m n l).foldl (Plan.call crossing flow) p).requests = p.requests ++ rs ∧ ∀ r ∈ rs, LayerMove o flow n r := by
  unfold innerCalls
  rw [List.foldl_append, List.foldl_append, fold_common]
  unfold Before at h
  by_cases h0 : n = 0
  · subst h0
    rw [if_pos rfl] at h
    exact fold_draw _ p h (layerDraws_drawCall lib o pt m 0 l)
  · rw [if_neg h0] at h
    rw [if_neg h0]
    by_cases h1 : n = 1
    · subst h1
      refine fold_draw _ _ ⟨h.move, rfl, .inl rfl, h.retraction, ?_⟩ (layerDraws_drawCall lib o pt m 1 l)
      simp [Plan.call, thicknessOf]
    · rw [if_neg h1]
      refine fold_draw _ _ ⟨h.move, by simp [h0], .inl rfl, h.retraction, ?_⟩ (layerDraws_drawCall lib o pt m n l)
      have := h.flow
      have e : thicknessOf o n = thicknessOf o (n - 1) := by unfold thicknessOf; rw [if_neg h0, if_neg (by omega)]
      rw [e]
      exact this

theorem fold_layers {m : Int} (ls : List Layer) : ∀ (k : Nat) (p : Plan), Before o flow k p.settings →
    ∃ Rs : List (List Request), (((ls.zipIdx k).flatMap fun x => innerCalls lib o pt m x.2 x.1).foldl (Plan.call crossing flow) p).requests =
      p.requests ++ Rs.flatten ∧ Rs.length = ls.length ∧ ∀ i (hi : i < Rs.length), ∀ r ∈ Rs[i], LayerMove o flow (k + i) r := by
  induction ls with
  | nil => intro k p _; exact ⟨[], by simp, rfl, by simp⟩
  | cons l ls ih =>
    intro k p h
    obtain ⟨hs, rs, hr, hrs⟩ := fold_inner (crossing := crossing) (lib := lib) (pt := pt) (m := m) (l := l) p h
    obtain ⟨Rs, h1, h2, h3⟩ := ih (k + 1) ((innerCalls lib o pt m k l).foldl (Plan.call crossing flow) p) (by
      unfold Before
      rw [if_neg (by omega)]
      exact hs)
    refine ⟨rs :: Rs, ?_, by simp [h2], ?_⟩
    · rw [List.zipIdx_cons, List.flatMap_cons, List.foldl_append, h1, hr]; simp
    · intro i hi r hr
      cases i with
      | zero => exact hrs r hr
      | succ i =>
        have := h3 i (by simpa using hi) r hr
        rwa [show k + 1 + i = k + (i + 1) by omega] at this

/-- **C37** The moves of a print, layer by layer: apart from travels and retractions all moves of layer `n` are at the height of the layer,
with the filament for the thickness of that layer, at the initial layer speed in layer 0 (if it is at least 1 mm/s) and at the layer or
outer perimeter speed otherwise. -/
theorem C37_layers (lib : ClipperLib) (o : Options) (pt : Patterns) (layers : List Layer) :
    ∃ Rs : List (List Request), (plan crossing flow (printCalls lib o pt layers)).requests = Rs.flatten ∧ Rs.length = layers.length ∧
      ∀ n (hn : n < Rs.length), ∀ r ∈ Rs[n], LayerMove o flow n r := by
  have h0 : Before o flow 0 ((preLayerSettings o).foldl (Plan.call crossing flow) {}).settings := by
    unfold Before
    rw [if_pos rfl]
    exact ⟨rfl, rfl, .inl rfl, ⟨rfl, rfl, rfl⟩, rfl⟩
  obtain ⟨Rs, h1, h2, h3⟩ := fold_layers (crossing := crossing) (lib := lib) (pt := pt) (m := layers.length - 1) layers 0 _ h0
  refine ⟨Rs, ?_, h2, ?_⟩
  · unfold plan printCalls
    rw [List.foldl_append, h1]
    rfl
  · intro n hn r hr
    have := h3 n hn r hr
    rwa [Nat.zero_add] at this

end

/-! ## C77: from the text to the moves -/

/-- The builder with a text in front of everything written. -/
def withPrefix (b : Str) (g : Builder) : Builder := { g with buf := b ++ g.buf }

theorem prefix_addMoveSpeed (b : Str) (g : Builder) (p : Vec3) (e : ℚ) (s : Int) :
    (withPrefix b g).addMoveSpeed p e s = withPrefix b (g.addMoveSpeed p e s) := by
  by_cases h : ((g.notFirstMoveX || g.notFirstMoveY || g.notFirstMoveZ) ∧ g.currentPosition.x = p.x ∧ g.currentPosition.y = p.y ∧
      g.currentPosition.z = p.z ∧ e = 0)
  · rw [addMoveSpeed_skip h, addMoveSpeed_skip (g := withPrefix b g) h]
  · rw [addMoveSpeed_emit h, addMoveSpeed_emit (g := withPrefix b g) h]
    have e1 : moveLine (withPrefix b g) p e s = moveLine g p e s := rfl
    rw [e1]
    simp [withPrefix]

theorem prefix_addMove (b : Str) (g : Builder) (p : Vec3) (e : ℚ) : (withPrefix b g).addMove p e = withPrefix b (g.addMove p e) :=
  prefix_addMoveSpeed ..

theorem prefix_addLines (b : Str) (z : Micrometer) (path : Path) : ∀ (g : Builder) (prev : Pt),
    Builder.addLines z (withPrefix b g) prev path = withPrefix b (Builder.addLines z g prev path) := by
  induction path with
  | nil => intro g prev; rfl
  | cons p rest ih =>
    intro g prev
    simp only [Builder.addLines]
    rw [show (withPrefix b g).extrusionPerMM = g.extrusionPerMM from rfl, prefix_addMove, ih]

theorem withPrefix_ite {P : Prop} [Decidable P] (b : Str) (x y : Builder) :
    (if P then withPrefix b x else withPrefix b y) = withPrefix b (if P then x else y) := by split <;> rfl

theorem prefix_addTravel (b : Str) (g : Builder) (p0 : Pt) (z : Micrometer) (c : Bool) :
    (withPrefix b g).addTravel p0 z c = withPrefix b (g.addTravel p0 z c) := by
  unfold Builder.addTravel
  have f1 : ∀ g : Builder, (withPrefix b g).zHopOnRetract = g.zHopOnRetract := fun _ => rfl
  have f2 : ∀ g : Builder, (withPrefix b g).currentPosition = g.currentPosition := fun _ => rfl
  have f3 : ∀ g : Builder, (withPrefix b g).retractionAmount = g.retractionAmount := fun _ => rfl
  have f4 : ∀ g : Builder, (withPrefix b g).retractionSpeed = g.retractionSpeed := fun _ => rfl
  simp only [f1, f2, f3, f4, prefix_addMoveSpeed, prefix_addMove, withPrefix_ite]

theorem prefix_exec1 {crossing : List LayerPart → Path → Bool × Bool} (b : Str) (g : Builder) (c : Call) :
    (withPrefix b g).exec1 crossing c = (g.exec1 crossing c).map (withPrefix b) := by
  cases c with
  | command t => simp [Builder.exec1, Builder.addCommand, withPrefix, Except.map]
  | comment t => simp [Builder.exec1, Builder.addComment, withPrefix, Except.map]
  | text t => simp [Builder.exec1, Builder.addText, withPrefix, Except.map]
  | moveSpeed p e s => simp [Builder.exec1, prefix_addMoveSpeed, Except.map]
  | move p e => simp [Builder.exec1, prefix_addMove, Except.map]
  | polygon layer path z isOpen =>
    simp only [Builder.exec1, Builder.addPolygon]
    split
    · rfl
    · split
      · rfl
      · rename_i p0 rest _
        have : (withPrefix b g).crossingTest crossing layer p0 = g.crossingTest crossing layer p0 := rfl
        rw [this]
        cases g.crossingTest crossing layer p0 with
        | error f => rfl
        | ok c =>
          simp only [bind, Except.bind, prefix_addTravel, prefix_addLines]
          split
          · rfl
          · simp only [pure, Except.pure, Except.map]
            rw [show ∀ g : Builder, (withPrefix b g).extrusionPerMM = g.extrusionPerMM from fun _ => rfl, prefix_addMove]
  | _ => rfl

theorem prefix_exec {crossing : List LayerPart → Path → Bool × Bool} (b : Str) (cs : List Call) : ∀ g : Builder,
    (withPrefix b g).exec crossing cs = (g.exec crossing cs).map (withPrefix b) := by
  induction cs with
  | nil => intro g; rfl
  | cons c cs ih =>
    intro g
    simp only [Builder.exec, prefix_exec1]
    cases g.exec1 crossing c with
    | error f => rfl
    | ok g1 =>
      simp only [Except.map, bind, Except.bind]
      exact ih g1

/-- A call that only writes a text or sets the extrusion. -/
def Quiet : Call → Prop
  | .command _ => True
  | .comment _ => True
  | .text _ => True
  | .setExtrusion .. => True
  | _ => False

/-- What is written for such a call. -/
def callText : Call → Str
  | .command t => customLine t
  | .comment t => customLine (';' :: t)
  | .text t => t ++ ['\n']
  | _ => []

theorem exec_texts {crossing : List LayerPart → Path → Bool × Bool} (cs : List Call)
    (h : ∀ c ∈ cs, (∃ t, c = .text t) ∨ (∃ t, c = .comment t) ∨ ∃ t, c = .command t) : ∀ g : Builder,
    g.exec crossing cs = .ok { g with buf := g.buf ++ cs.flatMap callText } := by
  induction cs with
  | nil => intro g; simp [Builder.exec]
  | cons c cs ih =>
    intro g
    have h1 : g.exec1 crossing c = .ok { g with buf := g.buf ++ callText c } := by
      rcases h c (by simp) with ⟨t, rfl⟩ | ⟨t, rfl⟩ | ⟨t, rfl⟩
      · simp [Builder.exec1, Builder.addText, callText]
      · simp [Builder.exec1, Builder.addComment, callText, customLine]
      · simp [Builder.exec1, Builder.addCommand, callText, customLine]
    have h2 := ih (fun c hc => h c (List.mem_cons_of_mem _ hc)) { g with buf := g.buf ++ callText c }
    simp only [Builder.exec, h1, bind, Except.bind, h2]
    simp

theorem preLayerStart_texts (o : Options) : ∀ c ∈ preLayerStart o, (∃ t, c = .text t) ∨ (∃ t, c = .comment t) ∨ ∃ t, c = .command t := by
  intro c hc
  simp only [preLayerStart, List.mem_append, List.mem_cons, List.not_mem_nil, or_false, List.mem_map] at hc
  rcases hc with ((((rfl | rfl) | hc) | rfl) | ⟨i, -, rfl⟩) | rfl
  · simp
  · simp
  · split at hc
    · rw [List.mem_append] at hc
      rcases hc with hc | hc <;> split at hc <;> simp only [List.mem_cons, List.not_mem_nil, or_false] at hc <;> rcases hc with rfl | rfl <;> simp
    · simp at hc
  · simp
  · simp
  · simp

theorem preLayerStart_text (o : Options) : (preLayerStart o).flatMap callText = startText o := by
  have c1 : callText (.comment "Generated with GoSlice".toList) ++ callText (.comment "______________________".toList) =
    ";Generated with GoSlice\n;______________________\n".toList := by decide
  have c2 : callText (.comment "START GCODE".toList) = ";START GCODE\n".toList := by decide
  have c3 : callText (.command "G92 E0 ; reset extrusion distance".toList) = "G92 E0 ; reset extrusion distance\n".toList := by decide
  have c4 : ∀ v : Int, callText (.comment "SET BED TEMP".toList) ++ callText (.text ("M190 S".toList ++ formatInt v ++ " ; heat and wait for bed".toList)) =
      ";SET BED TEMP\nM190 S".toList ++ formatInt v ++ " ; heat and wait for bed\n".toList := by
    intro v
    have : callText (.comment "SET BED TEMP".toList) = ";SET BED TEMP\n".toList := by decide
    rw [this]
    simp [callText]
  have c5 : ∀ v : Int, callText (.comment "SET HOTEND TEMP".toList) ++ callText (.text ("M109 S".toList ++ formatInt v ++ " ; wait for hot end temperature".toList)) =
      ";SET HOTEND TEMP\nM109 S".toList ++ formatInt v ++ " ; wait for hot end temperature\n".toList := by
    intro v
    have : callText (.comment "SET HOTEND TEMP".toList) = ";SET HOTEND TEMP\n".toList := by decide
    rw [this]
    simp [callText]
  have c6 : ∀ l : List Str, (l.map fun instruction => Call.command (fillTemplates o instruction)).flatMap callText = l.flatMap fun l => customLine (fillTemplates o l) := by
    intro l
    rw [List.flatMap_map]
    rfl
  unfold preLayerStart startText
  rw [List.flatMap_append, List.flatMap_append, List.flatMap_append, List.flatMap_append, c6]
  simp only [List.flatMap_cons, List.flatMap_nil, List.append_nil, c1, c2, c3]
  cases o.printer.forceSafeStartStopGCode <;> cases o.printer.hasHeatedBed <;> cases hasCodes bedTempCodes o.printer.startGCode <;>
    cases hasCodes hotendTempCodes o.printer.startGCode <;>
    (simp only [Bool.and_true, Bool.and_false, Bool.not_true, Bool.not_false, if_true, Bool.false_eq_true, if_false, List.flatMap_append,
      List.flatMap_cons, List.flatMap_nil, List.append_nil, List.nil_append, c4, c5]; try simp only [List.append_assoc])

theorem postLayerEnd_text (o : Options) : (postLayerEnd o).flatMap callText = endText o := by
  have c1 : callText (.comment "END_GCODE".toList) ++ callText (.setExtrusion o.print.layerThickness o.printer.extrusionWidth) = ";END_GCODE\n".toList := by
    rw [show callText (.setExtrusion o.print.layerThickness o.printer.extrusionWidth) = [] from rfl]
    decide
  have c2 : callText (.command "M104 S0 ; Set Hot-end to 0C (off)".toList) = "M104 S0 ; Set Hot-end to 0C (off)\n".toList := by decide
  have c3 : callText (.command "M140 S0 ; Set bed to 0C (off)".toList) = "M140 S0 ; Set bed to 0C (off)\n".toList := by decide
  have c6 : ∀ l : List Str, (l.map Call.command).flatMap callText = l.flatMap customLine := by
    intro l
    rw [List.flatMap_map]
    rfl
  unfold postLayerEnd endText
  rw [List.flatMap_append, List.flatMap_append, c6]
  simp only [List.flatMap_cons, List.flatMap_nil, List.append_nil, c1]
  cases o.printer.forceSafeStartStopGCode <;> cases o.printer.hasHeatedBed <;> cases hasCodes bedTempCodes o.printer.endGCode <;>
    cases hasCodes hotendTempCodes o.printer.endGCode <;>
    (simp only [Bool.and_true, Bool.and_false, Bool.not_true, Bool.not_false, if_true, Bool.false_eq_true, if_false, List.flatMap_append,
      List.flatMap_cons, List.flatMap_nil, List.append_nil, List.nil_append, c2, c3]; try simp only [List.append_assoc])

theorem exec_end_buf {crossing : List LayerPart → Path → Bool × Bool} {o : Options} {g g' : Builder} (h : g.exec crossing (postLayerEnd o) = .ok g') :
    g'.buf = g.buf ++ endText o := by
  rw [← postLayerEnd_text]
  have key : ∀ (cs : List Call), (∀ c ∈ cs, Quiet c) → ∀ g g' : Builder, g.exec crossing cs = .ok g' → g'.buf = g.buf ++ cs.flatMap callText := by
    intro cs
    induction cs with
    | nil => intro _ g g' h; cases h; simp
    | cons c cs ih =>
      intro hq g g' h
      have hc := hq c (by simp)
      have h1 : ∃ g1, g.exec1 crossing c = .ok g1 ∧ g1.buf = g.buf ++ callText c := by
        cases c with
        | command t => exact ⟨_, rfl, by simp [Builder.addCommand, callText, customLine]⟩
        | comment t => exact ⟨_, rfl, by simp [Builder.addComment, callText, customLine]⟩
        | text t => exact ⟨_, rfl, by simp [Builder.addText, callText]⟩
        | setExtrusion t w => exact ⟨_, rfl, by simp [Builder.setExtrusion, callText]⟩
        | _ => exact absurd hc (by simp [Quiet])
      obtain ⟨g1, h1, hb⟩ := h1
      simp only [Builder.exec, h1, bind, Except.bind] at h
      rw [ih (fun c hc => hq c (List.mem_cons_of_mem _ hc)) g1 g' h, hb, List.flatMap_cons, List.append_assoc]
  refine key _ ?_ g g' h
  intro c hc
  simp only [postLayerEnd, List.mem_append, List.mem_cons, List.not_mem_nil, or_false, List.mem_map] at hc
  rcases hc with ((rfl | rfl) | hc) | ⟨i, hi, rfl⟩
  · trivial
  · trivial
  · split at hc
    · rw [List.mem_append] at hc
      rcases hc with hc | hc <;> split at hc <;> simp only [List.mem_cons, List.not_mem_nil, or_false] at hc <;> subst hc <;> trivial
    · simp at hc
  · trivial

/-- The first word of a line that begins with another text. -/
theorem not_move_of_head {t : Str} (hn : '\n' ∉ t) (hp : '%' ∉ t) (h : t.head? ≠ some 'G') : Spec.Harmless t := by
  refine ⟨hp, ?_⟩
  intro l hl
  rw [split_eq_singleton hn, List.mem_singleton] at hl
  subst hl
  obtain ⟨ws, hw⟩ := split_head ' ' l
  rw [hw]
  cases l with
  | nil => simp
  | cons c l =>
    simp only [List.head?_cons, ne_eq, Option.some.injEq] at h
    simp only [List.head?_cons, ne_eq, Option.some.injEq, List.takeWhile_cons]
    split <;> simp [h]

theorem harmless_inner {lib : ClipperLib} {o : Options} {pt : Patterns} {m : Int} {n : Nat} {l : Layer} :
    ∀ c ∈ innerCalls lib o pt m n l, Call.Harmless c := by
  intro c hc
  unfold innerCalls at hc
  rw [List.mem_append, List.mem_append] at hc
  have hnum : ∀ v : Int, '\n' ∉ formatInt v ∧ '%' ∉ formatInt v := fun v =>
    ⟨not_mem_formatInt v (by decide) (by decide), not_mem_formatInt v (by decide) (by decide)⟩
  rcases hc with (hc | hc) | hc
  · split at hc
    · rw [List.mem_singleton.1 hc]; trivial
    · simp at hc
  · simp only [preLayerCommon, List.mem_append] at hc
    rcases hc with ((hc | hc) | hc) | hc
    · rw [List.mem_singleton.1 hc]
      refine not_move_of_head ?_ ?_ (by simp)
      · simp [hnum n]
      · simp [hnum n]
    · split at hc
      · simp only [List.mem_cons, List.not_mem_nil, or_false] at hc
        rcases hc with rfl | rfl <;> trivial
      · simp at hc
    · split at hc
      · rename_i v _
        split at hc <;> rw [List.mem_singleton] at hc <;> subst hc
        · exact not_move_of_head (by decide) (by decide) (by decide)
        · refine not_move_of_head ?_ ?_ (by simp)
          · simp [hnum v]
          · simp [hnum v]
      · simp at hc
    · split at hc
      · simp only [List.mem_cons, List.not_mem_nil, or_false] at hc
        rcases hc with rfl | rfl | rfl
        · exact not_move_of_head (by decide) (by decide) (by decide)
        · refine not_move_of_head ?_ ?_ (by simp)
          · simp [hnum o.filament.bedTemperature]
          · simp [hnum o.filament.bedTemperature]
        · refine not_move_of_head ?_ ?_ (by simp)
          · simp [hnum o.filament.hotEndTemperature]
          · simp [hnum o.filament.hotEndTemperature]
      · simp at hc
  · have := layerDraws_drawCall lib o pt m n l c hc
    cases c with
    | comment t => exact not_move_of_head (by simp [this.1]) (by simp [this.2]) (by simp)
    | setExtrudeSpeed v => trivial
    | polygon => trivial
    | _ => exact absurd this (by simp [DrawCall])

theorem harmless_print {lib : ClipperLib} {o : Options} {pt : Patterns} {layers : List Layer} :
    ∀ c ∈ printCalls lib o pt layers, Call.Harmless c := by
  intro c hc
  unfold printCalls at hc
  rw [List.mem_append] at hc
  rcases hc with hc | hc
  · simp only [preLayerSettings, List.mem_cons, List.not_mem_nil, or_false] at hc
    rcases hc with rfl | rfl | rfl | rfl | rfl | rfl | rfl <;> trivial
  · obtain ⟨x, -, hc⟩ := List.mem_flatMap.1 hc
    exact harmless_inner c hc

section Text
variable {lib : ClipperLib} {o : Options} {pt : Patterns} {layers : List Layer} {g0 : Builder} {t : Str}
variable {crossing : List LayerPart → Path → Bool × Bool}

/-- The text of a print is the start G-code, what a new builder writes for the calls of all layers, and the end G-code. -/
theorem print_body (hne : layers ≠ []) (h : (generateScripts crossing o (standardRenderers lib o pt) layers g0).2 = (t, none)) :
    ∃ g, t = startText o ++ g.buf ++ endText o ∧
      (newBuilder o.filament.filamentDiameter o.filament.extrusionMultiplier).exec crossing (printCalls lib o pt layers) = .ok g := by
  obtain ⟨-, g, hg, rfl⟩ := C30_scripts.1 h
  rw [allCalls_print lib o pt hne, exec_append, exec_append] at hg
  rw [exec_texts (crossing := crossing) (preLayerStart o) (preLayerStart_texts o), preLayerStart_text] at hg
  have e : ({ newBuilder o.filament.filamentDiameter o.filament.extrusionMultiplier with
      buf := (newBuilder o.filament.filamentDiameter o.filament.extrusionMultiplier).buf ++ startText o } : Builder) =
      withPrefix (startText o) (newBuilder o.filament.filamentDiameter o.filament.extrusionMultiplier) := by
    simp [withPrefix, newBuilder]
  rw [e] at hg
  simp only [Except.bind, prefix_exec] at hg
  rcases hb : (newBuilder o.filament.filamentDiameter o.filament.extrusionMultiplier).exec crossing (printCalls lib o pt layers) with f | g1
  · rw [hb] at hg; cases hg
  · rw [hb] at hg
    simp only [Except.map, prefix_exec] at hg
    rcases ht : g1.exec crossing (postLayerEnd o) with f | g2
    · rw [ht] at hg; cases hg
    · rw [ht] at hg
      simp only [Except.ok.injEq] at hg
      refine ⟨g1, ?_, rfl⟩
      rw [← hg, withPrefix, exec_end_buf ht, List.append_assoc]

/-- **C77** End to end: whatever the custom G-code is, the text of a print is the start G-code, then a body which, read by the G-code
interpreter, makes exactly the moves demanded by the calls of the renderers for all layers in order, and then the end G-code. The
moves are those of `C37_layers`. -/
theorem C77_text (hne : layers ≠ []) (h : (generateScripts crossing o (standardRenderers lib o pt) layers g0).2 = (t, none)) :
    ∃ body, t = startText o ++ body ++ endText o ∧ ∃ Rs : List (List Request),
      run body = some ((effect Rs.flatten).1.machine, (effect Rs.flatten).2) ∧ Rs.length = layers.length ∧
      ∀ n (hn : n < Rs.length), ∀ r ∈ Rs[n], LayerMove o (flowOf o.filament.filamentDiameter o.filament.extrusionMultiplier) n r := by
  obtain ⟨g, ht, hb⟩ := print_body hne h
  obtain ⟨Rs, h1, h2, h3⟩ := C37_layers (crossing := crossing) (flow := flowOf o.filament.filamentDiameter o.filament.extrusionMultiplier)
    lib o pt layers
  refine ⟨g.buf, ht, Rs, ?_, h2, h3⟩
  have := C18_refines harmless_print hb
  rw [h1] at this
  exact this

end Text

/-! ## C76: the speed of the infill -/

/-- An infill line or a comment. -/
def InfillCall : Call → Prop
  | .comment _ => True
  | .polygon _ _ _ isOpen => isOpen = true
  | _ => False

/-- Not an infill line. -/
def NoInfill : Call → Prop
  | .polygon _ _ _ isOpen => isOpen = false
  | _ => True

theorem infillCalls_infill (pattern : Option Pattern) (name : String) (comments : List Str) (n : Nat) (m : Int) (l : Layer) (z : Int) :
    ∀ c ∈ (infillRenderer pattern name comments n m l z).calls, InfillCall c := by
  have hcom : ∀ c ∈ comments.map Call.comment, InfillCall c := by
    intro c h
    obtain ⟨t, ht, rfl⟩ := List.mem_map.1 h
    trivial
  have key : ∀ (fill : Pattern) (ps : List LayerPart), ∀ c ∈ (infillCalls comments fill n l z ps).calls, InfillCall c := by
    intro fill ps
    induction ps with
    | nil => simp [infillCalls]
    | cons p ps ih =>
      intro c h
      simp only [infillCalls] at h
      split at h
      · exact hcom c h
      · rw [List.mem_append, List.mem_append] at h
        rcases h with (h | h) | h
        · exact hcom c h
        · obtain ⟨path, -, rfl⟩ := List.mem_map.1 h
          exact rfl
        · exact ih c h
  unfold infillRenderer
  split
  · simp
  · split
    · simp
    · exact key _ _

theorem noInfill_walls (lib : ClipperLib) (o : Options) (n : Nat) (m : Int) (l : Layer) (z : Int) :
    ∀ c ∈ (skirtRenderer lib o n m l z).calls ++ (brimRenderer n m l z).calls ++ (perimeterRenderer o n m l z).calls, NoInfill c := by
  intro c hc
  rw [List.mem_append, List.mem_append] at hc
  rcases hc with (hc | hc) | hc
  · revert hc
    unfold skirtRenderer
    split
    · simp
    · split
      · split
        · simp
        · split
          · simp
          · split
            · simp
            · intro hc
              simp only [List.mem_cons, List.mem_flatMap, List.mem_map] at hc
              rcases hc with rfl | ⟨w, -, p, -, rfl⟩
              · trivial
              · exact rfl
      · simp
  · revert hc
    unfold brimRenderer
    split
    · simp
    · simp
    · rw [brim_calls]
      intro hc
      simp only [List.mem_cons, List.mem_map] at hc
      rcases hc with rfl | ⟨p, -, rfl⟩
      · trivial
      · exact rfl
  · revert hc
    unfold perimeterRenderer
    split
    · simp
    · intro hc
      simp only [List.mem_flatMap, perimeterPartCalls, insetPartCalls, List.mem_append, List.mem_map, List.mem_singleton] at hc
      obtain ⟨ps, -, k, -, p, -, (hc | ⟨hole, -, rfl⟩) | rfl⟩ := hc
      · split at hc <;> simp only [List.mem_cons, List.not_mem_nil, or_false] at hc <;> rcases hc with rfl | rfl <;> trivial
      · exact rfl
      · exact rfl

section
variable {crossing : List LayerPart → Path → Bool × Bool} {flow : Int → Int → ℚ}

theorem fold_wall_speed (o : Options) (l : Layer) (z : Int) (q : LayerPart) (p : Plan) :
    ((drawWall o l z true q).foldl (Plan.call crossing flow) p).settings.extrudeSpeed = truncZ o.print.outerPerimeterSpeed := by
  unfold drawWall
  rw [List.foldl_append]
  have key : ∀ (ps : List Path) (p : Plan), ((ps.map fun contour => Call.polygon (some l.parts) contour z false).foldl (Plan.call crossing flow) p).settings =
      p.settings := by
    intro ps
    induction ps with
    | nil => intro p; rfl
    | cons a ps ih => intro p; rw [List.map_cons, List.foldl_cons, ih]; rfl
  rw [key]
  rfl

/-- **C76** (violation) The speed is set back for the next layer only: if the last part of a layer has an outer perimeter, all infill of the
layer (support, bottom, top and internal) is printed with the speed for outer perimeters and not with the layer speed. -/
theorem C76_infill_speed (lib : ClipperLib) (o : Options) (pt : Patterns) (m : Int) (n : Nat) (l : Layer) (p : Plan)
    (ps : OffsetResult) (first : List LayerPart) (others : List (List LayerPart)) (hl : l.perimeters = .ok (ps ++ [first :: others]))
    (hf : first ≠ []) :
    ∃ walls infill, layerDraws lib o pt m n l = walls ++ infill ∧ (∀ c ∈ walls, NoInfill c) ∧ (∀ c ∈ infill, InfillCall c) ∧
      ∀ done rest, infill = done ++ rest →
        ((walls ++ done).foldl (Plan.call crossing flow) p).settings.extrudeSpeed = truncZ o.print.outerPerimeterSpeed := by
  refine ⟨(skirtRenderer lib o n m l (layerHeight o n)).calls ++ (brimRenderer n m l (layerHeight o n)).calls ++
      (perimeterRenderer o n m l (layerHeight o n)).calls, ((drawingRenderers lib o pt).drop 3).flatMap fun r => (r n m l (layerHeight o n)).calls,
      ?_, noInfill_walls lib o n m l _, ?_, ?_⟩
  · simp [layerDraws, drawingRenderers]
  · intro c hc
    obtain ⟨r, hr, hc⟩ := List.mem_flatMap.1 hc
    simp only [drawingRenderers, List.drop_succ_cons, List.drop_zero, List.mem_cons, List.not_mem_nil, or_false] at hr
    rcases hr with rfl | rfl | rfl | rfl | rfl <;> exact infillCalls_infill _ _ _ n m l _ c hc
  · intro done rest hd
    have hinf : ∀ c ∈ done, InfillCall c := by
      intro c hc
      have : c ∈ ((drawingRenderers lib o pt).drop 3).flatMap fun r => (r n m l (layerHeight o n)).calls := by rw [hd]; exact List.mem_append_left _ hc
      obtain ⟨r, hr, hc⟩ := List.mem_flatMap.1 this
      simp only [drawingRenderers, List.drop_succ_cons, List.drop_zero, List.mem_cons, List.not_mem_nil, or_false] at hr
      rcases hr with rfl | rfl | rfl | rfl | rfl <;> exact infillCalls_infill _ _ _ n m l _ c hc
    have keep : ∀ (cs : List Call) (p : Plan), (∀ c ∈ cs, InfillCall c) → (cs.foldl (Plan.call crossing flow) p).settings = p.settings := by
      intro cs
      induction cs with
      | nil => intro p _; rfl
      | cons c cs ih =>
        intro p h
        rw [List.foldl_cons, ih _ fun c hc => h c (List.mem_cons_of_mem _ hc)]
        have := h c (by simp)
        cases c with
        | comment t => rfl
        | polygon => rfl
        | _ => exact absurd this (by simp [InfillCall])
    rw [List.foldl_append, keep _ _ hinf, List.foldl_append, C36_order o n m l _ _ hl]
    simp only [List.flatMap_append, List.flatMap_cons, List.flatMap_nil, List.append_nil, List.drop_succ_cons, List.drop_zero,
      List.take_succ_cons, List.take_zero]
    obtain ⟨init, q, rfl⟩ : ∃ init q, first = init ++ [q] := ⟨first.dropLast, first.getLast hf, (List.dropLast_append_getLast hf).symm⟩
    rw [List.flatMap_append, List.flatMap_cons, List.flatMap_nil, List.append_nil, ← List.append_assoc, ← List.append_assoc, List.foldl_append]
    exact fold_wall_speed o l _ q _

end

/-! ## Non-vacuity -/

example : ∃ body, (smallPrint {}).1 = startText {} ++ body ++ endText {} ∧ ∃ Rs : List (List Request),
    run body = some ((effect Rs.flatten).1.machine, (effect Rs.flatten).2) ∧ Rs.length = 5 ∧
    ∀ n (hn : n < Rs.length), ∀ r ∈ Rs[n], LayerMove {} (flowOf 1750 100) n r :=
  C77_text (by simp) (smallPrint_eq {})

-- a line of layer 1 with the speed of layer 0 is not allowed
example : ¬ LayerMove {} (fun _ _ => 1) 1 ⟨⟨0, 0, 400⟩, 3, 30⟩ := by
  rintro (⟨h, -⟩ | ⟨h, -⟩ | ⟨a, b, -, -, -, h⟩)
  · norm_num at h
  · norm_num at h
  · rw [if_neg (by simp)] at h
    revert h
    decide +kernel

example : triangleLayer.perimeters = .ok ([] ++ [[⟨[⟨0, 0⟩, ⟨3000, 0⟩, ⟨0, 4000⟩], []⟩] :: []]) := by rfl

end Verif
