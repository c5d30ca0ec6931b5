import Verif.Spec.Manner
import Verif.Props.Filled
import Verif.Props.Depends

/-! # C133: speeds, temperatures and additional commands do not change the paths -/
namespace Verif
open Verif.Go Verif.Model Verif.Spec Verif.Spec.GCode

section
variable {crossing : List LayerPart → Path → Bool × Bool} {flow : Int → Int → ℚ}

/-- A call without the speeds and texts. -/
def bare : Call → Option Call
  | .setMoveSpeed _ => none
  | .setExtrudeSpeed _ => none
  | .setExtrudeSpeedOverride _ => none
  | .disableExtrudeSpeedOverride => none
  | .setRetractionSpeed v => some (.setRetractionSpeed (if truncZ v = 0 then 0 else 1))
  | .command _ => none
  | .comment _ => none
  | .text _ => none
  | .moveSpeed q e _ => some (.move q e)
  | c => some c

/-! ## The requests -/

/-- The same settings besides the speeds. -/
structure SameBare (s s' : Settings) : Prop where
  retraction : s.retractionSpeed = 0 ↔ s'.retractionSpeed = 0
  amount : s.retractionAmount = s'.retractionAmount
  zHop : s.zHop = s'.zHop
  perMM : s.perMM = s'.perMM

/-- A request without its speed. -/
def Request.bare (r : Request) : Vec3 × ℚ := (r.target, r.extrusion)

/-- The same plans besides the speeds. -/
def SamePlan (p p' : Plan) : Prop := SameBare p.settings p'.settings ∧ p.requests.map Request.bare = p'.requests.map Request.bare

theorem SamePlan.last {p p' : Plan} (h : SamePlan p p') : p.last = p'.last := by
  have e : ∀ q : Plan, q.requests.getLast?.map Request.target = (q.requests.map Request.bare).getLast?.map Prod.fst := by
    intro q
    rw [List.getLast?_map, Option.map_map]
    rfl
  unfold Plan.last
  rw [e, e, h.2]

theorem SameBare.lines {s s' : Settings} (h : SameBare s s') (z : Int) (rest : Path) : ∀ p0 : Pt,
    (s.lines z p0 rest).map Request.bare = (s'.lines z p0 rest).map Request.bare := by
  induction rest with
  | nil => intro p0; rfl
  | cons p rest ih =>
    intro p0
    simp only [Settings.lines, List.map_cons, ih p]
    simp [Request.bare, Settings.move, Settings.filament, h.perMM]

theorem SameBare.draw {s s' : Settings} (h : SameBare s s') (c : Bool) (last : Vec3) (p0 : Pt) (rest : Path) (z : Int) (isOpen : Bool) :
    (s.draw c last p0 rest z isOpen).map Request.bare = (s'.draw c last p0 rest z isOpen).map Request.bare := by
  unfold Settings.draw
  simp only [List.map_append, h.lines z rest p0]
  congr 1
  · congr 1
    unfold Settings.approach
    rw [h.zHop, h.amount]
    split
    · split <;> simp [Request.bare, Settings.move]
    · simp [Request.bare, Settings.move]
  · split
    · rfl
    · simp [Request.bare, Settings.closing, Settings.move, Settings.filament, h.perMM]

theorem samePlan_bare {p p' : Plan} (h : SamePlan p p') (c : Call) :
    SamePlan (p.call crossing flow c) ((bare c).toList.foldl (Plan.call crossing flow) p') := by
  obtain ⟨⟨h1, h2, h3, h4⟩, h5⟩ := id h
  cases c with
  | setExtrusion t w => exact ⟨⟨h1, h2, h3, rfl⟩, h5⟩
  | setMoveSpeed v => exact ⟨⟨h1, h2, h3, h4⟩, h5⟩
  | setExtrudeSpeed v => exact ⟨⟨h1, h2, h3, h4⟩, h5⟩
  | setExtrudeSpeedOverride v => exact ⟨⟨h1, h2, h3, h4⟩, h5⟩
  | disableExtrudeSpeedOverride => exact ⟨⟨h1, h2, h3, h4⟩, h5⟩
  | setRetractionSpeed v =>
    refine ⟨⟨?_, h2, h3, h4⟩, h5⟩
    simp only [bare, Option.toList_some, List.foldl_cons, List.foldl_nil, Plan.call]
    by_cases hv : truncZ v = 0
    · rw [if_pos hv]; simp [hv]; rfl
    · rw [if_neg hv]
      have : truncZ (1 : ℚ) ≠ 0 := by decide +kernel
      simp [hv, this]
  | setRetractionAmount v => exact ⟨⟨h1, rfl, h3, h4⟩, h5⟩
  | setRetractionZHop v => exact ⟨⟨h1, h2, rfl, h4⟩, h5⟩
  | command t => exact h
  | comment t => exact h
  | text t => exact h
  | moveSpeed q e s =>
    refine ⟨h.1, ?_⟩
    simp only [bare, Option.toList_some, List.foldl_cons, List.foldl_nil, Plan.call, List.map_append, h5]
    rfl
  | move q e =>
    refine ⟨h.1, ?_⟩
    simp only [bare, Option.toList_some, List.foldl_cons, List.foldl_nil, Plan.call, List.map_append, h5]
    rfl
  | polygon lay path z isOpen =>
    refine ⟨h.1, ?_⟩
    simp only [bare, Option.toList_some, List.foldl_cons, List.foldl_nil, Plan.call, List.map_append, h5]
    congr 1
    unfold Plan.polygon
    cases douglasPeuckerM path (-1) with
    | nil => rfl
    | cons p0 rest =>
      have hr : p.retracts crossing lay p0 = p'.retracts crossing lay p0 := by
        unfold Plan.retracts
        rw [h.last]
        cases lay with
        | none => rfl
        | some parts => simp only [ne_eq, h1, h2]
      simp only [h.last, hr]
      exact h.1.draw _ _ _ _ _ _

theorem samePlan_all (cs : List Call) : ∀ {p p' : Plan}, SamePlan p p' →
    SamePlan (cs.foldl (Plan.call crossing flow) p) ((cs.filterMap bare).foldl (Plan.call crossing flow) p') := by
  induction cs with
  | nil => intro p p' h; exact h
  | cons c cs ih =>
    intro p p' h
    have h1 := ih (samePlan_bare (crossing := crossing) (flow := flow) h c)
    rw [List.foldl_cons]
    convert h1 using 1
    rw [← List.foldl_append]
    cases hb : bare c <;> simp [hb]

/-- Calls which only differ in speeds and texts lead to the same requests besides the speeds. -/
theorem requests_bare {cs cs' : List Call} (h : cs.filterMap bare = cs'.filterMap bare) :
    (plan crossing flow cs).requests.map Request.bare = (plan crossing flow cs').requests.map Request.bare := by
  have hs : SamePlan {} {} := ⟨⟨Iff.rfl, rfl, rfl, rfl⟩, rfl⟩
  have h1 := (samePlan_all (crossing := crossing) (flow := flow) cs hs).2
  have h2 := (samePlan_all (crossing := crossing) (flow := flow) cs' hs).2
  rw [h] at h1
  exact h1.trans h2.symm

/-- The same requests besides the speeds lead to the same moves besides the feed rate. -/
theorem effect_bare {rs rs' : List Request} (h : rs.map Request.bare = rs'.map Request.bare) :
    (effect rs).2.map withoutFeed = (effect rs').2.map withoutFeed := by
  have key : ∀ (rs rs' : List Request) (st st' : Head × List Move), rs.map Request.bare = rs'.map Request.bare →
      st.1.pos = st'.1.pos → st.1.total = st'.1.total → st.1.e = st'.1.e → st.2.map withoutFeed = st'.2.map withoutFeed →
      (rs.foldl effectStep st).2.map withoutFeed = (rs'.foldl effectStep st').2.map withoutFeed := by
    intro rs
    induction rs with
    | nil =>
      intro rs' st st' h _ _ _ hm
      have : rs' = [] := by simpa using h.symm
      subst this
      exact hm
    | cons r rs ih =>
      intro rs' st st' h hp ht he hm
      cases rs' with
      | nil => simp at h
      | cons r' rs' =>
        simp only [List.map_cons, List.cons.injEq] at h
        obtain ⟨hr, h⟩ := h
        have h1 : r.target = r'.target := congrArg Prod.fst hr
        have h2 : r.extrusion = r'.extrusion := congrArg Prod.snd hr
        simp only [List.foldl_cons]
        have hu : st.1.useless r = st'.1.useless r' := by unfold Head.useless; rw [hp, h1, h2]
        unfold effectStep
        rw [hu]
        split
        · exact ih _ _ _ h hp ht he hm
        · refine ih _ _ _ h (by simp [Head.after, h1]) (by simp [Head.after, ht, h2]) (by simp [Head.after, ht, he, h2]) ?_
          rw [List.map_append, List.map_append, hm]
          simp [withoutFeed, Head.machine, Head.after, h1, h2, ht, he]
  exact key rs rs' _ _ h rfl rfl rfl rfl

/-! ## The builder does not fail for other reasons -/

/-- The test for crossings of the call does not fail. -/
def Passes (crossing : List LayerPart → Path → Bool × Bool) (p : Plan) : Call → Prop
  | .polygon lay path _ _ => path.length = 0 ∨ ∃ p0 rest, douglasPeuckerM path (-1) = p0 :: rest ∧ ∀ parts, lay = some parts →
      p.settings.retractionSpeed ≠ 0 ∧ p.settings.retractionAmount ≠ 0 → (crossing parts [⟨p.last.x, p.last.y⟩, p0]).2 = true
  | _ => True

/-- No test for crossings fails. -/
def PassesAll (crossing : List LayerPart → Path → Bool × Bool) (flow : Int → Int → ℚ) : Plan → List Call → Prop
  | _, [] => True
  | p, c :: cs => Passes crossing p c ∧ PassesAll crossing flow (p.call crossing flow c) cs

theorem exec1_passes {fd : Micrometer} {em : Int} {g : Builder} {s : Settings} {rs : List Request} (h : Follows fd em g s rs) (c : Call) :
    (∃ g', g.exec1 crossing c = .ok g') ↔ Passes crossing ⟨s, rs⟩ c := by
  cases c with
  | polygon lay path z isOpen =>
    simp only [Builder.exec1, Passes]
    unfold Builder.addPolygon
    by_cases hl : path.length = 0
    · rw [if_pos hl]; simp [hl]
    · rw [if_neg hl]
      cases hd : douglasPeuckerM path (-1) with
      | nil => simp [hl]
      | cons p0 rest =>
        simp only [hl, false_or]
        have hx : g.currentPosition.pointXY = ⟨(Plan.last ⟨s, rs⟩).x, (Plan.last ⟨s, rs⟩).y⟩ := by rw [h.position]; rfl
        have ht : (∃ c, g.crossingTest crossing lay p0 = .ok c) ↔ ∀ parts, lay = some parts →
            s.retractionSpeed ≠ 0 ∧ s.retractionAmount ≠ 0 → (crossing parts [⟨(Plan.last ⟨s, rs⟩).x, (Plan.last ⟨s, rs⟩).y⟩, p0]).2 = true := by
          unfold Builder.crossingTest
          cases lay with
          | none => simp
          | some parts =>
            simp only [Option.some.injEq, forall_eq', h.rspeed, h.amount, hx]
            by_cases hc : s.retractionSpeed ≠ 0 ∧ s.retractionAmount ≠ 0
            · rw [if_pos hc]
              cases he : (crossing parts [⟨(Plan.last ⟨s, rs⟩).x, (Plan.last ⟨s, rs⟩).y⟩, p0]).2 with
              | true => simp
              | false => simp [hc]
            · rw [if_neg hc]; simp [hc]
        have hsome : (∃ p1 rest1, p0 :: rest = p1 :: rest1 ∧ ∀ parts, lay = some parts → s.retractionSpeed ≠ 0 ∧ s.retractionAmount ≠ 0 →
            (crossing parts [⟨(Plan.last ⟨s, rs⟩).x, (Plan.last ⟨s, rs⟩).y⟩, p1]).2 = true) ↔ ∀ parts, lay = some parts →
            s.retractionSpeed ≠ 0 ∧ s.retractionAmount ≠ 0 → (crossing parts [⟨(Plan.last ⟨s, rs⟩).x, (Plan.last ⟨s, rs⟩).y⟩, p0]).2 = true := by
          constructor
          · rintro ⟨p1, rest1, e, h⟩
            cases e
            exact h
          · exact fun h => ⟨p0, rest, rfl, h⟩
        rw [hsome, ← ht]
        cases hc : g.crossingTest crossing lay p0 with
        | error e => simp [bind, Except.bind]
        | ok b =>
          simp only [bind, Except.bind, pure, Except.pure, Except.ok.injEq, exists_eq', iff_true]
          split <;> exact ⟨_, rfl⟩
  | _ => simp [Builder.exec1, Passes]

theorem exec_passes {fd : Micrometer} {em : Int} (cs : List Call) : ∀ {g : Builder} {s : Settings} {rs : List Request}, Follows fd em g s rs →
    (∀ c ∈ cs, Call.Harmless c) → ((∃ g', g.exec crossing cs = .ok g') ↔ PassesAll crossing (flowOf fd em) ⟨s, rs⟩ cs) := by
  induction cs with
  | nil => intro g s rs h _; simp [Builder.exec, PassesAll]
  | cons c cs ih =>
    intro g s rs h hc
    simp only [Builder.exec, PassesAll]
    rw [← exec1_passes h c]
    cases h1 : g.exec1 crossing c with
    | error e => simp [bind, Except.bind]
    | ok g1 =>
      have h2 := h.exec1 (hc c (by simp)) h1
      simp only [bind, Except.bind, Except.ok.injEq, exists_eq', true_and]
      exact ih h2 (fun d hd => hc d (by simp [hd]))

theorem passes_bare {p p' : Plan} (h : SamePlan p p') (c : Call) :
    Passes crossing p c ↔ PassesAll crossing flow p' (bare c).toList := by
  obtain ⟨⟨h1, h2, h3, h4⟩, h5⟩ := id h
  cases c with
  | polygon lay path z isOpen =>
    simp only [Passes, PassesAll, bare, Option.toList_some, and_true, h.last, ne_eq, h1, h2]
  | _ => simp [Passes, PassesAll, bare]

theorem passesAll_append (a b : List Call) : ∀ p : Plan, PassesAll crossing flow p (a ++ b) ↔
    PassesAll crossing flow p a ∧ PassesAll crossing flow (a.foldl (Plan.call crossing flow) p) b := by
  induction a with
  | nil => intro p; simp [PassesAll]
  | cons c a ih => intro p; simp only [List.cons_append, PassesAll, List.foldl_cons, ih, and_assoc]

theorem passesAll_bare (cs : List Call) : ∀ {p p' : Plan}, SamePlan p p' →
    (PassesAll crossing flow p cs ↔ PassesAll crossing flow p' (cs.filterMap bare)) := by
  induction cs with
  | nil => intro p p' h; simp [PassesAll]
  | cons c cs ih =>
    intro p p' h
    have h1 := ih (samePlan_bare (crossing := crossing) (flow := flow) h c)
    have e : (c :: cs).filterMap bare = (bare c).toList ++ cs.filterMap bare := by cases hb : bare c <;> simp [hb]
    rw [e, passesAll_append, ← passes_bare h c, ← h1]
    rfl

/-- Calls which only differ in speeds and texts fail together. -/
theorem exec_bare {fd : Micrometer} {em : Int} {cs cs' : List Call} (hc : ∀ c ∈ cs, Call.Harmless c) (hc' : ∀ c ∈ cs', Call.Harmless c)
    (h : cs.filterMap bare = cs'.filterMap bare) (hok : ∃ g, (newBuilder fd em).exec crossing cs = .ok g) :
    ∃ g, (newBuilder fd em).exec crossing cs' = .ok g := by
  have hs : SamePlan {} {} := ⟨⟨Iff.rfl, rfl, rfl, rfl⟩, rfl⟩
  rw [exec_passes cs' (follows_new fd em) hc', passesAll_bare cs' hs, ← h, ← passesAll_bare cs hs, ← exec_passes cs (follows_new fd em) hc]
  exact hok

end

/-! ## The calls of a print -/

theorem bare_texts {cs : List Call} (h : ∀ c ∈ cs, (∃ t, c = .text t) ∨ (∃ t, c = .comment t) ∨ ∃ t, c = .command t) : cs.filterMap bare = [] := by
  rw [List.filterMap_eq_nil_iff]
  intro c hc
  rcases h c hc with ⟨t, rfl⟩ | ⟨t, rfl⟩ | ⟨t, rfl⟩ <;> rfl

theorem bare_common (o : Options) (n : Nat) : (preLayerCommon o n).filterMap bare = [] := by
  unfold preLayerCommon
  simp only [List.filterMap_append, List.append_eq_nil_iff]
  refine ⟨⟨⟨rfl, ?_⟩, ?_⟩, ?_⟩
  · split <;> rfl
  · split
    · split <;> rfl
    · rfl
  · split <;> rfl

section
variable {lib : ClipperLib} {o : Options} {pt : Patterns} {m : Manner}

theorem bare_settings (hr : truncZ o.filament.retractionSpeed = 0 ↔ truncZ m.retractionSpeed = 0) :
    (preLayerSettings o).filterMap bare = (preLayerSettings (inManner o m)).filterMap bare := by
  have e : bare (.setRetractionSpeed o.filament.retractionSpeed) = bare (.setRetractionSpeed m.retractionSpeed) := by simp [bare, hr]
  simp only [preLayerSettings, List.filterMap_cons, List.filterMap_nil]
  rw [e]
  rfl

theorem bare_walls (l : Layer) (z : Int) (n : Nat) (p : LayerPart) :
    (insetPartCalls o l z n p).filterMap bare = (insetPartCalls (inManner o m) l z n p).filterMap bare := by
  unfold insetPartCalls
  simp only [List.filterMap_append]
  congr 2
  split <;> rfl

theorem filterMap_flatMap_congr {α β γ : Type} {f g : α → List β} {b : β → Option γ} (xs : List α) (h : ∀ x ∈ xs, (f x).filterMap b = (g x).filterMap b) :
    (xs.flatMap f).filterMap b = (xs.flatMap g).filterMap b := by
  rw [List.filterMap_flatMap, List.filterMap_flatMap]
  exact List.flatMap_congr h

theorem bare_perimeters (n : Nat) (k : Int) (l : Layer) (z : Int) :
    (perimeterRenderer o n k l z).calls.filterMap bare = (perimeterRenderer (inManner o m) n k l z).calls.filterMap bare := by
  unfold perimeterRenderer
  cases l.perimeters with
  | error e => rfl
  | ok ps =>
    refine filterMap_flatMap_congr _ fun part _ => ?_
    unfold perimeterPartCalls
    exact filterMap_flatMap_congr _ fun i _ => filterMap_flatMap_congr _ fun p _ => bare_walls l z _ p

theorem bare_layer (n : Nat) (k : Int) (l : Layer) :
    (layerDraws lib o pt k n l).filterMap bare = (layerDraws lib (inManner o m) pt k n l).filterMap bare := by
  have hz : layerHeight (inManner o m) n = layerHeight o n := rfl
  have hs : skirtRenderer lib (inManner o m) = skirtRenderer lib o := rfl
  unfold layerDraws drawingRenderers
  rw [hz, hs]
  simp only [List.flatMap_cons, List.flatMap_nil, List.filterMap_append]
  rw [bare_perimeters (o := o) (m := m)]

theorem bare_print (hr : truncZ o.filament.retractionSpeed = 0 ↔ truncZ m.retractionSpeed = 0) (layers : List Layer) :
    (printCalls lib o pt layers).filterMap bare = (printCalls lib (inManner o m) pt layers).filterMap bare := by
  unfold printCalls
  rw [List.filterMap_append, List.filterMap_append, bare_settings hr]
  congr 1
  refine filterMap_flatMap_congr _ fun x _ => ?_
  unfold innerCalls
  simp only [List.filterMap_append, bare_common]
  rw [bare_layer (o := o) (m := m)]
  rfl

theorem exec_end {crossing : List LayerPart → Path → Bool × Bool} (o : Options) (g : Builder) : ∃ g', g.exec crossing (postLayerEnd o) = .ok g' := by
  have key : ∀ (cs : List Call) (g : Builder), (∀ c ∈ cs, ∀ g : Builder, ∃ g', g.exec1 crossing c = .ok g') → ∃ g', g.exec crossing cs = .ok g' := by
    intro cs
    induction cs with
    | nil => intro g _; exact ⟨g, rfl⟩
    | cons c cs ih =>
      intro g h
      obtain ⟨g1, h1⟩ := h c (by simp) g
      obtain ⟨g2, h2⟩ := ih g1 fun d hd => h d (by simp [hd])
      exact ⟨g2, by simp only [Builder.exec, h1, bind, Except.bind, h2]⟩
  refine key _ _ fun c hc g => ?_
  have : (∃ t, c = .comment t) ∨ (∃ a b, c = .setExtrusion a b) ∨ ∃ t, c = .command t := by
    unfold postLayerEnd at hc
    simp only [List.cons_append, List.nil_append, List.mem_cons, List.mem_append, List.mem_map] at hc
    rcases hc with rfl | rfl | hc | ⟨t, -, rfl⟩
    · exact .inl ⟨_, rfl⟩
    · exact .inr (.inl ⟨_, _, rfl⟩)
    · refine .inr (.inr ?_)
      split at hc
      · rcases List.mem_append.1 hc with hc | hc
        · split at hc
          · exact ⟨_, by simpa using hc⟩
          · simp at hc
        · split at hc
          · exact ⟨_, by simpa using hc⟩
          · simp at hc
      · simp at hc
    · exact .inr (.inr ⟨_, rfl⟩)
  rcases this with ⟨t, rfl⟩ | ⟨a, b, rfl⟩ | ⟨t, rfl⟩ <;> exact ⟨_, rfl⟩

/-- All renderers fail together. -/
theorem fault_manner (layers : List Layer) (h : ∀ s ∈ allScripts o (standardRenderers lib o pt) layers, s.fault = none) :
    ∀ s ∈ allScripts (inManner o m) (standardRenderers lib (inManner o m) pt) layers, s.fault = none := by
  intro s hs
  simp only [allScripts, List.mem_flatMap, List.mem_map] at h hs
  obtain ⟨x, hx, r, hr, rfl⟩ := hs
  have hz : layerHeight (inManner o m) x.2 = layerHeight o x.2 := rfl
  have h' : ∀ r ∈ standardRenderers lib o pt, (r x.2 (layers.length - 1) x.1 (layerHeight o x.2)).fault = none := fun r hr => h _ ⟨x, hx, r, hr, rfl⟩
  rw [hz]
  simp only [standardRenderers, drawingRenderers, List.cons_append, List.nil_append, List.forall_mem_cons, List.not_mem_nil, false_imp_iff, implies_true,
    and_true] at h'
  simp only [standardRenderers, drawingRenderers, List.cons_append, List.nil_append, List.mem_cons, List.not_mem_nil, or_false] at hr
  obtain ⟨h1, h2, h3, h4, h5, h6, h7, h8, h9, h10⟩ := h'
  rcases hr with rfl | rfl | rfl | rfl | rfl | rfl | rfl | rfl | rfl | rfl
  · rfl
  · exact h2
  · exact h3
  · revert h4
    unfold perimeterRenderer
    cases x.1.perimeters <;> exact fun h => h
  all_goals assumption

theorem modifiers_manner (tan : ℚ) : standardModifiers lib tan (inManner o m) = standardModifiers lib tan o := by
  unfold standardModifiers
  rw [show infillModifier lib (inManner o m) = infillModifier lib o from funext (infillModifier_depends ⟨rfl, rfl, rfl, rfl, rfl⟩),
    show internalInfillModifier lib (inManner o m) = internalInfillModifier lib o from funext (internalInfillModifier_depends Iff.rfl),
    show supportDetector lib tan (inManner o m) = supportDetector lib tan o from funext (supportDetector_depends rfl rfl rfl rfl),
    show supportGenerator lib (inManner o m) = supportGenerator lib o from funext (supportGenerator_depends rfl rfl rfl),
    show perimeterModifier lib (inManner o m) = perimeterModifier lib o from funext (perimeterModifier_depends rfl rfl rfl),
    show brimModifier lib (inManner o m) = brimModifier lib o from funext (brimModifier_depends rfl rfl)]

/-- **C133** for the generator. -/
theorem C133_generate (hr : truncZ o.filament.retractionSpeed = 0 ↔ truncZ m.retractionSpeed = 0) {crossing : List LayerPart → Path → Bool × Bool}
    {layers : List Layer} {g0 g1 : Builder} {t : Str} (h : (generateScripts crossing o (standardRenderers lib o pt) layers g0).2 = (t, none)) :
    ∃ t', (generateScripts crossing (inManner o m) (standardRenderers lib (inManner o m) pt) layers g1).2 = (t', none) ∧
      (t = [] ∧ t' = [] ∨ ∃ body body' s s' moves moves', t = startText o ++ body ++ endText o ∧
        t' = startText (inManner o m) ++ body' ++ endText (inManner o m) ∧ run body = some (s, moves) ∧ run body' = some (s', moves') ∧
        moves.map withoutFeed = moves'.map withoutFeed) := by
  by_cases hne : layers = []
  · subst hne
    obtain ⟨-, g, h2, rfl⟩ := C30_scripts.1 h
    have h2 := Except.ok.inj h2
    refine ⟨[], C30_scripts.2 ⟨by simp [allScripts], _, rfl, rfl⟩, .inl ⟨?_, rfl⟩⟩
    rw [← h2]
    rfl
  · obtain ⟨g, ht, hb⟩ := print_body hne h
    have hbare := bare_print (lib := lib) (pt := pt) hr layers
    obtain ⟨g', hg'⟩ := exec_bare harmless_print (harmless_print (o := inManner o m)) hbare ⟨g, hb⟩
    have hex : ∃ g2, (newBuilder (inManner o m).filament.filamentDiameter (inManner o m).filament.extrusionMultiplier).exec crossing
        ((allScripts (inManner o m) (standardRenderers lib (inManner o m) pt) layers).flatMap Script.calls) = .ok g2 := by
      rw [allCalls_print lib (inManner o m) pt hne, exec_append, exec_append, exec_texts _ (preLayerStart_texts _)]
      have e : ∀ b : Str, ({ newBuilder (inManner o m).filament.filamentDiameter (inManner o m).filament.extrusionMultiplier with
          buf := (newBuilder (inManner o m).filament.filamentDiameter (inManner o m).filament.extrusionMultiplier).buf ++ b } : Builder) =
          withPrefix b (newBuilder o.filament.filamentDiameter o.filament.extrusionMultiplier) := by
        intro b
        simp [withPrefix, newBuilder, inManner]
      simp only [Except.bind, e, prefix_exec, hg', Except.map]
      obtain ⟨g2, h2⟩ := exec_end (crossing := crossing) (inManner o m) g'
      rw [h2]
      exact ⟨_, rfl⟩
    obtain ⟨g2, hg2⟩ := hex
    have h' := C30_scripts (g0 := g1).2 ⟨fault_manner (m := m) layers (C30_scripts.1 h).1, g2, hg2, rfl⟩
    obtain ⟨g3, ht3, hb3⟩ := print_body hne h'
    refine ⟨g2.buf, h', .inr ⟨g.buf, g3.buf, _, _, _, _, ht, ht3, C18_refines harmless_print hb, C18_refines harmless_print hb3, ?_⟩⟩
    exact effect_bare (requests_bare hbare)

/-- **C133** The speeds, the temperatures, the fan, the additional commands and the options of the program do not change what is printed: with other values
the program also succeeds, and the moves are the same, in the same order, to the same positions and with the same filament. Only the feed rates differ. The
only exception is a retraction speed below 1 mm/s, which switches the retraction off. -/
theorem C133_manner {ext : Externals} {content t : Str} (hr : truncZ o.filament.retractionSpeed = 0 ↔ truncZ m.retractionSpeed = 0)
    (h : gcodeOf ext o content = .ok t) :
    ∃ t', gcodeOf ext (inManner o m) content = .ok t' ∧
      (t = [] ∧ t' = [] ∨ ∃ body body' s s' moves moves', t = startText o ++ body ++ endText o ∧
        t' = startText (inManner o m) ++ body' ++ endText (inManner o m) ∧ run body = some (s, moves) ∧ run body' = some (s', moves') ∧
        moves.map withoutFeed = moves'.map withoutFeed) := by
  unfold gcodeOf at h ⊢
  obtain ⟨u, h0, h⟩ := bind_ok.1 h
  obtain ⟨om, h1, h⟩ := bind_ok.1 h
  obtain ⟨sliced, h2, h⟩ := bind_ok.1 h
  obtain ⟨layers, h3, h⟩ := bind_ok.1 h
  obtain ⟨pt, h4, h⟩ := bind_ok.1 h
  split at h
  · cases h
  · rename_i heq
    cases h
    obtain ⟨t', h5, h6⟩ := C133_generate (m := m) hr heq (g1 := newBuilder o.filament.filamentDiameter o.filament.extrusionMultiplier)
    refine ⟨t', ?_, h6⟩
    have e1 : optimize (inManner o m) ((ext.stl content).map stlTriangleToFace) = .ok om := h1
    have e2 : slice ext.lib (inManner o m) om = .ok sliced := (slice_depends (o := inManner o m) (o' := o) ⟨rfl, rfl, rfl⟩ om).trans h2
    have e3 : (standardModifiers ext.lib ext.tan (inManner o m)).foldlM (fun ls m => m ls) sliced = .ok layers := by rw [modifiers_manner]; exact h3
    have e4 : initPatterns ext.lib ext.trig (inManner o m) om = .ok pt := h4
    refine bind_ok.2 ⟨u, h0, bind_ok.2 ⟨om, e1, bind_ok.2 ⟨sliced, e2, bind_ok.2 ⟨layers, e3, bind_ok.2 ⟨pt, e4, ?_⟩⟩⟩⟩⟩
    have h5' : (generateScripts ext.lib.isCrossingPerimeter (inManner o m) (standardRenderers ext.lib (inManner o m) pt) layers
      (newBuilder (inManner o m).filament.filamentDiameter (inManner o m).filament.extrusionMultiplier)).2 = (t', none) := h5
    rw [h5']

end

/-- Non-vacuity of `C133_manner`: the tetrahedron can be printed, also slowly, cold and without any additional command. -/
example : ∃ t t', gcodeOf { cornerExt with lib := insideClipper } {} [] = .ok t ∧ gcodeOf { cornerExt with lib := insideClipper }
    (inManner {} ⟨1, 2, 3, 4, 5, 0, 0, 0, 0, 7, fun _ => none, false, false, [], [], {}⟩) [] = .ok t' := by
  have hm : cornerMesh = (cornerExt.stl []).map stlTriangleToFace := by decide +kernel
  have ho : OpenClipping insideClipper := by
    refine ⟨fun t s c => ⟨_, rfl⟩, ?_⟩
    intro s c tree h hs n hn
    simp only [insideClipper, if_true, Option.some.injEq] at h
    subst h
    obtain ⟨l, hl, rfl⟩ := List.mem_map.1 hn
    simp [PolyNode.contour, hs l hl]
  obtain ⟨t, ht⟩ := C90_gcode { cornerExt with lib := insideClipper } {} [] sensible_default (fun _ _ _ => rfl) ho cornerMesh hm (by decide) (by decide)
    (by unfold Separated; decide +kernel) corner_noGap (.inr rfl)
  obtain ⟨t', ht', -⟩ := C133_manner (m := ⟨1, 2, 3, 4, 5, 0, 0, 0, 0, 7, fun _ => none, false, false, [], [], {}⟩) (by decide +kernel) ht
  exact ⟨t, t', ht, ht'⟩

/-- The condition for the retraction speed is needed: without a speed nothing is retracted. -/
example : (plan (fun _ _ => (true, true)) (fun _ _ => 1) [.setRetractionAmount 2, .setRetractionSpeed 30, .polygon (some []) [⟨5, 5⟩] 0 true]).requests.map Request.bare ≠
    (plan (fun _ _ => (true, true)) (fun _ _ => 1) [.setRetractionAmount 2, .setRetractionSpeed (1 / 2), .polygon (some []) [⟨5, 5⟩] 0 true]).requests.map Request.bare := by
  decide +kernel

end Verif
