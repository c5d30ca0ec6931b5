import Verif.Spec.Flags
import Verif.Model.Flags
import Verif.Props.Millimeter
import Verif.Props.Options
import Verif.Props.Whole

/-! # C92, C93, C95: the command line -/
namespace Verif
open Verif.Go Verif.Model Verif.Spec

/-! ## Specification -/

/-- Specification: the text of the last setting of a flag. -/
def lastText (settings : List (Str × Str)) (name : Str) : Option Str := ((settings.filter fun s => s.1 = name).getLast?).map Prod.snd

/-- Specification: the texts for yes and no. -/
def BoolText (t : Str) (b : Bool) : Prop :=
  b = true ∧ String.ofList t ∈ ["1", "t", "T", "true", "True", "TRUE"] ∨ b = false ∧ String.ofList t ∈ ["0", "f", "F", "false", "False", "FALSE"]

/-- Specification: the value a text stands for, by the type of the option. -/
def ReadsAs (t : Str) : OptionValue → Prop
  | .bool b => BoolText t b
  | .int v => IntText t v
  | .string s => s = t
  | .length v => ∃ x, FloatLit t x ∧ v = r32 x ∧ |v| < 2 ^ 128
  | .vec3 v => VecText t v.x v.y v.z
  | .fan f => ∃ kvs, FanText t kvs ∧ f = lastMention kvs
  | .hunk l => ∃ rows : List Str, t = List.intercalate ['\n'] rows ∧ (∀ r ∈ rows, '\n' ∉ r) ∧ 2 ≤ rows.length ∧ l = rows.filter (fun r => ¬ Blank r)

/-- Specification: values of the same type. -/
def SameType : OptionValue → OptionValue → Prop
  | .bool _, .bool _ | .int _, .int _ | .string _, .string _ | .length _, .length _ | .vec3 _, .vec3 _ | .fan _, .fan _ | .hunk _, .hunk _ => True
  | _, _ => False

/-! ## The table of flags -/

/-- A value as value of an option. -/
def kindValue : (k : Kind) → k.Val → OptionValue
  | .bool, v => .bool v
  | .int, v => .int v
  | .string, v => .string v
  | .micrometer, v => .int v
  | .millimeter, v => .length v
  | .vec3, v => .vec3 v
  | .fan, v => .fan v
  | .hunk, v => .hunk v

/-- The options if parsing ends in a state. -/
def inForce (s : FlagState) : Options := { s.options with printer := { s.options.printer with center := s.center } }

theorem flags_get_put : ∀ f ∈ flags, ∀ s v, f.get (f.put s v) = v := by
  unfold flags
  repeat' first
    | exact fun _ h => absurd h List.not_mem_nil
    | refine List.forall_mem_cons.2 ⟨fun _ _ => rfl, ?_⟩

theorem flags_path : ∀ f ∈ flags, ∀ s v, (f.put s v).options.goSlice.inputFilePath = s.options.goSlice.inputFilePath := by
  unfold flags
  repeat' first
    | exact fun _ h => absurd h List.not_mem_nil
    | refine List.forall_mem_cons.2 ⟨fun _ _ => rfl, ?_⟩

theorem flags_pairwise : flags.Pairwise fun f g => (∀ s v, g.get (f.put s v) = g.get s) ∧ ∀ s v, f.get (g.put s v) = f.get s := by
  unfold flags
  repeat' first
    | exact List.Pairwise.nil
    | refine List.Pairwise.cons ?_ ?_
    | exact fun _ h => absurd h List.not_mem_nil
    | refine List.forall_mem_cons.2 ⟨⟨fun _ _ => rfl, fun _ _ => rfl⟩, ?_⟩

/-- **C93** No two flags have the same name. -/
theorem C93_names : (flags.map Flag.name).Nodup := by decide +kernel

theorem flags_optionOf : ∀ f ∈ flags, ∀ s, optionOf (inForce s) f.name = some (kindValue f.kind (f.get s)) := by
  unfold flags
  repeat' first
    | exact fun _ h => absurd h List.not_mem_nil
    | refine List.forall_mem_cons.2 ⟨fun _ => rfl, ?_⟩

theorem mem_flag_names (o : Options) (n : String) (h : optionOf o n ≠ none) : n ∈ flags.map Flag.name := by
  revert h
  unfold optionOf
  split <;> intro h <;> first | exact absurd rfl h | (clear h; decide +kernel)

/-- Flags with the same name are the same. -/
theorem flag_unique {f g : Flag} (hf : f ∈ flags) (hg : g ∈ flags) (h : f.name = g.name) : f = g :=
  List.inj_on_of_nodup_map C93_names hf hg h

theorem flags_indep {f g : Flag} (hf : f ∈ flags) (hg : g ∈ flags) (h : f.name ≠ g.name) (s : FlagState) (v : f.kind.Val) :
    g.get (f.put s v) = g.get s := by
  obtain ⟨i, hi, rfl⟩ := List.mem_iff_getElem.1 hf
  obtain ⟨j, hj, rfl⟩ := List.mem_iff_getElem.1 hg
  have hp := List.pairwise_iff_getElem.1 flags_pairwise
  rcases Nat.lt_trichotomy i j with hij | rfl | hij
  · exact (hp i j hi hj hij).1 s v
  · exact absurd rfl h
  · exact (hp j i hj hi hij).2 s v

/-- **C93** Everything but the input path can be set by a flag: options which agree at all flags and the input path are the same. -/
theorem C93_complete (o o' : Options) (h : ∀ n, optionOf o n = optionOf o' n) (hp : o.goSlice.inputFilePath = o'.goSlice.inputFilePath) : o = o' := by
  have e0 : o.goSlice.printVersion = o'.goSlice.printVersion := OptionValue.bool.inj (Option.some.inj (h "version"))
  have e1 : o.goSlice.outputFilePath = o'.goSlice.outputFilePath := OptionValue.string.inj (Option.some.inj (h "output"))
  have e2 : o.slicing.meldDistance = o'.slicing.meldDistance := OptionValue.int.inj (Option.some.inj (h "meld-distance"))
  have e3 : o.slicing.joinPolygonSnapDistance = o'.slicing.joinPolygonSnapDistance := OptionValue.int.inj (Option.some.inj (h "join-polygon-snap-distance"))
  have e4 : o.slicing.finishPolygonSnapDistance = o'.slicing.finishPolygonSnapDistance := OptionValue.int.inj (Option.some.inj (h "finish-polygon-snap-distance"))
  have e5 : o.print.initialLayerSpeed = o'.print.initialLayerSpeed := OptionValue.length.inj (Option.some.inj (h "initial-layer-speed"))
  have e6 : o.print.layerSpeed = o'.print.layerSpeed := OptionValue.length.inj (Option.some.inj (h "layer-speed"))
  have e7 : o.print.outerPerimeterSpeed = o'.print.outerPerimeterSpeed := OptionValue.length.inj (Option.some.inj (h "outer-perimeter-speed"))
  have e8 : o.print.moveSpeed = o'.print.moveSpeed := OptionValue.length.inj (Option.some.inj (h "move-speed"))
  have e9 : o.print.initialLayerThickness = o'.print.initialLayerThickness := OptionValue.int.inj (Option.some.inj (h "initial-layer-thickness"))
  have e10 : o.print.layerThickness = o'.print.layerThickness := OptionValue.int.inj (Option.some.inj (h "layer-thickness"))
  have e11 : o.print.insetCount = o'.print.insetCount := OptionValue.int.inj (Option.some.inj (h "inset-count"))
  have e12 : o.print.infillOverlapPercent = o'.print.infillOverlapPercent := OptionValue.int.inj (Option.some.inj (h "infill-overlap-percent"))
  have e13 : o.print.additionalInternalInfillOverlapPercent = o'.print.additionalInternalInfillOverlapPercent := OptionValue.int.inj (Option.some.inj (h "additional-internal-infill-overlap-percent"))
  have e14 : o.print.infillPercent = o'.print.infillPercent := OptionValue.int.inj (Option.some.inj (h "infill-percent"))
  have e15 : o.print.infillRotationDegree = o'.print.infillRotationDegree := OptionValue.int.inj (Option.some.inj (h "infill-rotation-degree"))
  have e16 : o.print.infillZigZag = o'.print.infillZigZag := OptionValue.bool.inj (Option.some.inj (h "infill-zig-zag"))
  have e17 : o.print.numberBottomLayers = o'.print.numberBottomLayers := OptionValue.int.inj (Option.some.inj (h "number-bottom-layers"))
  have e18 : o.print.numberTopLayers = o'.print.numberTopLayers := OptionValue.int.inj (Option.some.inj (h "number-top-layers"))
  have e19 : o.print.support.enabled = o'.print.support.enabled := OptionValue.bool.inj (Option.some.inj (h "support-enabled"))
  have e20 : o.print.support.thresholdAngle = o'.print.support.thresholdAngle := OptionValue.int.inj (Option.some.inj (h "support-threshold-angle"))
  have e21 : o.print.support.topGapLayers = o'.print.support.topGapLayers := OptionValue.int.inj (Option.some.inj (h "support-top-gap-layers"))
  have e22 : o.print.support.interfaceLayers = o'.print.support.interfaceLayers := OptionValue.int.inj (Option.some.inj (h "support-interface-layers"))
  have e23 : o.print.support.patternSpacing = o'.print.support.patternSpacing := OptionValue.length.inj (Option.some.inj (h "support-pattern-spacing"))
  have e24 : o.print.support.gap = o'.print.support.gap := OptionValue.length.inj (Option.some.inj (h "support-gap"))
  have e25 : o.print.brimSkirt.skirtCount = o'.print.brimSkirt.skirtCount := OptionValue.int.inj (Option.some.inj (h "skirt-count"))
  have e26 : o.print.brimSkirt.skirtDistance = o'.print.brimSkirt.skirtDistance := OptionValue.length.inj (Option.some.inj (h "skirt-distance"))
  have e27 : o.print.brimSkirt.brimCount = o'.print.brimSkirt.brimCount := OptionValue.int.inj (Option.some.inj (h "brim-count"))
  have e28 : o.filament.filamentDiameter = o'.filament.filamentDiameter := OptionValue.int.inj (Option.some.inj (h "filament-diameter"))
  have e29 : o.filament.initialBedTemperature = o'.filament.initialBedTemperature := OptionValue.int.inj (Option.some.inj (h "initial-bed-temperature"))
  have e30 : o.filament.initialHotEndTemperature = o'.filament.initialHotEndTemperature := OptionValue.int.inj (Option.some.inj (h "initial-hot-end-temperature"))
  have e31 : o.filament.bedTemperature = o'.filament.bedTemperature := OptionValue.int.inj (Option.some.inj (h "bed-temperature"))
  have e32 : o.filament.hotEndTemperature = o'.filament.hotEndTemperature := OptionValue.int.inj (Option.some.inj (h "hot-end-temperature"))
  have e33 : o.filament.initialTemperatureLayerCount = o'.filament.initialTemperatureLayerCount := OptionValue.int.inj (Option.some.inj (h "initial-temperature-layer-count"))
  have e34 : o.filament.retractionSpeed = o'.filament.retractionSpeed := OptionValue.length.inj (Option.some.inj (h "retraction-speed"))
  have e35 : o.filament.retractionLength = o'.filament.retractionLength := OptionValue.length.inj (Option.some.inj (h "retraction-length"))
  have e36 : o.filament.retractionZHop = o'.filament.retractionZHop := OptionValue.length.inj (Option.some.inj (h "retraction-z-hop"))
  have e37 : o.filament.fanSpeed = o'.filament.fanSpeed := OptionValue.fan.inj (Option.some.inj (h "fan-speed"))
  have e38 : o.filament.extrusionMultiplier = o'.filament.extrusionMultiplier := OptionValue.int.inj (Option.some.inj (h "extrusion-multiplier"))
  have e39 : o.printer.extrusionWidth = o'.printer.extrusionWidth := OptionValue.int.inj (Option.some.inj (h "extrusion-width"))
  have e40 : o.printer.center = o'.printer.center := OptionValue.vec3.inj (Option.some.inj (h "center"))
  have e41 : o.printer.forceSafeStartStopGCode = o'.printer.forceSafeStartStopGCode := OptionValue.bool.inj (Option.some.inj (h "force-safe-gcode"))
  have e42 : o.printer.hasHeatedBed = o'.printer.hasHeatedBed := OptionValue.bool.inj (Option.some.inj (h "has-heated-bed"))
  have e43 : o.printer.startGCode = o'.printer.startGCode := OptionValue.hunk.inj (Option.some.inj (h "start-gcode"))
  have e44 : o.printer.endGCode = o'.printer.endGCode := OptionValue.hunk.inj (Option.some.inj (h "end-gcode"))
  obtain ⟨⟨⟩, ⟨⟩, ⟨⟩, ⟨_, _, _, _, _, _, _, _, _, _, _, _, _, _, ⟨⟩, ⟨⟩⟩, ⟨⟩⟩ := o
  obtain ⟨⟨⟩, ⟨⟩, ⟨⟩, ⟨_, _, _, _, _, _, _, _, _, _, _, _, _, _, ⟨⟩, ⟨⟩⟩, ⟨⟩⟩ := o'
  clear h
  dsimp only at *
  subst_vars
  rfl

/-! ## Texts -/

theorem boolText_iff (t : Str) (b : Bool) : parseBool t = (b, none) ↔ BoolText t b := by
  have key : ∀ l : List String, t ∈ l.map String.toList ↔ String.ofList t ∈ l := by
    intro l
    rw [List.mem_map]
    constructor
    · rintro ⟨s, hs, rfl⟩
      rwa [String.ofList_toList]
    · intro h
      exact ⟨_, h, String.toList_ofList⟩
  unfold parseBool BoolText
  simp only [key]
  split
  · rename_i h
    cases b
    · simp only [List.mem_cons, List.not_mem_nil, or_false] at h
      rcases h with h | h | h | h | h | h <;> rw [h] <;> decide
    · simp at h ⊢
      tauto
  · rename_i h
    split
    · rename_i h'
      cases b <;> simp at h h' ⊢ <;> tauto
    · rename_i h'
      cases b <;> simp at h h' ⊢ <;> tauto

theorem numError_none {α : Type} {r : α × Option NumError} (h : r.2.isSome = false) : r = (r.1, none) := by
  obtain ⟨a, _ | e⟩ := r
  · rfl
  · cases h

/-- An accepted text yields the value it stands for. -/
theorem kind_reads (k : Kind) (v : k.Val) (t : Str) (h : (k.set v t).2 = false) : ReadsAs t (kindValue k (k.set v t).1) := by
  cases k with
  | bool => exact (boolText_iff t _).1 (numError_none h)
  | int => exact (C12_all t _).1 (numError_none h)
  | string => rfl
  | micrometer => exact (C12_all t _).1 (numError_none h)
  | millimeter => exact (C94_accepts t _).1 (numError_none h)
  | vec3 => exact (C13_accepts v t _ _ _).2 (Prod.ext rfl h)
  | fan =>
    obtain ⟨kvs, hk⟩ := C14_accepts_only v t h
    exact ⟨kvs, hk, congrArg Prod.fst (C14_table v t kvs hk)⟩
  | hunk =>
    have : '\n' ∈ t := by
      by_contra hn
      have := (C16_fails v t).2 hn
      rw [show (hunkSet v t).2 = false from h] at this
      cases this
    obtain ⟨rows, rfl, h1, h2⟩ := C16_rows t this
    exact ⟨rows, rfl, h1, h2, congrArg Prod.fst (C16_lines v rows h1 h2)⟩

/-- A text which stands for a value is accepted, and the old value does not matter. -/
theorem kind_accepts (k : Kind) (v w : k.Val) (t : Str) (h : ReadsAs t (kindValue k w)) :
    k.set v t = (w, false) := by
  have num : ∀ {α : Type} {r : α × Option NumError} {w : α}, r = (w, none) → (r.1, r.2.isSome) = (w, false) := by
    rintro α r w rfl; rfl
  cases k with
  | bool => exact num ((boolText_iff t w).2 h)
  | int => exact num ((C12_all t w).2 h)
  | string => exact Prod.ext (Eq.symm h) rfl
  | micrometer => exact num ((C12_all t w).2 h)
  | millimeter => exact num ((C94_accepts t w).2 h)
  | vec3 => exact (C13_accepts v t _ _ _).1 h
  | fan =>
    obtain ⟨kvs, hk, rfl⟩ := h
    exact C14_table v t kvs hk
  | hunk =>
    obtain ⟨rows, rfl, h1, h2, rfl⟩ := h
    exact C16_lines v rows h1 h2

/-- If a text is accepted, then the old value does not matter. -/
theorem kind_indep (k : Kind) (v w : k.Val) (t : Str) (h : (k.set v t).2 = false) : k.set w t = k.set v t := by
  have hk : ∀ k : Kind, (k = .vec3 ∨ k = .fan ∨ k = .hunk) ∨ ∀ (v w : k.Val), k.set w t = k.set v t := by
    intro k
    cases k <;> first | exact .inr fun _ _ => rfl | exact .inl (by simp)
  rcases hk k with hk | hk
  · have := kind_reads k v t h
    rw [kind_accepts k w _ t this]
    exact Prod.ext rfl h.symm
  · exact hk v w

theorem sameType_kind (k : Kind) (v w : k.Val) : SameType (kindValue k v) (kindValue k w) := by
  cases k <;> trivial

theorem kind_of_sameType {k : Kind} {v : k.Val} {v' : OptionValue} (h : SameType (kindValue k v) v') : ∃ w, v' = kindValue k w := by
  cases k <;> cases v' <;> first | exact ⟨_, rfl⟩ | exact absurd h (by simp [SameType, kindValue])

/-! ## The settings -/

theorem lastText_cons (n t : Str) (rest : List (Str × Str)) (m : Str) :
    lastText ((n, t) :: rest) m = (lastText rest m).or (if n = m then some t else none) := by
  unfold lastText
  rw [List.filter_cons]
  by_cases h : n = m
  · simp only [h, decide_true, if_true, List.getLast?_cons, Option.map_some]
    cases (rest.filter fun s => s.1 = m).getLast? <;> rfl
  · simp only [h, decide_false, Bool.false_eq_true, if_false, Option.or_none]

/-- The flag of a name. -/
theorem find_flag {n : Str} {g : Flag} (h : flags.find? (fun f => f.name.toList = n) = some g) : g ∈ flags ∧ g.name.toList = n :=
  ⟨List.mem_of_find?_eq_some h, by simpa using List.find?_some h⟩

theorem find_flag' {g : Flag} (h : g ∈ flags) : flags.find? (fun f => f.name.toList = g.name.toList) = some g := by
  cases hf : flags.find? (fun f => f.name.toList = g.name.toList) with
  | none => exact absurd (by simp) (List.find?_eq_none.1 hf g h)
  | some g' =>
    obtain ⟨h1, h2⟩ := find_flag hf
    rw [flag_unique h1 h (String.toList_inj.1 h2)]

/-- After the settings each flag has the value of its last setting, or the value before. -/
theorem applySettings_get : ∀ (l : List (Str × Str)) (s s' : FlagState), applySettings l s = some s' → ∀ f ∈ flags,
    (lastText l f.name.toList = none → f.get s' = f.get s) ∧
    ∀ t, lastText l f.name.toList = some t → f.kind.set (f.get s) t = (f.get s', false) := by
  intro l
  induction l with
  | nil =>
    intro s s' h f _
    cases h
    exact ⟨fun _ => rfl, fun t ht => nomatch ht⟩
  | cons st rest ih =>
    obtain ⟨n, t⟩ := st
    intro s s' h f hf
    rw [applySettings] at h
    split at h
    · cases h
    · rename_i g hg
      obtain ⟨hgm, rfl⟩ := find_flag hg
      split at h
      · cases h
      · rename_i hok
        obtain ⟨i1, i2⟩ := ih _ _ h f hf
        have hset : (g.kind.set (g.get s) t).2 = false := by simpa [Flag.set] using hok
        rw [lastText_cons]
        by_cases hn : g.name = f.name
        · obtain rfl := flag_unique hgm hf hn
          have hget : g.get (g.set s t).1 = (g.kind.set (g.get s) t).1 := flags_get_put g hgm s _
          rw [if_pos rfl]
          cases hl : lastText rest g.name.toList with
          | none =>
            refine ⟨fun h => (by cases h), fun t' ht' => ?_⟩
            cases ht'
            rw [i1 hl, hget]
            exact Prod.ext rfl hset
          | some t2 =>
            refine ⟨fun h => (by cases h), fun t' ht' => ?_⟩
            cases ht'
            have h2 := i2 t2 hl
            rw [kind_indep _ _ (g.get s) _ (by rw [h2])]
            exact h2
        · have hget : f.get (g.set s t).1 = f.get s := flags_indep hgm hf hn s _
          rw [if_neg (fun h => hn (String.toList_inj.1 h)), Option.or_none]
          rw [hget] at i1 i2
          exact ⟨i1, i2⟩

theorem applySettings_path : ∀ (l : List (Str × Str)) (s s' : FlagState), applySettings l s = some s' →
    s'.options.goSlice.inputFilePath = s.options.goSlice.inputFilePath := by
  intro l
  induction l with
  | nil => intro s s' h; cases h; rfl
  | cons st rest ih =>
    obtain ⟨n, t⟩ := st
    intro s s' h
    rw [applySettings] at h
    split at h
    · cases h
    · rename_i g hg
      split at h
      · cases h
      · rw [ih _ _ h]
        exact flags_path g (find_flag hg).1 s _

theorem applySettings_known : ∀ (l : List (Str × Str)) (s s' : FlagState), applySettings l s = some s' → ∀ n t, (n, t) ∈ l →
    ∃ f ∈ flags, f.name.toList = n ∧ ∃ v, (f.kind.set v t).2 = false := by
  intro l
  induction l with
  | nil => intro s s' _ n t h; cases h
  | cons st rest ih =>
    obtain ⟨n, t⟩ := st
    intro s s' h n' t' hm
    rw [applySettings] at h
    split at h
    · cases h
    · rename_i g hg
      split at h
      · cases h
      · rename_i hok
        rcases List.mem_cons.1 hm with hm | hm
        · cases hm
          obtain ⟨h1, h2⟩ := find_flag hg
          exact ⟨g, h1, h2, g.get s, by simpa [Flag.set] using hok⟩
        · exact ih _ _ h n' t' hm

theorem lastText_mem {l : List (Str × Str)} {n t : Str} (h : lastText l n = some t) : (n, t) ∈ l := by
  obtain ⟨⟨n', t'⟩, h1, rfl⟩ := Option.map_eq_some_iff.1 h
  have := List.mem_filter.1 (List.mem_of_getLast? h1)
  obtain ⟨h2, h3⟩ := this
  have : n' = n := by simpa using h3
  exact this ▸ h2

/-- The state before the settings. -/
def startState : FlagState := ⟨{}, ({} : Options).printer.center⟩

theorem parseFlags_some {cl : CommandLine} {o : Options} (h : parseFlags cl = some o) :
    cl.broken = false ∧ ∃ s, applySettings cl.settings startState = some s ∧ (∀ n, optionOf o n = optionOf (inForce s) n) ∧
      o.goSlice.inputFilePath = cl.args.headD [] := by
  unfold parseFlags at h
  dsimp only at h
  change (match applySettings cl.settings startState with | none => none | some s => _) = some o at h
  cases hs : applySettings cl.settings startState with
  | none => rw [hs] at h; cases h
  | some s =>
    rw [hs] at h
    dsimp only at h
    split at h
    · cases h
    · rename_i hb
      refine ⟨by simpa using hb, s, rfl, ?_⟩
      have hp := applySettings_path _ _ _ hs
      cases ha : cl.args with
      | nil =>
        rw [ha] at h
        cases h
        exact ⟨fun _ => rfl, hp⟩
      | cons a as =>
        rw [ha] at h
        cases h
        exact ⟨fun n => by unfold optionOf; rfl, rfl⟩

/-- **C93** Each option has the value of the last setting of its flag, or the default value if there is none. The input path is the first argument. -/
theorem C93_options (cl : CommandLine) (o : Options) (h : parseFlags cl = some o) :
    (∀ n, lastText cl.settings n.toList = none → optionOf o n = optionOf {} n) ∧
    (∀ n t, lastText cl.settings n.toList = some t → ∃ v, optionOf o n = some v ∧ ReadsAs t v) ∧
    o.goSlice.inputFilePath = cl.args.headD [] := by
  obtain ⟨-, s, hs, ho, hp⟩ := parseFlags_some h
  have hstart : inForce startState = {} := rfl
  refine ⟨fun n hn => ?_, fun n t ht => ?_, hp⟩
  · by_cases hm : n ∈ flags.map Flag.name
    · obtain ⟨f, hf, rfl⟩ := List.mem_map.1 hm
      rw [ho, ← hstart, flags_optionOf f hf, flags_optionOf f hf, (applySettings_get _ _ _ hs f hf).1 hn]
    · have h1 : ∀ o, optionOf o n = none := fun o => by
        by_contra h
        exact hm (mem_flag_names o n h)
      rw [h1, h1]
  · obtain ⟨f, hf, hn, -⟩ := applySettings_known _ _ _ hs _ t (lastText_mem ht)
    obtain rfl := String.toList_inj.1 hn
    have h2 := (applySettings_get _ _ _ hs f hf).2 t ht
    refine ⟨_, by rw [ho, flags_optionOf f hf], ?_⟩
    have := kind_reads _ _ t (by rw [h2])
    rwa [h2] at this

/-- **C93** The default values are those of the table. -/
theorem C93_defaults (cl : CommandLine) (o : Options) (h : parseFlags cl = some o) (n : String) (hn : lastText cl.settings n.toList = none) :
    optionOf o n = defaultOf n := by
  rw [(C93_options cl o h).1 n hn]
  unfold optionOf defaultOf
  split <;> rfl

/-- **C93** The program refuses a command line with an unknown flag or with a text which does not stand for a value of the option. -/
theorem C93_refuses (cl : CommandLine) (o : Options) (h : parseFlags cl = some o) :
    cl.broken = false ∧ ∀ n t, (n, t) ∈ cl.settings → ∃ name v, n = String.toList name ∧ optionOf o name = some v ∧ ∃ v', ReadsAs t v' ∧ SameType v v' := by
  obtain ⟨hb, s, hs, ho, -⟩ := parseFlags_some h
  refine ⟨hb, fun n t hm => ?_⟩
  obtain ⟨f, hf, rfl, v, hv⟩ := applySettings_known _ _ _ hs n t hm
  exact ⟨f.name, _, rfl, by rw [ho, flags_optionOf f hf], _, kind_reads _ v t hv, sameType_kind _ _ _⟩

/-- **C93** All other command lines are accepted. -/
theorem C93_accepts (cl : CommandLine) (hb : cl.broken = false)
    (h : ∀ n t, (n, t) ∈ cl.settings → ∃ name v v', n = String.toList name ∧ optionOf {} name = some v ∧ SameType v v' ∧ ReadsAs t v') :
    ∃ o, parseFlags cl = some o := by
  have key : ∃ s, applySettings cl.settings startState = some s := by
    generalize startState = s
    generalize cl.settings = l at h
    induction l generalizing s with
    | nil => exact ⟨s, rfl⟩
    | cons st rest ih =>
      obtain ⟨n, t⟩ := st
      obtain ⟨name, v, v', rfl, h1, h2, h3⟩ := h n t List.mem_cons_self
      obtain ⟨f, hf, rfl⟩ := List.mem_map.1 (mem_flag_names {} name (by rw [h1]; simp))
      have h5 : optionOf {} f.name = some (kindValue f.kind (f.get startState)) := flags_optionOf f hf startState
      rw [h1] at h5
      have h5 := Option.some.inj h5
      subst h5
      obtain ⟨w, rfl⟩ := kind_of_sameType h2
      have hset := kind_accepts f.kind (f.get s) w t h3
      rw [applySettings, find_flag' hf]
      have : (f.set s t).2 = false := congrArg Prod.snd hset
      simp only [this, Bool.false_eq_true, if_false]
      exact ih _ fun n t hm => h n t (List.mem_cons_of_mem _ hm)
  obtain ⟨s, hs⟩ := key
  have hs : applySettings cl.settings ⟨{}, ⟨({} : Options).printer.center.x, ({} : Options).printer.center.y, ({} : Options).printer.center.z⟩⟩ = some s := hs
  unfold parseFlags
  dsimp only at hs ⊢
  rw [hs]
  simp only [hb, Bool.false_eq_true, if_false]
  exact ⟨_, rfl⟩

/-- **C93** Only the last setting of each flag and the first argument matter. In particular the order of settings of different flags does not. -/
theorem C93_order (cl cl' : CommandLine) (o o' : Options) (h : parseFlags cl = some o) (h' : parseFlags cl' = some o')
    (hl : ∀ n, lastText cl.settings n = lastText cl'.settings n) (ha : cl.args.head? = cl'.args.head?) : o = o' := by
  obtain ⟨-, s, hs, ho, hp⟩ := parseFlags_some h
  obtain ⟨-, s', hs', ho', hp'⟩ := parseFlags_some h'
  apply C93_complete
  · intro n
    rw [ho, ho']
    by_cases hm : n ∈ flags.map Flag.name
    · obtain ⟨f, hf, rfl⟩ := List.mem_map.1 hm
      rw [flags_optionOf f hf, flags_optionOf f hf]
      obtain ⟨a1, a2⟩ := applySettings_get _ _ _ hs f hf
      obtain ⟨b1, b2⟩ := applySettings_get _ _ _ hs' f hf
      rw [← hl] at b1 b2
      cases ht : lastText cl.settings f.name.toList with
      | none => rw [a1 ht, b1 ht]
      | some t =>
        have := (a2 t ht).symm.trans (b2 t ht)
        rw [(Prod.mk.inj this).1]
    · have h1 : ∀ o, optionOf o n = none := fun o => by
        by_contra h
        exact hm (mem_flag_names o n h)
      rw [h1, h1]
  · rw [hp, hp', List.headD_eq_head?_getD, List.headD_eq_head?_getD, ha]

/-! ## C92: the exit status -/

theorem main_process (ext : Externals) (cl : CommandLine) (w : World) (o : Options) (h : parseFlags cl = some o) (hv : o.goSlice.printVersion = false)
    (hp : o.goSlice.inputFilePath ≠ []) : main ext cl w = ((goSlice ext o w).1, if (goSlice ext o w).2 = .ok () then 0 else 2) := by
  unfold main
  rw [h]
  simp only [hv, hp, if_false, Bool.false_eq_true]
  cases hg : goSlice ext o w with
  | mk w' r => cases r <;> simp

/-- **C92** A refused command line: status 2, and nothing is touched. -/
theorem C92_refused (ext : Externals) (cl : CommandLine) (w : World) (h : parseFlags cl = none) : main ext cl w = (w, 2) := by
  unfold main
  rw [h]

/-- **C92** With `--version`: status 0, and nothing is touched, even if an input path is given. -/
theorem C92_version (ext : Externals) (cl : CommandLine) (w : World) (o : Options) (h : parseFlags cl = some o) (hv : optionOf o "version" = some (.bool true)) :
    main ext cl w = (w, 0) := by
  have hv : o.goSlice.printVersion = true := OptionValue.bool.inj (Option.some.inj hv)
  unfold main
  rw [h]
  simp only [hv, if_true]

/-- **C92** Without input path: status 1, and nothing is touched. -/
theorem C92_no_path (ext : Externals) (cl : CommandLine) (w : World) (o : Options) (h : parseFlags cl = some o) (hv : optionOf o "version" = some (.bool false))
    (ha : cl.args = []) : main ext cl w = (w, 1) := by
  have hv : o.goSlice.printVersion = false := OptionValue.bool.inj (Option.some.inj hv)
  have hp := (C93_options cl o h).2.2
  rw [ha] at hp
  unfold main
  rw [h]
  simp only [hv, show o.goSlice.inputFilePath = [] from hp, if_true, if_false, Bool.false_eq_true]

/-- **C92** Status 0 without `--version` means: the output file contains all the G-code for the input file, and no other file has changed. -/
theorem C92_success (ext : Externals) (cl : CommandLine) (w : World) (o : Options) (h : parseFlags cl = some o) (hv : optionOf o "version" = some (.bool false))
    (h0 : (main ext cl w).2 = 0) :
    ∃ path content t, cl.args.head? = some path ∧ path ≠ [] ∧ w.files path = some content ∧ gcodeOf ext o content = .ok t ∧
      (main ext cl w).1.files = fun p => if p = outFile o.goSlice then some t else w.files p := by
  have hv' : o.goSlice.printVersion = false := OptionValue.bool.inj (Option.some.inj hv)
  have hp := (C93_options cl o h).2.2
  by_cases hpath : o.goSlice.inputFilePath = []
  · exfalso
    have : main ext cl w = (w, 1) := by
      unfold main
      rw [h]
      simp only [hv', hpath, if_true, if_false, Bool.false_eq_true]
    rw [this] at h0
    cases h0
  · have hm := main_process ext cl w o h hv' hpath
    rw [hm] at h0 ⊢
    have hok : (goSlice ext o w).2 = .ok () := by
      by_contra hne
      simp only [if_neg hne] at h0
      cases h0
    obtain ⟨content, t, h1, h2, h3⟩ := C71_written ext o w hok
    refine ⟨o.goSlice.inputFilePath, content, t, ?_, hpath, h1, h2, h3⟩
    rw [hp] at hpath ⊢
    cases ha : cl.args with
    | nil => rw [ha] at hpath; exact absurd rfl hpath
    | cons a as => rfl

/-- **C92** Every other failure yields status 2. -/
theorem C92_status (ext : Externals) (cl : CommandLine) (w : World) : (main ext cl w).2 = 0 ∨ (main ext cl w).2 = 1 ∨ (main ext cl w).2 = 2 := by
  unfold main
  split
  · simp
  · split
    · simp
    · split
      · simp
      · split <;> simp

/-- **C92** A failure of the program yields status 2, and no file but the output file has changed. -/
theorem C92_failure (ext : Externals) (cl : CommandLine) (w : World) (o : Options) (h : parseFlags cl = some o) (hv : optionOf o "version" = some (.bool false))
    (path : Str) (ha : cl.args.head? = some path) (hpath : path ≠ []) :
    ((main ext cl w).2 = if (goSlice ext o w).2 = .ok () then 0 else 2) ∧ ∀ p, p ≠ outFile o.goSlice → (main ext cl w).1.files p = w.files p := by
  have hv' : o.goSlice.printVersion = false := OptionValue.bool.inj (Option.some.inj hv)
  have hp := (C93_options cl o h).2.2
  rw [List.headD_eq_head?_getD, ha] at hp
  have hm := main_process ext cl w o h hv' (by rw [hp]; exact hpath)
  rw [hm]
  exact ⟨rfl, (C71_frame ext o w).1⟩

/-! ## C95: a call without flags -/

theorem parseFlags_path (path : Str) : parseFlags { args := [path] } = some { goSlice := { inputFilePath := path } } := rfl

/-- **C95** `goslice model.stl`, for a model without gaps in its height (of proper triangles whose corners are more than 30 µm apart), a library which does its work and enough space on the
disk: status 0, and the file `model.stl.gcode` contains all the G-code. -/
theorem C95_default (ext : Externals) (path content : Str) (w : World) (hpath : path ≠ []) (hf : NeverFails ext.lib) (hopen : OpenClipping ext.lib)
    (hfile : w.files path = some content) (m : Mesh) (hm : m = (ext.stl content).map stlTriangleToFace) (hne : m ≠ [])
    (hp : ∀ t ∈ m, Proper t) (hs : Separated 30 m) (hconn : NoGap m) :
    ∃ t, gcodeOf ext { goSlice := { inputFilePath := path } } content = .ok t ∧ (w.creatable (path ++ ".gcode".toList) = true → t.length ≤ w.space →
      (main ext { args := [path] } w).2 = 0 ∧ (main ext { args := [path] } w).1.files (path ++ ".gcode".toList) = some t) := by
  have ho : Sensible { goSlice := { inputFilePath := path } } := by
    obtain ⟨h1, h2, h3, h4, h5, h6, h7, h8, h9⟩ := sensible_default
    exact ⟨h1, h2, h3, h4, h5, h6, h7, h8, h9⟩
  obtain ⟨t, ht, h⟩ := C90_succeeds ext { goSlice := { inputFilePath := path } } w content ho hf hopen hfile m hm hne hp hs hconn (.inr rfl)
  refine ⟨t, ht, fun hc hsp => ?_⟩
  obtain ⟨h1, h2⟩ := h hc hsp
  rw [main_process ext _ w _ (parseFlags_path path) rfl hpath]
  exact ⟨if_pos h1, h2⟩

/-! ## Examples -/

/-- `--layer-thickness 100 --layer-speed 45.5 --layer-thickness 0x12C model.stl other.stl` -/
def exampleLine : CommandLine where
  settings := [("layer-thickness".toList, "100".toList), ("layer-speed".toList, "45.5".toList), ("layer-thickness".toList, "0x12C".toList)]
  args := ["model.stl".toList, "other.stl".toList]

example : lastText exampleLine.settings "layer-thickness".toList = some "0x12C".toList ∧ lastText exampleLine.settings "output".toList = none := by
  decide +kernel
example : BoolText "True".toList true ∧ ¬ BoolText "yes".toList true := by unfold BoolText; decide +kernel

/-- The example is accepted, and its options are as they should be. -/
example : ∃ o, parseFlags exampleLine = some o ∧ o.print.layerThickness = 300 ∧ o.print.initialLayerThickness = 200 ∧
    o.goSlice.inputFilePath = "model.stl".toList := by
  have hset : ∃ o, parseFlags exampleLine = some o := Option.isSome_iff_exists.1 (by decide +kernel)
  obtain ⟨o, ho⟩ := hset
  obtain ⟨h1, h2, h3⟩ := C93_options _ o ho
  refine ⟨o, ho, ?_, ?_, h3⟩
  · obtain ⟨v, hv, hr⟩ := h2 "layer-thickness" "0x12C".toList (by decide +kernel)
    have : v = .int o.print.layerThickness := (Option.some.inj hv).symm
    subst this
    have := (C12_all _ _).2 hr
    have h300 : micrometerSet "0x12C".toList = (300, none) := by decide +kernel
    rw [h300] at this
    exact (Prod.mk.inj this).1.symm
  · exact OptionValue.int.inj (Option.some.inj (h1 "initial-layer-thickness" (by decide +kernel)))

/-- An unknown flag. -/
example (ext : Externals) (w : World) : main ext { settings := [("speed".toList, "1".toList)], args := ["m.stl".toList] } w = (w, 2) :=
  C92_refused _ _ _ (by decide +kernel)

/-- Without arguments. -/
example (ext : Externals) (w : World) : main ext {} w = (w, 1) := C92_no_path ext {} w {} rfl rfl rfl

/-- The version, even with an input path. -/
example (ext : Externals) (w : World) : main ext { settings := [("version".toList, "true".toList)], args := ["m.stl".toList] } w = (w, 0) :=
  C92_version _ _ _ _ rfl rfl

/-- The tetrahedron with default options. -/
example : ∃ w : World, (main cornerExt { args := ["m.stl".toList] } w).2 = 0 := by
  have hm : cornerMesh = (cornerExt.stl []).map stlTriangleToFace := by decide +kernel
  have key := fun n : Nat => C95_default cornerExt "m.stl".toList [] { files := fun _ => some [], space := n } (by decide) (fun _ _ _ => rfl) trivial_open rfl cornerMesh hm
    (by decide) (by decide) (by unfold Separated; decide +kernel) corner_noGap
  obtain ⟨t, ht, -⟩ := key 0
  obtain ⟨t', ht', h⟩ := key t.length
  rw [ht] at ht'
  cases ht'
  exact ⟨_, (h rfl le_rfl).1⟩

end Verif
