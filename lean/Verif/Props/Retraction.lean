import Verif.Lemmas.Res
import Verif.Props.Filled
import Verif.Props.Nothing
import Verif.Props.Travel
import Verif.Spec.Retraction

/-! # C128: in a print, the filament is pulled back on each way which leaves the layer -/
namespace Verif
open Verif.Go Verif.Model Verif.Spec Verif.Spec.GCode

section
variable {way hard line : Vec3 → Vec3 → Prop} {amount : ℚ} {speed : Int}

/-- Where the head is after some requests. -/
def headAfter (p : Vec3) (rs : List Request) : Vec3 := (rs.getLast?.map Request.target).getD p

theorem headAfter_cons (p : Vec3) (r : Request) (rs : List Request) : headAfter p (r :: rs) = headAfter r.target rs := by
  unfold headAfter
  cases rs with
  | nil => rfl
  | cons a rs => simp [List.getLast?_cons]

theorem orderly_append (a b : List Request) : ∀ pulled p, Orderly way hard line amount speed pulled p a →
    Orderly way hard line amount speed none (headAfter p a) b → Orderly way hard line amount speed pulled p (a ++ b) := by
  induction a with
  | nil => intro pulled p h hb; cases h; exact hb
  | cons r a ih =>
    intro pulled p h hb
    rw [headAfter_cons] at hb
    cases pulled with
    | none =>
      rcases h with ⟨h1, h2, h3, h4⟩ | ⟨h1, h2, h3⟩ | ⟨h1, h2, h3⟩
      · exact .inl ⟨h1, h2, h3, ih _ _ h4 (h3 ▸ hb)⟩
      · exact .inr (.inl ⟨h1, h2, ih _ _ h3 hb⟩)
      · exact .inr (.inr ⟨h1, h2, ih _ _ h3 hb⟩)
    | some start =>
      rcases h with ⟨h1, h2, h3, h5, h4⟩ | ⟨h1, h3⟩
      · exact .inl ⟨h1, h2, h3, h5, ih _ _ h4 (h3 ▸ hb)⟩
      · exact .inr ⟨h1, ih _ _ h3 hb⟩

theorem orderly_lines {s : Settings} (h0 : 0 ≤ s.perMM) (z : Int) (rest : Path) : ∀ p0 : Pt,
    (∀ ab ∈ (p0 :: rest).zip rest, line ⟨ab.1.x, ab.1.y, z⟩ ⟨ab.2.x, ab.2.y, z⟩) →
    Orderly way hard line amount speed none ⟨p0.x, p0.y, z⟩ (s.lines z p0 rest) := by
  induction rest with
  | nil => intro p0 _; rfl
  | cons b rest ih =>
    intro p0 h
    rw [List.zip_cons_cons] at h
    refine .inr (.inr ⟨?_, h _ List.mem_cons_self, ih b fun ab hab => h ab (List.mem_cons_of_mem _ hab)⟩)
    simp only [Settings.move, Settings.filament]
    exact r32_nonneg (mul_nonneg (r32_nonneg (by rw [fsqrt64_eq]; exact rnd_nonneg 53 _ (Real.sqrt_nonneg _))) h0)

theorem orderly_draw {s : Settings} (h0 : 0 ≤ s.perMM) (hs : s.retractionAmount = amount ∧ s.retractionSpeed = speed) {p0 : Pt} {rest : Path} {z : Int}
    {isOpen : Bool} {c : Bool} {last : Vec3} (hway : c = false → way last ⟨p0.x, p0.y, z⟩)
    (hhard : c = true → hard last ⟨p0.x, p0.y, z⟩)
    (hline : ∀ ab ∈ pathLines isOpen (p0 :: rest), line ⟨ab.1.x, ab.1.y, z⟩ ⟨ab.2.x, ab.2.y, z⟩) :
    Orderly way hard line amount speed none last (s.draw c last p0 rest z isOpen) := by
  have e : s.draw c last p0 rest z isOpen = s.approach c last p0 z ++ s.lines z p0 (rest ++ if isOpen then [] else [p0]) := by
    unfold Settings.draw
    cases isOpen with
    | true => simp
    | false =>
      rw [if_neg (by simp), if_neg (by simp), ← lines_append]
      simp [Settings.closing]
  have hlast : headAfter last (s.approach c last p0 z) = ⟨p0.x, p0.y, z⟩ := by
    obtain ⟨xs, q, h1, h2⟩ := approach_last s c last p0 z
    rw [h1]
    simp [headAfter, h2]
  rw [e]
  refine orderly_append _ _ _ _ ?_ ?_
  · unfold Settings.approach
    split
    · rename_i hc
      split
      · exact .inl ⟨by rw [hs.1], hs.2, rfl, .inr ⟨rfl, .inr ⟨rfl, .inr ⟨rfl, .inl ⟨hs.1, hs.2, rfl, hhard hc, rfl⟩⟩⟩⟩⟩
      · exact .inl ⟨by rw [hs.1], hs.2, rfl, .inr ⟨rfl, .inl ⟨hs.1, hs.2, rfl, hhard hc, rfl⟩⟩⟩
    · rename_i hc
      exact .inr (.inl ⟨rfl, hway (by simpa using hc), rfl⟩)
  · rw [hlast]
    refine orderly_lines h0 z _ p0 fun ab hab => hline ab ?_
    rw [pathLines, zip_longer _ _ _ (by split <;> simp)]
    exact hab

/-- What the calls of a print have to fulfil. -/
def TameCall (crossing : List LayerPart → Path → Bool × Bool) (flow : Int → Int → ℚ) (way hard line : Vec3 → Vec3 → Prop) : Call → Prop
  | .moveSpeed _ _ _ => False
  | .move _ _ => False
  | .setRetractionAmount _ => False
  | .setRetractionSpeed _ => False
  | .setExtrusion t w => 0 ≤ flow t w
  | .polygon lay path z isOpen =>
    (∀ ab ∈ pathLines isOpen (douglasPeuckerM path (-1)), line ⟨ab.1.x, ab.1.y, z⟩ ⟨ab.2.x, ab.2.y, z⟩) ∧
    ∀ p0, path.head? = some p0 → ∀ last : Vec3,
      ((lay = none ∨ ∃ parts, lay = some parts ∧ crossing parts [⟨last.x, last.y⟩, p0] = (false, true)) → way last ⟨p0.x, p0.y, z⟩) ∧
      ((∃ parts, lay = some parts ∧ crossing parts [⟨last.x, last.y⟩, p0] = (true, true)) → hard last ⟨p0.x, p0.y, z⟩)
  | _ => True

theorem orderly_exec {crossing : List LayerPart → Path → Bool × Bool} {fd : Micrometer} {em : Int} (hr : speed ≠ 0 ∧ amount ≠ 0) (cs : List Call) :
    ∀ {g g' : Builder} {s : Settings} {rs : List Request}, Follows fd em g s rs → (∀ c ∈ cs, Call.Harmless c) →
      (∀ c ∈ cs, TameCall crossing (flowOf fd em) way hard line c) → g.exec crossing cs = .ok g' → 0 ≤ s.perMM →
      s.retractionAmount = amount → s.retractionSpeed = speed → Orderly way hard line amount speed none ⟨0, 0, 0⟩ rs →
      Orderly way hard line amount speed none ⟨0, 0, 0⟩ (cs.foldl (Plan.call crossing (flowOf fd em)) ⟨s, rs⟩).requests := by
  induction cs with
  | nil => intro g g' s rs _ _ _ _ _ _ _ h; exact h
  | cons c cs ih =>
    intro g g' s rs hf hh ht hok h0 ha hs h
    unfold Builder.exec at hok
    cases h1 : g.exec1 crossing c with
    | error e => rw [h1] at hok; exact absurd hok (by simp [bind, Except.bind])
    | ok g1 =>
      rw [h1] at hok
      have hf1 := hf.exec1 (hh c (by simp)) h1
      have htc := ht c (by simp)
      refine ih hf1 (fun x hx => hh x (List.mem_cons_of_mem _ hx)) (fun x hx => ht x (List.mem_cons_of_mem _ hx)) hok ?_ ?_ ?_ ?_
      · cases c <;> first | exact h0 | exact htc
      · cases c <;> first | exact ha | exact htc.elim
      · cases c <;> first | exact hs | exact htc.elim
      · cases c with
        | moveSpeed q e v => exact htc.elim
        | move q e => exact htc.elim
        | polygon lay path z isOpen =>
          refine orderly_append _ _ _ _ h ?_
          simp only [Plan.polygon]
          split
          · rfl
          · rename_i p0 rest hd
            have hhead : path.head? = some p0 := by rw [← (C05_int64_ends path (-1)).1, hd]; rfl
            obtain ⟨ht1, ht2⟩ := htc
            rw [hd] at ht1
            have key : lay = none ∧ Plan.retracts ⟨s, rs⟩ crossing lay p0 = false ∨ ∃ parts, lay = some parts ∧
                crossing parts [⟨(Plan.last ⟨s, rs⟩).x, (Plan.last ⟨s, rs⟩).y⟩, p0] = (Plan.retracts ⟨s, rs⟩ crossing lay p0, true) := by
              cases lay with
              | none => exact .inl ⟨rfl, rfl⟩
              | some parts =>
                refine .inr ⟨parts, rfl, ?_⟩
                have h2 : g.addPolygon crossing (some parts) path z isOpen = .ok g1 := h1
                unfold Builder.addPolygon at h2
                rw [if_neg (by intro h; rw [List.length_eq_zero_iff.1 h] at hhead; cases hhead), hd] at h2
                simp only at h2
                obtain ⟨c, hct, -⟩ := bind_ok.1 h2
                have e := crossingTest_eq hf hct
                rw [← e]
                unfold Builder.crossingTest at hct
                rw [hf.amount, hf.rspeed, hf.position, ha, hs] at hct
                simp only [hr, ne_eq, not_false_eq_true, and_self, if_true] at hct
                split at hct
                · cases hct
                · rename_i h3
                  exact Prod.ext (Except.ok.inj hct) (by simpa [Vec3.pointXY] using h3)
            refine orderly_draw h0 ⟨ha, hs⟩ (fun hc => (ht2 p0 hhead _).1 ?_) (fun hc => (ht2 p0 hhead _).2 ?_) ht1
            · rw [hc] at key
              rcases key with ⟨rfl, -⟩ | key
              · exact .inl rfl
              · exact .inr key
            · rw [hc] at key
              rcases key with ⟨-, key⟩ | key
              · cases key
              · exact key
        | _ => exact h

end

section
variable {lib : ClipperLib} {o : Options} {pt : Patterns}

theorem infillCalls_lay {comments : List Str} {fill : Pattern} {n : Nat} {l : Layer} {z : Int} {parts : List LayerPart} {lay : Option (List LayerPart)}
    {path : Path} {z' : Int} {isOpen : Bool} (h : Call.polygon lay path z' isOpen ∈ (infillCalls comments fill n l z parts).calls) : lay = some l.parts := by
  induction parts with
  | nil => simp [infillCalls] at h
  | cons p ps ih =>
    simp only [infillCalls] at h
    cases hf : fill n p with
    | error e => rw [hf] at h; simp at h
    | ok lines =>
      rw [hf] at h
      simp only [List.mem_append, List.mem_map, reduceCtorEq, and_false, exists_false, false_or] at h
      rcases h with ⟨q, -, e⟩ | h
      · cases e; rfl
      · exact ih h

/-- A path is an outline of the brim or of the skirt. -/
def AroundModel (lib : ClipperLib) (o : Options) (n : Nat) (l : Layer) (path : Path) : Prop :=
  (∃ brim, l.brim = .ok brim ∧ ∃ p ∈ brim.flatten.flatten, path = p.outline) ∨
  (n = 0 ∧ o.print.brimSkirt.skirtCount ≠ 0 ∧ ∃ walls support, l.perimeters = .ok walls ∧ l.fullSupport = .ok support ∧
    ∃ p ∈ (skirtLines lib o support walls).flatten, path = p.outline)

theorem layerDraws_lay {m : Int} {n : Nat} {l : Layer} {lay : Option (List LayerPart)} {path : Path} {z : Int} {isOpen : Bool}
    (h : Call.polygon lay path z isOpen ∈ layerDraws lib o pt m n l) : lay = some l.parts ∨ lay = none ∧ AroundModel lib o n l path := by
  obtain ⟨r, hr, h⟩ := List.mem_flatMap.1 h
  simp only [drawingRenderers, List.mem_cons, List.not_mem_nil, or_false] at hr
  rcases hr with rfl | rfl | rfl | hr
  · right
    unfold skirtRenderer at h
    split at h
    · simp at h
    · rename_i hs
      split at h
      · rename_i hn
        cases hw : l.perimeters with
        | error e => rw [hw] at h; simp at h
        | ok walls =>
          cases hu : l.fullSupport with
          | error e => rw [hw, hu] at h; simp at h
          | ok support =>
            rw [hw, hu] at h
            simp only at h
            split at h
            · simp at h
            · simp only [List.mem_cons, reduceCtorEq, List.mem_flatMap, List.mem_map, false_or] at h
              obtain ⟨w, hw', p, hp, e⟩ := h
              cases e
              exact ⟨rfl, .inr ⟨hn, hs, walls, support, hw, hu, p, List.mem_flatten.2 ⟨w, hw', hp⟩, rfl⟩⟩
      · simp at h
  · right
    cases hb : l.brim with
    | error e => simp [brimRenderer, hb] at h
    | ok brim =>
      cases brim with
      | nil => simp [brimRenderer, hb] at h
      | cons b bs =>
        simp only [brimRenderer, hb] at h
        rw [brim_calls] at h
        simp only [List.mem_cons, reduceCtorEq, List.mem_map, false_or] at h
        obtain ⟨p, hp, e⟩ := h
        cases e
        exact ⟨rfl, .inl ⟨_, hb, p, hp, rfl⟩⟩
  · left
    cases hw : l.perimeters with
    | error e => simp [perimeterRenderer, hw] at h
    | ok walls =>
      simp only [perimeterRenderer, hw, perimeterPartCalls, List.mem_flatMap] at h
      obtain ⟨_, -, _, -, _, -, h⟩ := h
      unfold insetPartCalls at h
      split at h <;> simp only [List.mem_append, List.mem_cons, reduceCtorEq, List.not_mem_nil, or_self, or_false, false_or, List.mem_map] at h <;>
        rcases h with ⟨_, -, e⟩ | e <;> cases e <;> rfl
  · left
    rcases hr with rfl | rfl | rfl | rfl | rfl <;>
    · unfold infillRenderer at h
      split at h
      · simp at h
      · split at h
        · simp at h
        · exact infillCalls_lay h

variable {layers : List Layer} {g0 : Builder} {t : Str}

/-- Ways which need no retraction: they stay inside of the layer they lead to, or they lead to the begin of a line of the brim or the skirt. -/
def EasyWay (inside : List IntPoint → Set (ℚ × ℚ)) (lib : ClipperLib) (o : Options) (layers : List Layer) (p q : Vec3) : Prop :=
  ∃ n l, layers[n]? = some l ∧ q.z = layerHeight o n ∧
    (WayInside inside l.parts p q ∨ ∃ path, AroundModel lib o n l path ∧ path.head? = some ⟨q.x, q.y⟩)

/-- The lines of the paths of the layers. -/
def LayerLine (lib : ClipperLib) (o : Options) (pt : Patterns) (layers : List Layer) (p q : Vec3) : Prop :=
  ∃ n l isOpen path a b, layers[n]? = some l ∧ BelongsTo lib o pt n l isOpen path ∧ (a, b) ∈ pathLines isOpen (douglasPeuckerM path (-1)) ∧
    p = ⟨a.x, a.y, layerHeight o n⟩ ∧ q = ⟨b.x, b.y, layerHeight o n⟩

/-- Ways which need retraction: they leave the layer they lead to. -/
def HardWay (inside : List IntPoint → Set (ℚ × ℚ)) (o : Options) (layers : List Layer) (p q : Vec3) : Prop :=
  ∃ n l, layers[n]? = some l ∧ q.z = layerHeight o n ∧ ¬ WayInside inside l.parts p q

theorem tame_print (inside : List IntPoint → Set (ℚ × ℚ)) (hl : CutsLines inside lib) {flow : Int → Int → ℚ}
    (hflow : 0 ≤ flow o.print.layerThickness o.printer.extrusionWidth) {x : Layer × Nat} (hx : layers[x.2]? = some x.1) {c : Call}
    (hc : c ∈ innerCalls lib o pt (layers.length - 1) x.2 x.1) :
    TameCall lib.isCrossingPerimeter flow (EasyWay inside lib o layers) (HardWay inside o layers) (LayerLine lib o pt layers) c := by
  simp only [innerCalls, List.mem_append] at hc
  rcases hc with (hc | hc) | hc
  · split at hc
    · rw [List.mem_singleton.1 hc]; exact hflow
    · simp at hc
  · unfold preLayerCommon at hc
    simp only [List.mem_append] at hc
    rcases hc with ((hc | hc) | hc) | hc
    · rw [List.mem_singleton.1 hc]; trivial
    · split at hc
      · simp only [List.mem_cons, List.not_mem_nil, or_false] at hc
        rcases hc with rfl | rfl <;> trivial
      · simp at hc
    · split at hc
      · split at hc <;> rw [List.mem_singleton.1 hc] <;> trivial
      · simp at hc
    · split at hc
      · simp only [List.mem_cons, List.not_mem_nil, or_false] at hc
        rcases hc with rfl | rfl | rfl <;> trivial
      · simp at hc
  · have hd := layerDraws_drawCall lib o pt _ x.2 x.1 _ hc
    cases c with
    | polygon lay path z isOpen =>
      cases hd
      refine ⟨fun ab hab => ⟨x.2, x.1, isOpen, path, ab.1, ab.2, hx, layerDraws_only hc, hab, rfl, rfl⟩, fun p0 hp last => ⟨fun h => ?_, fun h => ?_⟩⟩
      · refine ⟨x.2, x.1, hx, rfl, ?_⟩
        rcases layerDraws_lay hc with rfl | ⟨-, ha⟩
        · left
          rcases h with h | ⟨parts, h, hcr⟩
          · cases h
          · cases h
            have := (C96_test inside lib hl x.1.parts ⟨last.x, last.y⟩ p0 (by rw [hcr])).not
            rw [hcr] at this
            simp only [Bool.false_eq_true, not_false_eq_true, true_iff, not_exists, not_and, not_not] at this
            exact this
        · exact .inr ⟨path, ha, hp⟩
      · obtain ⟨parts, h, hcr⟩ := h
        refine ⟨x.2, x.1, hx, rfl, fun hin => ?_⟩
        rcases layerDraws_lay hc with hlay | ⟨hlay, -⟩ <;> rw [hlay] at h <;> cases h
        obtain ⟨y, hy, hy'⟩ := (C96_test inside lib hl x.1.parts ⟨last.x, last.y⟩ p0 (by rw [hcr])).1 (by rw [hcr])
        exact hy' (hin y hy)
    | _ => first | exact hd.elim | trivial

/-- **C128** In a print with retraction, the filament is pulled back on each way which leaves the layer, and only then; it is pushed back before anything is extruded. -/
theorem C128_orderly (inside : List IntPoint → Set (ℚ × ℚ)) (hl : CutsLines inside lib)
    (ho : 0 ≤ o.filament.extrusionMultiplier ∧ 0 ≤ o.print.initialLayerThickness ∧ 0 ≤ o.print.layerThickness ∧ 0 ≤ o.printer.extrusionWidth)
    (hr : truncZ o.filament.retractionSpeed ≠ 0 ∧ o.filament.retractionLength ≠ 0) (hne : layers ≠ [])
    (h : (generateScripts lib.isCrossingPerimeter o (standardRenderers lib o pt) layers g0).2 = (t, none)) :
    ∃ body requests, t = startText o ++ body ++ endText o ∧ run body = some ((effect requests).1.machine, (effect requests).2) ∧
      Orderly (EasyWay inside lib o layers) (HardWay inside o layers) (LayerLine lib o pt layers) o.filament.retractionLength
        (truncZ o.filament.retractionSpeed) none ⟨0, 0, 0⟩ requests := by
  obtain ⟨g, ht, hb⟩ := print_body hne h
  have hh := harmless_print (lib := lib) (o := o) (pt := pt) (layers := layers)
  refine ⟨g.buf, _, ht, C18_refines hh hb, ?_⟩
  unfold plan printCalls at *
  rw [exec_append] at hb
  obtain ⟨g1, hb1, hb2⟩ := bind_ok.1 hb
  rw [List.foldl_append]
  have hf := Follows.exec (preLayerSettings o) (follows_new _ _) (fun c hc => hh c (List.mem_append_left _ hc)) hb1
  refine orderly_exec hr _ hf (fun c hc => hh c (List.mem_append_right _ hc)) (fun c hc => ?_) hb2 ?_ rfl rfl rfl
  · obtain ⟨x, hx, hc⟩ := List.mem_flatMap.1 hc
    rw [List.mem_zipIdx_iff_getElem?] at hx
    exact tame_print inside hl (flowOf_nonneg _ _ _ _ ho.1 ho.2.2.1 ho.2.2.2) hx hc
  · exact flowOf_nonneg _ _ _ _ ho.1 ho.2.1 ho.2.2.2

/-- **C128** The same for the program: the layers are those of the slicer. -/
theorem C128_program (inside : List IntPoint → Set (ℚ × ℚ)) (ext : Externals) (o : Options) (content t : Str) (h : gcodeOf ext o content = .ok t)
    (hl : CutsLines inside ext.lib)
    (ho : 0 ≤ o.filament.extrusionMultiplier ∧ 0 ≤ o.print.initialLayerThickness ∧ 0 ≤ o.print.layerThickness ∧ 0 ≤ o.printer.extrusionWidth)
    (hr : truncZ o.filament.retractionSpeed ≠ 0 ∧ o.filament.retractionLength ≠ 0) :
    ∃ om sliced layers pt, optimize o ((ext.stl content).map stlTriangleToFace) = .ok om ∧ slice ext.lib o om = .ok sliced ∧
      layers.map Layer.parts = sliced.map Layer.parts ∧
      (layers ≠ [] → ∃ body requests, t = startText o ++ body ++ endText o ∧ run body = some ((effect requests).1.machine, (effect requests).2) ∧
        Orderly (EasyWay inside ext.lib o layers) (HardWay inside o layers) (LayerLine ext.lib o pt layers) o.filament.retractionLength
          (truncZ o.filament.retractionSpeed) none ⟨0, 0, 0⟩ requests) := by
  obtain ⟨om, sliced, layers, pt, g0, h1, h2, h3, h4, h5⟩ := gcodeOf_steps h
  exact ⟨om, sliced, layers, pt, h1, h2, C61_parts ext.lib ext.tan o _ (fun m h => h) sliced layers h3, fun hne => C128_orderly inside hl ho hr hne h5⟩

end

/-! ## Example -/

/-- The contour of a square of 10 mm. -/
def wallContour : List IntPoint := [⟨0, 0⟩, ⟨10000, 0⟩, ⟨10000, 10000⟩, ⟨0, 10000⟩]

/-- The points of the square; all other contours contain nothing. -/
def insideSquare (c : List IntPoint) : Set (ℚ × ℚ) := {x | c = wallContour ∧ 0 ≤ x.1 ∧ x.1 ≤ 10000 ∧ 0 ≤ x.2 ∧ x.2 ≤ 10000}

/-- A library which knows whether a line is inside of the square. -/
def squareCutter : ClipperLib where
  execute := fun _ _ _ => some []
  executeOpen := fun _ s c => match s with
    | [[a, b]] => if c.count wallContour % 2 = 1 ∧ (0 ≤ a.x ∧ a.x ≤ 10000 ∧ 0 ≤ a.y ∧ a.y ≤ 10000) ∧ 0 ≤ b.x ∧ b.x ≤ 10000 ∧ 0 ≤ b.y ∧ b.y ≤ 10000 then some []
      else some [.node [a, b] []]
    | _ => none
  offset := fun _ _ => []
  hull := id

open Classical in
theorem square_count (c : List (List IntPoint)) (x : ℚ × ℚ) : x ∈ evenOdd insideSquare c ↔
    c.count wallContour % 2 = 1 ∧ 0 ≤ x.1 ∧ x.1 ≤ 10000 ∧ 0 ≤ x.2 ∧ x.2 ≤ 10000 := by
  by_cases hx : 0 ≤ x.1 ∧ x.1 ≤ 10000 ∧ 0 ≤ x.2 ∧ x.2 ≤ 10000
  · have e : crossings insideSquare c x = c.count wallContour := by
      unfold crossings List.count
      refine List.countP_congr fun c _ => ?_
      simp [insideSquare, hx]
    exact (show x ∈ evenOdd insideSquare c ↔ Odd (crossings insideSquare c x) from Iff.rfl).trans (by rw [e, Nat.odd_iff]; simp only [hx, and_true])
  · have e : crossings insideSquare c x = 0 := by
      unfold crossings
      refine List.countP_eq_zero.2 fun c _ => ?_
      exact fun h => hx (of_decide_eq_true h).2
    simp [evenOdd, e, hx]

theorem square_cuts : CutsLines insideSquare squareCutter := by
  intro a b c tree h
  simp only [squareCutter] at h
  split at h
  · rename_i hc
    obtain ⟨h1, ⟨h2, h3, h4, h5⟩, h6, h7, h8, h9⟩ := hc
    have h := (Option.some.inj h).symm
    simp only [h, true_iff]
    rintro x ⟨t, t0, t1, rfl⟩
    rw [square_count]
    have : (0 : ℚ) ≤ a.x := by exact_mod_cast h2
    have : (a.x : ℚ) ≤ 10000 := by exact_mod_cast h3
    have : (0 : ℚ) ≤ a.y := by exact_mod_cast h4
    have : (a.y : ℚ) ≤ 10000 := by exact_mod_cast h5
    have : (0 : ℚ) ≤ b.x := by exact_mod_cast h6
    have : (b.x : ℚ) ≤ 10000 := by exact_mod_cast h7
    have : (0 : ℚ) ≤ b.y := by exact_mod_cast h8
    have : (b.y : ℚ) ≤ 10000 := by exact_mod_cast h9
    refine ⟨h1, ?_, ?_, ?_, ?_⟩ <;> simp only <;> nlinarith
  · rename_i hc
    have h := (Option.some.inj h).symm
    simp only [h, List.cons_ne_nil, false_iff, not_forall]
    by_contra hin
    simp only [not_exists, not_not] at hin
    have k1 := hin (a.x, a.y) ⟨0, le_rfl, zero_le_one, by simp⟩
    have k2 := hin (b.x, b.y) ⟨1, zero_le_one, le_rfl, by simp⟩
    rw [square_count] at k1 k2
    simp only at k1 k2
    refine hc ⟨k1.1, ?_, ?_⟩
    · exact_mod_cast k1.2
    · exact_mod_cast k2.2

/-- A layer with the square as part and two walls, one of them outside of it. -/
def twoWalls : Layer :=
  ⟨[⟨[⟨0, 0⟩, ⟨10000, 0⟩, ⟨10000, 10000⟩, ⟨0, 10000⟩], []⟩], some (AttrMap.insert (fun _ => none) "perimeters" (.offsetResult
    [[[⟨[⟨0, 0⟩, ⟨10000, 0⟩, ⟨10000, 10000⟩, ⟨0, 10000⟩], []⟩]], [[⟨[⟨20000, 0⟩, ⟨30000, 0⟩, ⟨30000, 10000⟩], []⟩]]]))⟩

/-- Non-vacuity: on the way to the wall outside, and only there, the filament is pulled back by 2 mm. -/
example : ∃ body requests, (generateScripts squareCutter.isCrossingPerimeter {} (standardRenderers squareCutter {} ⟨none, none, none, none, none⟩) [twoWalls] (newBuilder 0 0)).2 =
      (startText {} ++ body ++ endText {}, none) ∧ run body = some ((effect requests).1.machine, (effect requests).2) ∧
    Orderly (EasyWay insideSquare squareCutter {} [twoWalls]) (HardWay insideSquare {} [twoWalls]) (LayerLine squareCutter {} ⟨none, none, none, none, none⟩ [twoWalls])
      2 30 none ⟨0, 0, 0⟩ requests ∧
    ";TYPE:WALL-OUTER\nG1 E-0.6696\nG0 X20.00 F9000\nG1 F1800 E1.3304\nG1 X30.00 E1.6630\n".toList <:+:
      (generateScripts squareCutter.isCrossingPerimeter {} (standardRenderers squareCutter {} ⟨none, none, none, none, none⟩) [twoWalls] (newBuilder 0 0)).2.1 := by
  have hs : (generateScripts squareCutter.isCrossingPerimeter {} (standardRenderers squareCutter {} ⟨none, none, none, none, none⟩) [twoWalls] (newBuilder 0 0)).2.2 =
      none := by decide +kernel
  obtain ⟨body, requests, h1, h2, h3⟩ := C128_orderly (o := {}) (pt := ⟨none, none, none, none, none⟩) (layers := [twoWalls]) insideSquare square_cuts (by decide +kernel)
    (by decide +kernel) (by simp) (Prod.ext rfl hs)
  refine ⟨body, requests, Prod.ext h1 hs, h2, ?_, by decide +kernel⟩
  have e : truncZ ({} : Options).filament.retractionSpeed = 30 := by decide +kernel
  rw [e] at h3
  exact h3

end Verif
