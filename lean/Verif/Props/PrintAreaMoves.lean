import Verif.Props.PrintAreaLayers
import Verif.Props.PrintAreaFill

/-! # C102: all moves stay inside the area -/
namespace Verif
open Verif.Go Verif.Model Verif.Spec Verif.Spec.GCode

/-! ## The calls of the renderers -/

/-- The call only draws inside the rectangle. -/
def CallIn (R : Rect) : Call → Prop
  | .polygon _ path _ _ => R.HasPath path
  | .move _ _ => False
  | .moveSpeed _ _ _ => False
  | _ => True

theorem hasPath_mono {R : Rect} {n m : Int} (h : n ≤ m) {p : Path} (hp : (R.grow n).HasPath p) : (R.grow m).HasPath p :=
  fun q hq => has_mono h (hp q hq)

theorem supportMargin_nonneg (o : Options) : 0 ≤ supportMargin o := by
  unfold supportMargin; split
  · exact reach_nonneg _
  · exact le_refl _

theorem margin_support (o : Options) : supportMargin o + 1 ≤ printMargin o := by
  unfold printMargin
  have h1 := le_max_right (reach (brimWidth o)) (supportMargin o + max 1 (skirtMargin o))
  have h2 := le_max_left 1 (skirtMargin o)
  omega

theorem margin_skirt (o : Options) : supportMargin o + skirtMargin o ≤ printMargin o := by
  unfold printMargin
  have h1 := le_max_right (reach (brimWidth o)) (supportMargin o + max 1 (skirtMargin o))
  have h2 := le_max_right 1 (skirtMargin o)
  omega

theorem margin_brim (o : Options) : reach (brimWidth o) ≤ printMargin o := le_max_left _ _

section
variable {lib : ClipperLib} (hl : StaysInside lib) {R : Rect} {o : Options} (hm : Moderate o)

include hl hm in
theorem skirt_in {l : Layer} (h : LayerIn R o l) (n : Nat) (m : Int) (z : Int) : ∀ c ∈ (skirtRenderer lib o n m l z).calls, CallIn (R.grow (printMargin o)) c := by
  unfold skirtRenderer
  split
  · simp
  split
  swap
  · simp
  cases hp : l.perimeters with
  | error f => simp
  | ok pe =>
    cases hs : l.fullSupport with
    | error f => simp
    | ok su =>
      dsimp only
      split
      · simp
      intro c hc
      rcases List.mem_cons.1 hc with rfl | hc
      · trivial
      obtain ⟨wall, hwall, hc⟩ := List.mem_flatMap.1 hc
      obtain ⟨p, hpm, rfl⟩ := List.mem_map.1 hc
      have hparts : (R.grow (supportMargin o)).HasParts (su ++ toOneDimension pe) :=
        hasParts_append (layerIn_fullSupport h su hs) (hasParts_mono (n := 0) (supportMargin_nonneg o) (by
          rw [grow_zero]; exact hasParts_one (layerIn_perimeters h pe hp)))
      have hhull : (R.grow (supportMargin o)).HasPart ⟨lib.hullOf (su ++ toOneDimension pe), []⟩ := by
        refine ⟨hl.hull _ _ ?_, by simp⟩
        intro q hq
        obtain ⟨p, hp, hq⟩ := List.mem_flatMap.1 hq
        exact (hparts p hp).1 q hq
      have hcount : ¬ o.print.brimSkirt.skirtCount ≤ 0 := by
        intro hle
        have := C39_count lib ⟨lib.hullOf (su ++ toOneDimension pe), []⟩ (-o.printer.extrusionWidth) o.print.brimSkirt.skirtCount (skirtDistance o)
        rw [Int.toNat_of_nonpos hle] at this
        unfold skirtLines at hwall
        rw [List.length_eq_zero_iff.1 this] at hwall
        cases hwall
      have hw := hm.width
      have hb := abs_le.1 hm.brim
      have hd := abs_le.1 hm.distance
      have hk := hm.skirt
      have b1 := mul_le_mul_of_nonneg_right hb.2 hw.1
      have b2 := mul_le_mul_of_nonneg_right hb.1 hw.1
      have b3 := mul_le_mul_of_nonneg_right hk hw.1
      have hin := inset_grows hl hhull hw.1 (count := o.print.brimSkirt.skirtCount) (initial := skirtDistance o) (by
        have : |skirtDistance o| ≤ 2 ^ 50 + 2 ^ 20 * o.printer.extrusionWidth + o.printer.extrusionWidth := by
          unfold skirtDistance
          rw [abs_le]
          constructor <;> nlinarith
        nlinarith) wall hwall
      have hmar : reach ((skirtDistance o + (o.print.brimSkirt.skirtCount - 1) * o.printer.extrusionWidth : Int) : ℚ) = skirtMargin o := by
        unfold skirtMargin
        rw [if_neg hcount]
        congr 2
        unfold skirtDistance brimWidth
        ring
      rw [hmar, grow_grow] at hin
      exact hasPath_mono (margin_skirt o) (hin p hpm).1

theorem brimRenderer_in {l : Layer} (h : LayerIn R o l) (n : Nat) (m : Int) (z : Int) : ∀ c ∈ (brimRenderer n m l z).calls, CallIn (R.grow (printMargin o)) c := by
  unfold brimRenderer
  cases hb : l.brim with
  | error f => simp
  | ok br =>
    cases br with
    | nil => simp
    | cons b bs =>
      intro c hc
      rcases List.mem_cons.1 hc with rfl | hc
      · trivial
      rw [brim_calls] at hc
      obtain ⟨p, hp, rfl⟩ := List.mem_map.1 hc
      rw [← C40_toOneDimension] at hp
      obtain ⟨part, h1, inset, h2, h3⟩ := toOneDimension_mem.1 hp
      exact hasPath_mono (margin_brim o) ((layerIn_brim h _ hb part h1 inset h2 p h3).1)

theorem zero_le_margin (o : Options) : 0 ≤ printMargin o := by
  have := margin_support o
  have := supportMargin_nonneg o
  omega

theorem perimeterRenderer_in {l : Layer} (h : LayerIn R o l) (n : Nat) (m : Int) (z : Int) :
    ∀ c ∈ (perimeterRenderer o n m l z).calls, CallIn (R.grow (printMargin o)) c := by
  unfold perimeterRenderer
  cases hp : l.perimeters with
  | error f => simp
  | ok pe =>
    intro c hc
    obtain ⟨part, hpart, hc⟩ := List.mem_flatMap.1 hc
    obtain ⟨k, hk, hc⟩ := List.mem_flatMap.1 hc
    obtain ⟨p, hpm, hc⟩ := List.mem_flatMap.1 hc
    have hin : R.HasPart p := by
      by_cases hlt : insetOrder part.length k < part.length
      · rw [List.getD_eq_getElem?_getD, List.getElem?_eq_getElem hlt] at hpm
        exact layerIn_perimeters h pe hp part hpart _ (List.getElem_mem hlt) p hpm
      · rw [List.getD_eq_getElem?_getD, List.getElem?_eq_none (by omega)] at hpm
        cases hpm
    have up : ∀ path, R.HasPath path → (R.grow (printMargin o)).HasPath path := by
      intro path hpath
      refine hasPath_mono (n := 0) (zero_le_margin o) ?_
      rwa [grow_zero]
    unfold insetPartCalls at hc
    rw [List.mem_append, List.mem_append] at hc
    rcases hc with (hc | hc) | hc
    · split at hc <;> (simp only [List.mem_cons, List.not_mem_nil, or_false] at hc; rcases hc with rfl | rfl <;> trivial)
    · obtain ⟨hole, hh, rfl⟩ := List.mem_map.1 hc
      exact up _ (hin.2 hole hh)
    · rw [List.mem_singleton] at hc
      subst hc
      exact up _ hin.1

/-- The pattern leaves the area by at most one micrometer. -/
def PatternIn (R : Rect) (fill : Pattern) : Prop :=
  ∀ layerNr part, R.HasPart part → Yields (fill layerNr part) fun paths => ∀ path ∈ paths, (R.grow 1).HasPath path

theorem infillRenderer_in {l : Layer} (h : LayerIn R o l) {pattern : Option Pattern} {name : String} (hn : name ≠ "outerBrim") (ha : attrMargin o name ≤ supportMargin o)
    (hf : ∀ fill, pattern = some fill → PatternIn (R.grow (attrMargin o name)) fill) (comments : List Str) (n : Nat) (m : Int) (z : Int) :
    ∀ c ∈ (infillRenderer pattern name comments n m l z).calls, CallIn (R.grow (printMargin o)) c := by
  have hcom : ∀ c ∈ comments.map Call.comment, CallIn (R.grow (printMargin o)) c := by
    intro c h
    obtain ⟨t, ht, rfl⟩ := List.mem_map.1 h
    trivial
  unfold infillRenderer
  split
  · simp
  rename_i fill
  cases hp : l.partsAttribute name with
  | error f => simp
  | ok ps =>
    have hin := layerIn_parts h hn ps hp
    dsimp only
    clear hp
    induction ps with
    | nil => simp [infillCalls]
    | cons p ps ih =>
      intro c hc
      simp only [infillCalls] at hc
      split at hc
      · exact hcom c hc
      · rename_i paths hfill
        rw [List.mem_append, List.mem_append] at hc
        rcases hc with (hc | hc) | hc
        · exact hcom c hc
        · obtain ⟨path, hpath, rfl⟩ := List.mem_map.1 hc
          have := hf fill rfl n p (hin p List.mem_cons_self) paths hfill path hpath
          rw [grow_grow] at this
          exact hasPath_mono (by have := margin_support o; omega) this
        · exact ih (fun q hq => hin q (List.mem_cons_of_mem _ hq)) c hc

/-- The patterns for the attributes. -/
structure PatternsIn (R : Rect) (o : Options) (pt : Patterns) : Prop where
  support : ∀ fill, pt.support = some fill → PatternIn (R.grow (supportMargin o)) fill
  interface : ∀ fill, pt.supportInterface = some fill → PatternIn (R.grow (supportMargin o)) fill
  bottom : ∀ fill, pt.bottom = some fill → PatternIn R fill
  top : ∀ fill, pt.top = some fill → PatternIn R fill
  infill : ∀ fill, pt.infill = some fill → PatternIn R fill

include hl hm in
theorem layerDraws_in {pt : Patterns} (hpt : PatternsIn R o pt) {l : Layer} (h : LayerIn R o l) (m : Int) (n : Nat) :
    ∀ c ∈ layerDraws lib o pt m n l, CallIn (R.grow (printMargin o)) c := by
  intro c hc
  obtain ⟨r, hr, hc⟩ := List.mem_flatMap.1 hc
  have h0 : ∀ name, attrMargin o name = 0 → attrMargin o name ≤ supportMargin o := fun name hn => by rw [hn]; exact supportMargin_nonneg o
  have g0 : ∀ name fill, attrMargin o name = 0 → PatternIn R fill → PatternIn (R.grow (attrMargin o name)) fill := by
    intro name fill hn hf
    rwa [hn, grow_zero]
  simp only [drawingRenderers, List.mem_cons, List.not_mem_nil, or_false] at hr
  rcases hr with rfl | rfl | rfl | rfl | rfl | rfl | rfl | rfl
  · exact skirt_in hl hm h _ _ _ c hc
  · exact brimRenderer_in h _ _ _ c hc
  · exact perimeterRenderer_in h _ _ _ c hc
  · exact infillRenderer_in h (name := "support") (by decide) (le_refl _) hpt.support _ _ _ _ c hc
  · exact infillRenderer_in h (name := "supportInterface") (by decide) (le_refl _) hpt.interface _ _ _ _ c hc
  · exact infillRenderer_in h (name := "bottom") (by decide) (h0 _ rfl) (fun f hf => g0 _ f rfl (hpt.bottom f hf)) _ _ _ _ c hc
  · exact infillRenderer_in h (name := "top") (by decide) (h0 _ rfl) (fun f hf => g0 _ f rfl (hpt.top f hf)) _ _ _ _ c hc
  · exact infillRenderer_in h (name := "infill") (by decide) (h0 _ rfl) (fun f hf => g0 _ f rfl (hpt.infill f hf)) _ _ _ _ c hc

include hl hm in
theorem printCalls_in {pt : Patterns} (hpt : PatternsIn R o pt) {layers : List Layer} (h : LayersIn R o layers) :
    ∀ c ∈ printCalls lib o pt layers, CallIn (R.grow (printMargin o)) c := by
  intro c hc
  unfold printCalls at hc
  rcases List.mem_append.1 hc with hc | hc
  · simp only [preLayerSettings, List.mem_cons, List.not_mem_nil, or_false] at hc
    rcases hc with rfl | rfl | rfl | rfl | rfl | rfl | rfl <;> trivial
  · obtain ⟨x, hx, hc⟩ := List.mem_flatMap.1 hc
    have hxl : x.1 ∈ layers := by
      obtain ⟨k, hk, rfl⟩ := List.mem_iff_getElem.1 hx
      rw [List.getElem_zipIdx]
      exact List.getElem_mem _
    simp only [innerCalls, List.mem_append] at hc
    rcases hc with (hc | hc) | hc
    · split at hc
      · rw [List.mem_singleton.1 hc]; trivial
      · simp at hc
    · simp only [preLayerCommon, List.mem_append] at hc
      rcases hc with ((hc | hc) | hc) | hc
      · rw [List.mem_singleton.1 hc]; trivial
      · split at hc
        · simp only [List.mem_cons, List.not_mem_nil, or_false] at hc
          rcases hc with rfl | rfl <;> trivial
        · simp at hc
      · split at hc
        · split at hc <;> rw [List.mem_singleton.1 hc] <;> trivial
        · simp at hc
      · split at hc
        · simp only [List.mem_cons, List.not_mem_nil, or_false] at hc
          rcases hc with rfl | rfl | rfl <;> trivial
        · simp at hc
    · exact layerDraws_in hl hm hpt (h x.1 hxl) _ _ c hc

end

/-! ## The requests -/

/-- The target of the request is in the rectangle. -/
def RequestIn (R : Rect) (r : Request) : Prop := R.Has r.target.x r.target.y

section
variable {crossing : List LayerPart → Path → Bool × Bool} {flow : Int → Int → ℚ} {R : Rect}

theorem lines_in {s : Settings} {z : Int} {rest : Path} (h : R.HasPath rest) : ∀ {p : Pt}, ∀ r ∈ s.lines z p rest, RequestIn R r := by
  induction rest with
  | nil => intro p r hr; simp [Settings.lines] at hr
  | cons b rest ih =>
    intro p r hr
    rcases List.mem_cons.1 hr with rfl | hr
    · exact h b List.mem_cons_self
    · exact ih (fun q hq => h q (List.mem_cons_of_mem _ hq)) r hr

/-- The requests of a polygon are in the rectangle, apart from at most two at the last position. -/
theorem draw_in (s : Settings) (c : Bool) (last : Vec3) {p0 : Pt} {rest : Path} (z : Int) (isOpen : Bool) (h : R.HasPath (p0 :: rest)) :
    ∃ start rs, s.draw c last p0 rest z isOpen = start ++ rs ∧ rs ≠ [] ∧ start.length ≤ 2 ∧ (∀ r ∈ start, r.target.x = last.x ∧ r.target.y = last.y) ∧
      (∀ r ∈ rs, RequestIn R r) ∧ (c = false → start = []) := by
  have h0 : R.Has p0.x p0.y := h p0 List.mem_cons_self
  have hlines : ∀ q ∈ s.lines z p0 rest ++ (if isOpen then [] else [s.closing z p0 (rest.getLastD p0)]), RequestIn R q := by
    intro q hq
    rcases List.mem_append.1 hq with hq | hq
    · exact lines_in (fun q hq => h q (List.mem_cons_of_mem _ hq)) q hq
    · split at hq
      · simp at hq
      · rw [List.mem_singleton.1 hq]; exact h0
  have key : ∀ start rs, s.approach c last p0 z = start ++ rs → rs ≠ [] → start.length ≤ 2 → (∀ r ∈ start, r.target.x = last.x ∧ r.target.y = last.y) →
      (∀ r ∈ rs, RequestIn R r) → (c = false → start = []) →
      ∃ start rs, s.draw c last p0 rest z isOpen = start ++ rs ∧ rs ≠ [] ∧ start.length ≤ 2 ∧ (∀ r ∈ start, r.target.x = last.x ∧ r.target.y = last.y) ∧
      (∀ r ∈ rs, RequestIn R r) ∧ (c = false → start = []) := by
    intro start rs he hne hlen hs hr hc
    refine ⟨start, rs ++ (s.lines z p0 rest ++ (if isOpen then [] else [s.closing z p0 (rest.getLastD p0)])), ?_, by simp [hne], hlen, hs, ?_, hc⟩
    · unfold Settings.draw; rw [he]; simp
    · intro q hq
      exact (List.mem_append.1 hq).elim (hr q) (hlines q)
  cases c with
  | false =>
    exact key [] [s.move ⟨p0.x, p0.y, z⟩ 0] rfl (by simp) (by simp) (by simp) (by simpa [RequestIn, Settings.move] using h0) (fun _ => rfl)
  | true =>
    by_cases hh : 0 < s.zHop
    · refine key [⟨last, -s.retractionAmount, s.retractionSpeed⟩, s.move ⟨last.x, last.y, z + toMicrometer s.zHop⟩ 0] _
        (by unfold Settings.approach; rw [if_pos rfl, if_pos hh]; rfl) (by simp) (by simp) (by simp [Settings.move]) ?_ (by simp)
      simpa [RequestIn, Settings.move] using h0
    · refine key [⟨last, -s.retractionAmount, s.retractionSpeed⟩] _
        (by unfold Settings.approach; rw [if_pos rfl, if_neg hh]; rfl) (by simp) (by simp) (by simp) ?_ (by simp)
      simpa [RequestIn, Settings.move] using h0

/-- Once the head is in the rectangle, it stays there. -/
theorem fold_in (cs : List Call) : ∀ p : Plan, R.Has p.last.x p.last.y → (∀ c ∈ cs, CallIn R c) →
    ∃ rs, (cs.foldl (Plan.call crossing flow) p).requests = p.requests ++ rs ∧ ∀ r ∈ rs, RequestIn R r := by
  induction cs with
  | nil => intro p _ _; exact ⟨[], by simp, by simp⟩
  | cons c cs ih =>
    intro p hp hc
    have step : ∃ rs, (p.call crossing flow c).requests = p.requests ++ rs ∧ ∀ r ∈ rs, RequestIn R r := by
      have h0 := hc c List.mem_cons_self
      cases c with
      | moveSpeed q e s => exact h0.elim
      | move q e => exact h0.elim
      | polygon layer path z o =>
        refine ⟨_, rfl, ?_⟩
        unfold Plan.polygon
        split
        · simp
        · rename_i p0 rest he
          have hsub : R.HasPath (p0 :: rest) := by
            intro q hq
            rw [← he] at hq
            exact h0 q ((C05_int64_subsequence path (-1)).subset hq)
          obtain ⟨start, rs, hd, -, -, hs, hr, -⟩ := draw_in p.settings (p.retracts crossing layer p0) p.last z o hsub
          rw [hd]
          intro r hrm
          rcases List.mem_append.1 hrm with hrm | hrm
          · unfold RequestIn; rw [(hs r hrm).1, (hs r hrm).2]; exact hp
          · exact hr r hrm
      | _ => exact ⟨[], (List.append_nil _).symm, by simp⟩
    obtain ⟨r1, h1, e1⟩ := step
    have hlast : R.Has (p.call crossing flow c).last.x (p.call crossing flow c).last.y := by
      unfold Plan.last
      rw [h1, List.getLast?_append]
      cases hg : r1.getLast? with
      | none => simpa [Plan.last] using hp
      | some r => exact e1 r (List.mem_of_getLast? hg)
    obtain ⟨r2, h2, e2⟩ := ih (p.call crossing flow c) hlast fun x hx => hc x (List.mem_cons_of_mem _ hx)
    refine ⟨r1 ++ r2, by rw [List.foldl_cons, h2, h1, List.append_assoc], fun r hr => ?_⟩
    exact (List.mem_append.1 hr).elim (e1 r) (e2 r)

/-- The requests of a print: at most two at the origin, if the print starts crossing, then all in the rectangle. -/
theorem requests_in {lib : ClipperLib} {o : Options} {pt : Patterns} {layers : List Layer} (h : ∀ c ∈ printCalls lib o pt layers, CallIn R c) :
    ∃ start rs, (plan crossing flow (printCalls lib o pt layers)).requests = start ++ rs ∧ start.length ≤ 2 ∧
      (∀ r ∈ start, r.target.x = 0 ∧ r.target.y = 0) ∧ (∀ r ∈ rs, RequestIn R r) ∧
      (start ≠ [] → StartsCrossing crossing o (printCalls lib o pt layers)) := by
  rcases first_drawn (printCalls lib o pt layers) with hd | ⟨pre, c, post, he, hp, hc⟩
  · obtain ⟨rs, h1, h2⟩ := fold_requests (crossing := crossing) (flow := flow) (printCalls lib o pt layers) {}
    refine ⟨[], [], ?_, by simp, by simp, by simp, by simp⟩
    unfold plan
    rw [h1, h2 hd]
  · obtain ⟨⟨layer, path, z, isOpen, rfl⟩, hs, ha⟩ := print_retraction (crossing := crossing) (flow := flow) he hc
    obtain ⟨-, -, hpre⟩ := plan_first (crossing := crossing) (flow := flow) (post := post) (c := .polygon layer path z isOpen) hp
    have hlast : (plan crossing flow pre).last = ⟨0, 0, 0⟩ := by simp [Plan.last, hpre]
    obtain ⟨p0, path, rfl⟩ := List.exists_cons_of_ne_nil (show path ≠ [] from hc)
    have hin : R.HasPath (p0 :: path) := h (.polygon layer (p0 :: path) z isOpen) (by rw [he]; simp)
    have hdp := (C05_int64_ends (p0 :: path) (-1)).1
    have hsubl := (C05_int64_subsequence (p0 :: path) (-1)).subset
    cases hd : douglasPeuckerM (p0 :: path) (-1) with
    | nil => rw [hd] at hdp; simp at hdp
    | cons q rest =>
      rw [hd] at hdp hsubl
      simp only [List.head?_cons, Option.some.injEq] at hdp
      subst hdp
      obtain ⟨start, rs, hdr, hne, hlen, hst, hr, hno⟩ := draw_in (plan crossing flow pre).settings ((plan crossing flow pre).retracts crossing layer q)
        (plan crossing flow pre).last z isOpen (R := R) (p0 := q) (rest := rest) (fun x hx => hin x (hsubl hx))
      have hreq : ((plan crossing flow pre).call crossing flow (.polygon layer (q :: path) z isOpen)).requests = start ++ rs := by
        simp only [Plan.call, Plan.polygon, hpre, hd, hdr]; rfl
      have hl2 : R.Has ((plan crossing flow pre).call crossing flow (.polygon layer (q :: path) z isOpen)).last.x
          ((plan crossing flow pre).call crossing flow (.polygon layer (q :: path) z isOpen)).last.y := by
        unfold Plan.last
        rw [hreq, List.getLast?_append]
        cases hg : rs.getLast? with
        | none => exact absurd (List.getLast?_eq_none_iff.1 hg) hne
        | some r => exact hr r (List.mem_of_getLast? hg)
      obtain ⟨rs', h1, h2⟩ := fold_in (crossing := crossing) (flow := flow) post _ hl2 (fun x hx => h x (by rw [he]; simp [hx]))
      refine ⟨start, rs ++ rs', ?_, hlen, ?_, ?_, ?_⟩
      · rw [← List.append_assoc, ← hreq, ← h1, he]; simp [plan]
      · rwa [hlast] at hst
      · intro r hrm
        exact (List.mem_append.1 hrm).elim (hr r) (h2 r)
      · intro hs0
        cases layer with
        | none => exact absurd (hno rfl) hs0
        | some parts =>
          have hret : (plan crossing flow pre).retracts crossing (some parts) q = true := by
            by_contra hf
            exact hs0 (hno (by simpa using hf))
          simp only [Plan.retracts, hs, ha, hlast, Bool.and_eq_true, decide_eq_true_eq] at hret
          exact ⟨pre, parts, q, path, z, isOpen, post, he, hp, hret.1.1, hret.1.2, hret.2⟩

theorem emittedFrom_parts (a b : List Request) : ∀ prev, ∃ prev', emittedFrom prev (a ++ b) = emittedFrom prev a ++ emittedFrom prev' b := by
  induction a with
  | nil => intro prev; exact ⟨prev, by simp [emittedFrom]⟩
  | cons r a ih =>
    intro prev
    obtain ⟨p', h⟩ := ih (some r.target)
    refine ⟨p', ?_⟩
    rw [List.cons_append, emittedFrom, emittedFrom]
    split
    · exact h
    · rw [h, List.cons_append]

theorem emittedFrom_length (a : List Request) : ∀ prev, (emittedFrom prev a).length ≤ a.length := by
  induction a with
  | nil => intro prev; simp [emittedFrom]
  | cons r a ih =>
    intro prev
    rw [emittedFrom]
    have := ih (some r.target)
    split <;> simp only [List.length_cons] <;> omega

end
end Verif
