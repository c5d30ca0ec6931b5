import Verif.Props.Print
import Verif.Props.Polyline
/-! # C26: the head never moves below the first layer, apart from one possible retraction at the very beginning -/
namespace Verif
open Verif.Go Verif.Model Verif.Spec Verif.Spec.GCode

/-- The call draws or moves. -/
def Drawn : Call → Prop
  | .polygon _ path _ _ => path ≠ []
  | .move _ _ => True
  | .moveSpeed _ _ _ => True
  | _ => False

/-- The first thing drawn by the calls is a polygon of a layer, retraction is configured, and the way from the origin to the polygon crosses a
perimeter of the layer. -/
def StartsCrossing (crossing : List LayerPart → Path → Bool × Bool) (o : Options) (cs : List Call) : Prop :=
  ∃ pre parts p0 path z isOpen post, cs = pre ++ .polygon (some parts) (p0 :: path) z isOpen :: post ∧ (∀ c ∈ pre, ¬ Drawn c) ∧
    truncZ o.filament.retractionSpeed ≠ 0 ∧ o.filament.retractionLength ≠ 0 ∧ (crossing parts [⟨0, 0⟩, p0]).1 = true

/-- The move ends at the height of the first layer or above. -/
def AboveFirst (o : Options) (mv : Move) : Prop :=
  ∃ z, mv.after.z = some z ∧ decimals 2 (toMillimeter o.print.initialLayerThickness) ≤ z

section
variable {crossing : List LayerPart → Path → Bool × Bool} {flow : Int → Int → ℚ}

theorem call_requests (p : Plan) (c : Call) : ∃ rs, (p.call crossing flow c).requests = p.requests ++ rs ∧ (¬ Drawn c → rs = []) := by
  cases c with
  | moveSpeed q e s => exact ⟨_, rfl, fun h => absurd trivial h⟩
  | move q e => exact ⟨_, rfl, fun h => absurd trivial h⟩
  | polygon layer path z o =>
    refine ⟨_, rfl, fun h => ?_⟩
    have : path = [] := by simpa [Drawn] using h
    subst this
    rfl
  | _ => exact ⟨[], (List.append_nil _).symm, fun _ => rfl⟩

theorem fold_requests (cs : List Call) : ∀ p : Plan, ∃ rs, (cs.foldl (Plan.call crossing flow) p).requests = p.requests ++ rs ∧
    ((∀ c ∈ cs, ¬ Drawn c) → rs = []) := by
  induction cs with
  | nil => intro p; exact ⟨[], by simp, fun _ => rfl⟩
  | cons c cs ih =>
    intro p
    obtain ⟨r1, h1, e1⟩ := call_requests (crossing := crossing) (flow := flow) p c
    obtain ⟨r2, h2, e2⟩ := ih (p.call crossing flow c)
    refine ⟨r1 ++ r2, by rw [List.foldl_cons, h2, h1, List.append_assoc], fun h => ?_⟩
    rw [e1 (h c (by simp)), e2 fun x hx => h x (by simp [hx])]
    rfl

/-- After a polygon the head is at its height. -/
theorem draw_last (s : Settings) (c : Bool) (last : Vec3) (p0 : Pt) (rest : Path) (z : Int) (isOpen : Bool) :
    ∃ r, (s.draw c last p0 rest z isOpen).getLast? = some r ∧ r.target.z = z := by
  have ha : ∃ r, (s.approach c last p0 z).getLast? = some r ∧ r.target.z = z := by
    unfold Settings.approach
    split
    · split <;> exact ⟨_, rfl, rfl⟩
    · exact ⟨_, rfl, rfl⟩
  have hl : ∃ r, (s.approach c last p0 z ++ s.lines z p0 rest).getLast? = some r ∧ r.target.z = z := by
    cases h : (s.lines z p0 rest).getLast? with
    | none => rw [List.getLast?_eq_none_iff.1 h, List.append_nil]; exact ha
    | some r => exact ⟨r, by rw [List.getLast?_append, h]; rfl, lines_z r (List.mem_of_getLast? h)⟩
  unfold Settings.draw
  split
  · rw [List.append_nil]; exact hl
  · exact ⟨_, List.getLast?_concat .., rfl⟩

/-- Only the first request of a polygon may be at another height than the polygon or above it. -/
theorem draw_tail_z (s : Settings) (c : Bool) (last : Vec3) (p0 : Pt) (rest : Path) (z : Int) (isOpen : Bool) :
    ∃ r rs, s.draw c last p0 rest z isOpen = r :: rs ∧ (∀ q ∈ rs, z ≤ q.target.z) ∧
      r.target = (if c then last else ⟨p0.x, p0.y, z⟩) ∧ (c = true → r.extrusion = -s.retractionAmount) := by
  have hlines : ∀ q ∈ s.lines z p0 rest ++ (if isOpen then [] else [s.closing z p0 (rest.getLastD p0)]), z ≤ q.target.z := by
    intro q hq
    rcases List.mem_append.1 hq with hq | hq
    · rw [lines_z q hq]
    · split at hq
      · simp at hq
      · rw [List.mem_singleton.1 hq]; exact le_refl z
  have key : ∀ r rs, s.approach c last p0 z = r :: rs → (∀ q ∈ rs, z ≤ q.target.z) →
      ∃ rs, s.draw c last p0 rest z isOpen = r :: rs ∧ ∀ q ∈ rs, z ≤ q.target.z := by
    intro r rs he hz
    refine ⟨rs ++ (s.lines z p0 rest ++ (if isOpen then [] else [s.closing z p0 (rest.getLastD p0)])), ?_, fun q hq => ?_⟩
    · unfold Settings.draw; rw [he]; simp
    · exact (List.mem_append.1 hq).elim (hz q) (hlines q)
  cases c with
  | false =>
    obtain ⟨rs, h1, h2⟩ := key _ [] rfl (by simp)
    exact ⟨_, rs, h1, h2, rfl, by simp⟩
  | true =>
    by_cases hh : 0 < s.zHop
    · have hn := toMicrometer_nonneg hh.le
      obtain ⟨rs, h1, h2⟩ := key ⟨last, -s.retractionAmount, s.retractionSpeed⟩ _ (by unfold Settings.approach; rw [if_pos rfl, if_pos hh]) (by
        intro q hq
        simp only [List.mem_cons, List.not_mem_nil, or_false] at hq
        rcases hq with rfl | rfl | rfl | rfl <;> simp only [Settings.move] <;> omega)
      exact ⟨_, rs, h1, h2, rfl, fun _ => rfl⟩
    · obtain ⟨rs, h1, h2⟩ := key ⟨last, -s.retractionAmount, s.retractionSpeed⟩ _ (by unfold Settings.approach; rw [if_pos rfl, if_neg hh]) (by
        intro q hq
        simp only [List.mem_cons, List.not_mem_nil, or_false] at hq
        rcases hq with rfl | rfl <;> simp only [Settings.move] <;> omega)
      exact ⟨_, rs, h1, h2, rfl, fun _ => rfl⟩

/-- All requests but the first one are at the lowest height asked for, or above. -/
theorem plan_tail {h : Int} {cs : List Call} (hz : ∀ c ∈ cs, Call.AtLeast h c) :
    (∀ r ∈ (plan crossing flow cs).requests.tail, h ≤ r.target.z) ∧
    ∀ r, (plan crossing flow cs).requests.getLast? = some r → h ≤ r.target.z := by
  induction cs using List.reverseRecOn with
  | nil => simp [plan]
  | append_singleton cs c ih =>
    obtain ⟨ih1, ih2⟩ := ih fun x hx => hz x (List.mem_append_left _ hx)
    have hc := hz c (by simp)
    rw [plan_append]
    have one : ∀ r : Request, h ≤ r.target.z → (∀ q ∈ ((plan crossing flow cs).requests ++ [r]).tail, h ≤ q.target.z) ∧
        ∀ q, ((plan crossing flow cs).requests ++ [r]).getLast? = some q → h ≤ q.target.z := by
      intro r hr
      constructor
      · intro q hq
        cases hp : (plan crossing flow cs).requests with
        | nil => rw [hp] at hq; simp at hq
        | cons a l =>
          rw [hp] at hq ih1
          rcases List.mem_append.1 hq with hq | hq
          · exact ih1 q hq
          · rw [List.mem_singleton.1 hq]; exact hr
      · intro q hq
        rw [List.getLast?_concat, Option.some.injEq] at hq
        rw [← hq]; exact hr
    cases c with
    | moveSpeed q e s => exact one _ hc
    | move q e => exact one _ hc
    | polygon layer path z o =>
      simp only [Plan.call]
      unfold Plan.polygon
      split
      · rw [List.append_nil]; exact ⟨ih1, ih2⟩
      · rename_i p0 rest _
        simp only [Call.AtLeast] at hc
        obtain ⟨r, rs, hd, hrs, hr, -⟩ := draw_tail_z (plan crossing flow cs).settings ((plan crossing flow cs).retracts crossing layer p0)
          (plan crossing flow cs).last p0 rest z o
        obtain ⟨q, hq, hqz⟩ := draw_last (plan crossing flow cs).settings ((plan crossing flow cs).retracts crossing layer p0)
          (plan crossing flow cs).last p0 rest z o
        constructor
        · intro x hx
          cases hp : (plan crossing flow cs).requests with
          | nil =>
            rw [hp, List.nil_append, hd] at hx
            exact le_trans hc (hrs x hx)
          | cons a l =>
            rw [hp] at hx ih1
            rcases List.mem_append.1 hx with hx | hx
            · exact ih1 x hx
            · rw [hd] at hx
              rcases List.mem_cons.1 hx with rfl | hx
              · rw [hr]
                split
                · cases hg : (plan crossing flow cs).requests.getLast? with
                  | none => rw [List.getLast?_eq_none_iff.1 hg] at hp; cases hp
                  | some y =>
                    have := ih2 y hg
                    simpa [Plan.last, hg] using this
                · exact hc
              · exact le_trans hc (hrs x hx)
        · intro x hx
          rw [List.getLast?_append, hq] at hx
          simp only [Option.some_or, Option.some.injEq] at hx
          rw [← hx, hqz]; exact hc
    | _ => exact ⟨ih1, ih2⟩

/-- The first request belongs to the first thing drawn. -/
theorem plan_first {pre post : List Call} {c : Call} (hp : ∀ x ∈ pre, ¬ Drawn x) :
    ∃ rs, (plan crossing flow (pre ++ c :: post)).requests = ((plan crossing flow pre).call crossing flow c).requests ++ rs ∧
      (plan crossing flow pre).requests = [] := by
  obtain ⟨r1, h1, e1⟩ := fold_requests (crossing := crossing) (flow := flow) pre {}
  obtain ⟨r2, h2, -⟩ := fold_requests (crossing := crossing) (flow := flow) post ((plan crossing flow pre).call crossing flow c)
  refine ⟨r2, ?_, ?_⟩
  · rw [← h2]; simp [plan]
  · unfold plan; rw [h1, e1 hp]; rfl

end

/-! ## The calls of a print -/

section
variable {lib : ClipperLib} {o : Options} {pt : Patterns} {layers : List Layer}

/-- The call keeps the settings for retraction, and is no plain move. -/
def KeepsRetraction : Call → Prop
  | .setRetractionSpeed _ => False
  | .setRetractionAmount _ => False
  | .setRetractionZHop _ => False
  | .move _ _ => False
  | .moveSpeed _ _ _ => False
  | _ => True

theorem inner_keeps {m : Int} {n : Nat} {l : Layer} : ∀ c ∈ innerCalls lib o pt m n l, KeepsRetraction c ∧
    ∀ layer path z isOpen, c = .polygon layer path z isOpen → z = layerHeight o n := by
  intro c hc
  simp only [innerCalls, preLayerCommon, List.mem_append] at hc
  rcases hc with (hc | ((hc | hc) | hc) | hc) | hc
  · split at hc
    · rw [List.mem_singleton.1 hc]; exact ⟨trivial, by simp⟩
    · simp at hc
  · rw [List.mem_singleton.1 hc]; exact ⟨trivial, by simp⟩
  · split at hc
    · simp only [List.mem_cons, List.not_mem_nil, or_false] at hc
      rcases hc with rfl | rfl <;> exact ⟨trivial, by simp⟩
    · simp at hc
  · split at hc
    · split at hc <;> rw [List.mem_singleton.1 hc] <;> exact ⟨trivial, by simp⟩
    · simp at hc
  · split at hc
    · simp only [List.mem_cons, List.not_mem_nil, or_false] at hc
      rcases hc with rfl | rfl | rfl <;> exact ⟨trivial, by simp⟩
    · simp at hc
  · have := layerDraws_drawCall lib o pt m n l c hc
    cases c with
    | comment t => exact ⟨trivial, by simp⟩
    | setExtrudeSpeed v => exact ⟨trivial, by simp⟩
    | polygon layer path z isOpen =>
      refine ⟨trivial, fun l' p' z' o' he => ?_⟩
      cases he
      exact this
    | _ => exact absurd this (by simp [DrawCall])

theorem print_atLeast (ht : 0 ≤ o.print.layerThickness) : ∀ c ∈ printCalls lib o pt layers, Call.AtLeast o.print.initialLayerThickness c := by
  intro c hc
  unfold printCalls at hc
  rcases List.mem_append.1 hc with hc | hc
  · simp only [preLayerSettings, List.mem_cons, List.not_mem_nil, or_false] at hc
    rcases hc with rfl | rfl | rfl | rfl | rfl | rfl | rfl <;> trivial
  · obtain ⟨x, -, hc⟩ := List.mem_flatMap.1 hc
    obtain ⟨h1, h2⟩ := inner_keeps c hc
    cases c with
    | polygon layer path z isOpen =>
      have := h2 layer path z isOpen rfl
      simp only [Call.AtLeast, this, layerHeight]
      have := mul_nonneg (Int.natCast_nonneg x.2) ht
      omega
    | move => exact h1.elim
    | moveSpeed => exact h1.elim
    | _ => trivial

/-- Before anything is drawn, the retraction of the options is set. -/
theorem print_retraction {crossing : List LayerPart → Path → Bool × Bool} {flow : Int → Int → ℚ} {pre post : List Call} {c : Call}
    (h : printCalls lib o pt layers = pre ++ c :: post) (hc : Drawn c) :
    (∃ layer path z isOpen, c = .polygon layer path z isOpen) ∧
    (plan crossing flow pre).settings.retractionSpeed = truncZ o.filament.retractionSpeed ∧
    (plan crossing flow pre).settings.retractionAmount = o.filament.retractionLength := by
  unfold printCalls at h
  have keep : ∀ (cs : List Call) (p : Plan), (∀ x ∈ cs, KeepsRetraction x) →
      (cs.foldl (Plan.call crossing flow) p).settings.retractionSpeed = p.settings.retractionSpeed ∧
      (cs.foldl (Plan.call crossing flow) p).settings.retractionAmount = p.settings.retractionAmount := by
    intro cs
    induction cs with
    | nil => intro p _; exact ⟨rfl, rfl⟩
    | cons x cs ih =>
      intro p hk
      obtain ⟨h1, h2⟩ := ih (p.call crossing flow x) fun y hy => hk y (by simp [hy])
      rw [List.foldl_cons, h1, h2]
      have := hk x (by simp)
      cases x with
      | setRetractionSpeed => exact this.elim
      | setRetractionAmount => exact this.elim
      | _ => exact ⟨rfl, rfl⟩
  obtain ⟨a, rfl, h2⟩ : ∃ a, pre = preLayerSettings o ++ a ∧
      (layers.zipIdx.flatMap fun x => innerCalls lib o pt (layers.length - 1) x.2 x.1) = a ++ c :: post := by
    rcases List.append_eq_append_iff.1 h with h | ⟨a, h1, h2⟩
    · exact h
    · cases a with
      | nil => exact ⟨[], by simpa using h1.symm, by simpa using h2.symm⟩
      | cons y a =>
        rw [List.cons_append, List.cons.injEq] at h2
        have : c ∈ preLayerSettings o := by rw [h1, h2.1]; simp
        simp only [preLayerSettings, List.mem_cons, List.not_mem_nil, or_false] at this
        rcases this with rfl | rfl | rfl | rfl | rfl | rfl | rfl <;> exact hc.elim
  have hk : ∀ x ∈ a ++ c :: post, KeepsRetraction x := by
    intro x hx
    rw [← h2] at hx
    obtain ⟨y, -, hx⟩ := List.mem_flatMap.1 hx
    exact (inner_keeps x hx).1
  constructor
  · have := hk c (by simp)
    cases c with
    | polygon layer path z isOpen => exact ⟨_, _, _, _, rfl⟩
    | move => exact this.elim
    | moveSpeed => exact this.elim
    | _ => exact hc.elim
  · obtain ⟨h3, h4⟩ := keep a ((preLayerSettings o).foldl (Plan.call crossing flow) {}) fun x hx => hk x (List.mem_append_left _ hx)
    unfold plan
    rw [List.foldl_append, h3, h4]
    exact ⟨rfl, rfl⟩

/-- The first call that draws something. -/
theorem first_drawn (cs : List Call) : (∀ c ∈ cs, ¬ Drawn c) ∨ ∃ pre c post, cs = pre ++ c :: post ∧ (∀ x ∈ pre, ¬ Drawn x) ∧ Drawn c := by
  induction cs with
  | nil => left; simp
  | cons c cs ih =>
    by_cases hc : Drawn c
    · right; exact ⟨[], c, cs, rfl, by simp, hc⟩
    · rcases ih with h | ⟨pre, d, post, rfl, h1, h2⟩
      · left; simpa [hc] using h
      · right; exact ⟨c :: pre, d, post, rfl, by simpa [hc] using h1, h2⟩

/-- The first thing drawn is determined. -/
theorem first_unique {pre pre' post post' : List Call} {c c' : Call} (h : pre ++ c :: post = pre' ++ c' :: post') (h1 : ∀ x ∈ pre, ¬ Drawn x)
    (h2 : ∀ x ∈ pre', ¬ Drawn x) (hc : Drawn c) (hc' : Drawn c') : pre = pre' ∧ c = c' ∧ post = post' := by
  induction pre generalizing pre' with
  | nil =>
    cases pre' with
    | nil => simpa using h
    | cons x pre' =>
      simp only [List.nil_append, List.cons_append, List.cons.injEq] at h
      exact absurd (h.1 ▸ hc) (h2 x (by simp))
  | cons y pre ih =>
    cases pre' with
    | nil =>
      simp only [List.nil_append, List.cons_append, List.cons.injEq] at h
      exact absurd (h.1 ▸ hc') (h1 y (by simp))
    | cons x pre' =>
      simp only [List.cons_append, List.cons.injEq] at h
      obtain ⟨h3, h4⟩ := ih h.2 (fun z hz => h1 z (by simp [hz])) (fun z hz => h2 z (by simp [hz]))
      exact ⟨by rw [h.1, h3], h4⟩

/-- The first request of a print: a retraction at the origin, exactly if the print starts crossing, else at the height of a layer. -/
theorem print_first (crossing : List LayerPart → Path → Bool × Bool) (flow : Int → Int → ℚ) (ht : 0 ≤ o.print.layerThickness) :
    (StartsCrossing crossing o (printCalls lib o pt layers) → ∃ r rs, (plan crossing flow (printCalls lib o pt layers)).requests = r :: rs ∧
      r.target = ⟨0, 0, 0⟩ ∧ r.extrusion ≠ 0) ∧
    (¬ StartsCrossing crossing o (printCalls lib o pt layers) → ∀ r ∈ (plan crossing flow (printCalls lib o pt layers)).requests,
      o.print.initialLayerThickness ≤ r.target.z) := by
  have htail := (plan_tail (crossing := crossing) (flow := flow) (print_atLeast (lib := lib) (pt := pt) (layers := layers) ht)).1
  constructor
  · rintro ⟨pre, parts, p0, path, z, isOpen, post, he, hp, h1, h2, h3⟩
    obtain ⟨-, hs, ha⟩ := print_retraction (crossing := crossing) (flow := flow) he (by simp [Drawn])
    obtain ⟨rs, hr, hpre⟩ := plan_first (crossing := crossing) (flow := flow) (post := post) (c := .polygon (some parts) (p0 :: path) z isOpen) hp
    have hlast : (plan crossing flow pre).last = ⟨0, 0, 0⟩ := by simp [Plan.last, hpre]
    have hdp := (C05_int64_ends (p0 :: path) (-1)).1
    cases hd : douglasPeuckerM (p0 :: path) (-1) with
    | nil => rw [hd] at hdp; simp at hdp
    | cons q rest =>
      rw [hd] at hdp
      simp only [List.head?_cons, Option.some.injEq] at hdp
      subst hdp
      have hret : (plan crossing flow pre).retracts crossing (some parts) q = true := by
        simp only [Plan.retracts, hs, ha, hlast, h3]
        simp [h1, h2]
      obtain ⟨r, rs', hdr, -, htar, hex⟩ := draw_tail_z (plan crossing flow pre).settings ((plan crossing flow pre).retracts crossing (some parts) q)
          (plan crossing flow pre).last q rest z isOpen
      refine ⟨r, rs' ++ rs, ?_, by rw [htar, if_pos hret, hlast], ?_⟩
      · rw [he, hr]
        simp only [Plan.call, Plan.polygon, hpre, hd, hdr]
        rfl
      · rw [hex hret, ha]; simpa using h2
  · intro hn
    rcases first_drawn (printCalls lib o pt layers) with h | ⟨pre, c, post, he, hp, hc⟩
    · obtain ⟨rs, h1, h2⟩ := fold_requests (crossing := crossing) (flow := flow) (printCalls lib o pt layers) {}
      intro r hr
      unfold plan at hr
      rw [h1, h2 h] at hr
      simp at hr
    · obtain ⟨⟨layer, path, z, isOpen, rfl⟩, hs, ha⟩ := print_retraction (crossing := crossing) (flow := flow) he hc
      obtain ⟨rs, hr, hpre⟩ := plan_first (crossing := crossing) (flow := flow) (post := post) (c := .polygon layer path z isOpen) hp
      have hlast : (plan crossing flow pre).last = ⟨0, 0, 0⟩ := by simp [Plan.last, hpre]
      have hz : o.print.initialLayerThickness ≤ z := print_atLeast ht (Call.polygon layer path z isOpen) (by rw [he]; simp)
      obtain ⟨p0, path, rfl⟩ := List.exists_cons_of_ne_nil (show path ≠ [] from hc)
      have hdp := (C05_int64_ends (p0 :: path) (-1)).1
      cases hd : douglasPeuckerM (p0 :: path) (-1) with
      | nil => rw [hd] at hdp; simp at hdp
      | cons q rest =>
        rw [hd] at hdp
        simp only [List.head?_cons, Option.some.injEq] at hdp
        subst hdp
        have hret : (plan crossing flow pre).retracts crossing layer q = false := by
          cases layer with
          | none => rfl
          | some parts =>
            by_contra hcon
            simp only [Plan.retracts, hs, ha, hlast] at hcon
            simp only [Bool.and_eq_false_iff, not_or, Bool.not_eq_false, decide_eq_true_eq] at hcon
            exact hn ⟨pre, parts, q, path, z, isOpen, post, he, hp, hcon.1.1, hcon.1.2, hcon.2⟩
        obtain ⟨r, rs', hdr, -, htar, -⟩ := draw_tail_z (plan crossing flow pre).settings ((plan crossing flow pre).retracts crossing layer q)
            (plan crossing flow pre).last q rest z isOpen
        have hreq : (plan crossing flow (printCalls lib o pt layers)).requests = r :: (rs' ++ rs) := by
          rw [he, hr]
          simp only [Plan.call, Plan.polygon, hpre, hd, hdr]
          rfl
        rw [hreq] at htail ⊢
        intro x hx
        rcases List.mem_cons.1 hx with rfl | hx
        · rw [htar, hret]; exact hz
        · exact htail x hx

/-- **C26** All moves of a print end at the height of the first layer or above (custom G-code aside), with one exception: if the first polygon
of the print belongs to a layer, retraction is configured, and the way to the polygon from X0 Y0 crosses a perimeter, then the first move is
a retraction at X0 Y0 Z0. -/
theorem C26_heights {crossing : List LayerPart → Path → Bool × Bool} {g0 : Builder} {t : Str} (hne : layers ≠ []) (ht : 0 ≤ o.print.layerThickness)
    (h : (generateScripts crossing o (standardRenderers lib o pt) layers g0).2 = (t, none)) :
    ∃ body m moves, t = startText o ++ body ++ endText o ∧ run body = some (m, moves) ∧
      (∀ mv ∈ moves.tail, AboveFirst o mv) ∧
      (¬ StartsCrossing crossing o (printCalls lib o pt layers) → ∀ mv ∈ moves, AboveFirst o mv) ∧
      (StartsCrossing crossing o (printCalls lib o pt layers) → ∃ mv rest, moves = mv :: rest ∧ mv.hasE = true ∧
        mv.after.x = some 0 ∧ mv.after.y = some 0 ∧ mv.after.z = some 0) := by
  obtain ⟨g, htext, hb⟩ := print_body hne h
  obtain ⟨m, moves, h1, h2, h3⟩ := C18_moves harmless_print hb
  obtain ⟨hcross, hno⟩ := print_first (lib := lib) (pt := pt) (layers := layers) crossing
    (flowOf o.filament.filamentDiameter o.filament.extrusionMultiplier) ht
  have htl := (plan_tail (crossing := crossing) (flow := flowOf o.filament.filamentDiameter o.filament.extrusionMultiplier)
    (print_atLeast (lib := lib) (pt := pt) (layers := layers) ht)).1
  generalize (plan crossing (flowOf o.filament.filamentDiameter o.filament.extrusionMultiplier) (printCalls lib o pt layers)).requests = reqs at *
  have above : ∀ k (hk : k < moves.length) (hk' : k < (emitted reqs).length), o.print.initialLayerThickness ≤ (emitted reqs)[k].target.z →
      AboveFirst o moves[k] := by
    intro k hk hk' hz
    rw [h3 k _ _ (List.getElem?_eq_getElem hk') (List.getElem?_eq_getElem hk)]
    exact ⟨_, rfl, decimals_mono 2 (toMillimeter_mono hz)⟩
  refine ⟨g.buf, m, moves, htext, h1, fun mv hm => ?_, fun hn mv hm => ?_, fun hc => ?_⟩
  · obtain ⟨k, hk, rfl⟩ := List.mem_iff_getElem.1 hm
    rw [List.getElem_tail]
    have hk2 : k + 1 < moves.length := by rw [List.length_tail] at hk; omega
    refine above (k + 1) hk2 (by omega) ?_
    cases reqs with
    | nil => exact absurd h2 (by simp [emitted, emittedFrom]; intro h; rw [h] at hk2; simp at hk2)
    | cons r rs =>
      have he : emitted (r :: rs) = r :: emittedFrom (some r.target) rs := by simp [emitted, emittedFrom]
      simp only [he, List.getElem_cons_succ]
      exact htl _ (mem_emittedFrom (List.getElem_mem _))
  · obtain ⟨k, hk, rfl⟩ := List.mem_iff_getElem.1 hm
    exact above k hk (by omega) (hno hn _ (mem_emittedFrom (List.getElem_mem _)))
  · obtain ⟨r, rs, rfl, htar, hex⟩ := hcross hc
    have he : emitted (r :: rs) = r :: emittedFrom (some r.target) rs := by simp [emitted, emittedFrom]
    cases moves with
    | nil => rw [he] at h2; simp at h2
    | cons mv rest =>
      have := h3 0 r mv (by rw [he]; rfl) rfl
      refine ⟨mv, rest, rfl, ?_⟩
      rw [this]
      simp [moveFor, htar, hex, decimals, toMillimeter]

/-- **C26** If a skirt or a brim is drawn in the first layer, then this exception does not occur: all moves are at the height of the first layer or
above. -/
theorem C26_skirt {crossing : List LayerPart → Path → Bool × Bool} {l : Layer}
    (h : ∃ c ∈ (skirtRenderer lib o 0 layers.length l (layerHeight o 0)).calls ++ (brimRenderer 0 layers.length l (layerHeight o 0)).calls, Drawn c) :
    ¬ StartsCrossing crossing o (printCalls lib o pt (l :: layers)) := by
  rintro ⟨pre', parts, p0, path, z, isOpen, post', he', hp', -⟩
  have hlayer : ∀ c ∈ (skirtRenderer lib o 0 layers.length l (layerHeight o 0)).calls ++ (brimRenderer 0 layers.length l (layerHeight o 0)).calls,
      ∀ parts path z isOpen, c ≠ .polygon (some parts) path z isOpen := by
    intro c hc parts path z isOpen
    rcases List.mem_append.1 hc with hc | hc
    · revert hc
      unfold skirtRenderer
      split
      · simp
      · rw [if_pos rfl]
        split
        · simp
        · split
          · simp
          · split
            · simp
            · intro hc
              simp only [List.mem_cons, List.mem_flatMap, List.mem_map] at hc
              rcases hc with rfl | ⟨w, -, p, -, rfl⟩ <;> simp
    · revert hc
      unfold brimRenderer
      split
      · simp
      · simp
      · rw [brim_calls]
        intro hc
        simp only [List.mem_cons, List.mem_map] at hc
        rcases hc with rfl | ⟨p, -, rfl⟩ <;> simp
  obtain ⟨a, b, hab, hna⟩ : ∃ a b, printCalls lib o pt (l :: layers) = a ++
      ((skirtRenderer lib o 0 layers.length l (layerHeight o 0)).calls ++ (brimRenderer 0 layers.length l (layerHeight o 0)).calls) ++ b ∧
      ∀ c ∈ a, ¬ Drawn c := by
    have e : (((l :: layers).length : Int) - 1) = layers.length := by simp
    refine ⟨preLayerSettings o ++ preLayerCommon o 0, (((drawingRenderers lib o pt).drop 2).flatMap fun r =>
      (r 0 layers.length l (layerHeight o 0)).calls) ++ (layers.zipIdx 1).flatMap fun x => innerCalls lib o pt layers.length x.2 x.1, ?_, ?_⟩
    · unfold printCalls
      rw [List.zipIdx_cons, List.flatMap_cons, e]
      simp [innerCalls, layerDraws, drawingRenderers]
    · intro c hc
      rcases List.mem_append.1 hc with hc | hc
      · simp only [preLayerSettings, List.mem_cons, List.not_mem_nil, or_false] at hc
        rcases hc with rfl | rfl | rfl | rfl | rfl | rfl | rfl <;> exact id
      · simp only [preLayerCommon, List.mem_append] at hc
        rcases hc with ((hc | hc) | hc) | hc
        · rw [List.mem_singleton.1 hc]; exact id
        · simp at hc
        · split at hc
          · split at hc <;> rw [List.mem_singleton.1 hc] <;> exact id
          · simp at hc
        · split at hc
          · simp only [List.mem_cons, List.not_mem_nil, or_false] at hc
            rcases hc with rfl | rfl | rfl <;> exact id
          · simp at hc
  rcases first_drawn ((skirtRenderer lib o 0 layers.length l (layerHeight o 0)).calls ++ (brimRenderer 0 layers.length l (layerHeight o 0)).calls) with
    hn | ⟨pre, c, post, he, hp, hc⟩
  · obtain ⟨c, hc, hd⟩ := h
    exact hn c hc hd
  · have heq : (a ++ pre) ++ c :: (post ++ b) = pre' ++ .polygon (some parts) (p0 :: path) z isOpen :: post' := by
      rw [← he', hab, he]; simp
    obtain ⟨-, h2, -⟩ := first_unique heq (fun x hx => (List.mem_append.1 hx).elim (hna x) (hp x)) hp' hc (by simp [Drawn])
    exact hlayer c (by rw [he]; simp) _ _ _ _ h2

end

/-- Non-vacuity of `C26_heights`: a print of five layers. -/
example : ∃ body m moves, (smallPrint {}).1 = startText {} ++ body ++ endText {} ∧ run body = some (m, moves) ∧ ∀ mv ∈ moves, AboveFirst {} mv := by
  obtain ⟨body, m, moves, h1, h2, -, h3, -⟩ := C26_heights (by simp) (by decide) (smallPrint_eq {})
  refine ⟨body, m, moves, h1, h2, h3 ?_⟩
  rintro ⟨_, _, _, _, _, _, _, -, -, -, -, h⟩
  cases h

/-- Options without skirt. -/
def skirtless : Options := { print := { brimSkirt := { skirtCount := 0 } } }

/-- A print which starts with a retraction at the origin. -/
example : StartsCrossing (fun _ _ => (true, true)) skirtless (printCalls noClipper skirtless noPatterns [triangleLayer]) := by
  refine ⟨preLayerSettings skirtless ++ preLayerCommon skirtless 0 ++
    [.comment "TYPE:WALL-OUTER".toList, .setExtrudeSpeed skirtless.print.outerPerimeterSpeed],
    triangleLayer.parts, ⟨0, 0⟩, [⟨3000, 0⟩, ⟨0, 4000⟩], layerHeight skirtless 0, false, [], ?_, ?_, by decide +kernel, by decide +kernel, rfl⟩
  · rfl
  · have : preLayerCommon skirtless 0 = [.text ";LAYER:0".toList] := rfl
    rw [this]
    simp [preLayerSettings, Drawn]

/-- A print with a brim. -/
example : ∃ c ∈ (skirtRenderer noClipper skirtless 0 0 ⟨[], some (AttrMap.insert (fun _ => none) "brim" (.offsetResult [[[⟨[⟨0, 0⟩], []⟩]]]))⟩
    (layerHeight skirtless 0)).calls ++ (brimRenderer 0 0 ⟨[], some (AttrMap.insert (fun _ => none) "brim" (.offsetResult [[[⟨[⟨0, 0⟩], []⟩]]]))⟩
    (layerHeight skirtless 0)).calls, Drawn c := by
  refine ⟨.polygon none [⟨0, 0⟩] (layerHeight skirtless 0) false, ?_, by simp [Drawn]⟩
  refine List.mem_append_right _ ?_
  have : (brimRenderer 0 0 ⟨[], some (AttrMap.insert (fun _ => none) "brim" (.offsetResult [[[⟨[⟨0, 0⟩], []⟩]]]))⟩ (layerHeight skirtless 0)).calls =
    [.comment "TYPE:SKIRT".toList, .polygon none [⟨0, 0⟩] (layerHeight skirtless 0) false] := rfl
  rw [this]
  simp

end Verif
