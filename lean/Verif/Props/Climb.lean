import Verif.Props.Height
import Verif.Props.Reader
import Verif.Props.Filled
import Verif.Props.Nothing
import Verif.Props.Moved
import Verif.Spec.Climb

/-! # C129: the head never goes below what is printed, and the print is as high as the model -/
namespace Verif
open Verif.Go Verif.Model Verif.Spec Verif.Spec.GCode

theorem pairwise_all {α : Type} {R : α → α → Prop} {l : List α} (h : ∀ a ∈ l, ∀ b ∈ l, R a b) : l.Pairwise R :=
  List.pairwise_iff_getElem.2 fun _ _ _ _ _ => h _ (List.getElem_mem _) _ (List.getElem_mem _)

theorem emittedFrom_sublist (rs : List Request) : ∀ prev, (emittedFrom prev rs).Sublist rs := by
  induction rs with
  | nil => intro prev; exact .slnil
  | cons r rs ih =>
    intro prev
    unfold emittedFrom
    split
    · exact List.Sublist.cons _ (ih _)
    · exact List.Sublist.cons_cons _ (ih _)

theorem emitted_sublist (rs : List Request) : (emitted rs).Sublist rs := emittedFrom_sublist rs none

section
variable {crossing : List LayerPart → Path → Bool × Bool} {flow : Int → Int → ℚ}

/-- No call of the builder which moves the head directly; the hop is at most `hop`. -/
def NoMoves (hop : ℚ) : Call → Prop
  | .move _ _ => False
  | .moveSpeed _ _ _ => False
  | .setRetractionZHop v => v ≤ hop
  | _ => True

/-- The moves for a polygon: one without change of place at the beginning, then at its height or above. Filament is used at its height only. -/
theorem draw_climb (s : Settings) (c : Bool) (last : Vec3) (p0 : Pt) (rest : Path) (z : Int) (isOpen : Bool) {hop : ℚ} (hh : s.zHop ≤ hop) (h0 : 0 ≤ hop) :
    ∃ first rs, s.draw c last p0 rest z isOpen = first ++ rs ∧ (∀ r ∈ first, r.target = last) ∧ first.length ≤ 1 ∧
      ∀ r ∈ rs, z ≤ r.target.z ∧ r.target.z ≤ z + toMicrometer hop ∧ (r.extrusion ≠ 0 → r.target.z = z) := by
  have hn := toMicrometer_nonneg h0
  have hlines : ∀ r ∈ s.lines z p0 rest ++ (if isOpen then [] else [s.closing z p0 (rest.getLastD p0)]),
      z ≤ r.target.z ∧ r.target.z ≤ z + toMicrometer hop ∧ (r.extrusion ≠ 0 → r.target.z = z) := by
    intro r hr
    have : r.target.z = z := by
      rcases List.mem_append.1 hr with hr | hr
      · exact lines_z r hr
      · split at hr
        · simp at hr
        · rw [List.mem_singleton.1 hr]; rfl
    omega
  have key : ∀ first rs, s.approach c last p0 z = first ++ rs → (∀ r ∈ first, r.target = last) → first.length ≤ 1 →
      (∀ r ∈ rs, z ≤ r.target.z ∧ r.target.z ≤ z + toMicrometer hop ∧ (r.extrusion ≠ 0 → r.target.z = z)) → ∃ first rs, s.draw c last p0 rest z isOpen = first ++ rs ∧ (∀ r ∈ first, r.target = last) ∧ first.length ≤ 1 ∧
      ∀ r ∈ rs, z ≤ r.target.z ∧ r.target.z ≤ z + toMicrometer hop ∧ (r.extrusion ≠ 0 → r.target.z = z) := by
    intro first rs he h1 h2 h3
    exact ⟨first, rs ++ (s.lines z p0 rest ++ (if isOpen then [] else [s.closing z p0 (rest.getLastD p0)])),
      by unfold Settings.draw; rw [he]; simp, h1, h2, fun r hr => (List.mem_append.1 hr).elim (h3 r) (hlines r)⟩
  cases c with
  | false =>
    refine key [] _ rfl (by simp) (by simp) fun r hr => ?_
    rw [List.mem_singleton.1 hr]
    simp [Settings.move]
    omega
  | true =>
    by_cases hz : 0 < s.zHop
    · have h1 := toMicrometer_nonneg hz.le
      have h2 := C89_order _ _ hh
      refine key [⟨last, -s.retractionAmount, s.retractionSpeed⟩] _ (by unfold Settings.approach; rw [if_pos rfl, if_pos hz]; rfl) (by simp) (by simp) fun r hr => ?_
      simp only [List.mem_cons, List.not_mem_nil, or_false] at hr
      rcases hr with rfl | rfl | rfl | rfl <;> simp [Settings.move] <;> omega
    · refine key [⟨last, -s.retractionAmount, s.retractionSpeed⟩] _ (by unfold Settings.approach; rw [if_pos rfl, if_neg hz]; rfl) (by simp) (by simp) fun r hr => ?_
      simp only [List.mem_cons, List.not_mem_nil, or_false] at hr
      rcases hr with rfl | rfl <;> simp [Settings.move] <;> omega

/-- The hop in force. -/
theorem plan_hop {hop : ℚ} (h0 : 0 ≤ hop) {cs : List Call} (hq : ∀ c ∈ cs, NoMoves hop c) : (plan crossing flow cs).settings.zHop ≤ hop := by
  induction cs using List.reverseRecOn with
  | nil => exact h0
  | append_singleton cs c ih =>
    have h1 := ih fun x hx => hq x (List.mem_append_left _ hx)
    have h2 := hq c (by simp)
    rw [plan_append]
    cases c <;> first | exact h1 | exact h2

/-- The requests of calls which rise. -/
theorem plan_climb {hop : ℚ} (h0 : 0 ≤ hop) {cs : List Call} (hq : ∀ c ∈ cs, NoMoves hop c) (hr : Rising cs) (hz : ∀ c ∈ cs, ∀ z, drawsAt c = some z → 0 ≤ z) :
    (plan crossing flow cs).requests.Pairwise (fun a b => a.extrusion ≠ 0 → a.target.z ≤ b.target.z) ∧
    (∀ r ∈ (plan crossing flow cs).requests, r.extrusion ≠ 0 → r.target.z ≤ (plan crossing flow cs).last.z) ∧
    ∀ b, 0 ≤ b → (∀ c ∈ cs, ∀ z, drawsAt c = some z → z ≤ b) → (plan crossing flow cs).last.z ≤ b ∧
      ∀ r ∈ (plan crossing flow cs).requests, r.target.z ≤ b + toMicrometer hop ∧ (r.extrusion ≠ 0 → r.target.z ≤ b) := by
  have hn := toMicrometer_nonneg h0
  induction cs using List.reverseRecOn with
  | nil => exact ⟨by simp [plan], by simp [plan], fun b hb _ => ⟨by simpa [plan, Plan.last] using hb, by simp [plan]⟩⟩
  | append_singleton cs c ih =>
    obtain ⟨hr1, -, hr2⟩ := List.pairwise_append.1 hr
    obtain ⟨i1, i2, i3⟩ := ih (fun x hx => hq x (List.mem_append_left _ hx)) hr1 fun x hx => hz x (List.mem_append_left _ hx)
    have hc := hq c (by simp)
    have same : ∀ b, 0 ≤ b → (∀ x ∈ cs ++ [c], ∀ z, drawsAt x = some z → z ≤ b) → (plan crossing flow cs).last.z ≤ b ∧
        ∀ r ∈ (plan crossing flow cs).requests, r.target.z ≤ b + toMicrometer hop ∧ (r.extrusion ≠ 0 → r.target.z ≤ b) :=
      fun b hb hx => i3 b hb fun x h => hx x (List.mem_append_left _ h)
    have hh := plan_hop (crossing := crossing) (flow := flow) h0 fun x hx => hq x (List.mem_append_left _ hx)
    rw [plan_append]
    cases c with
    | moveSpeed q e s => exact hc.elim
    | move q e => exact hc.elim
    | polygon layer path z isOpen =>
      have hz0 : 0 ≤ z := hz (.polygon layer path z isOpen) (by simp) z rfl
      have hzb : ∀ x ∈ cs, ∀ y, drawsAt x = some y → y ≤ z := fun x hx y hy => hr2 x hx (.polygon layer path z isOpen) (by simp) y z hy rfl
      obtain ⟨j1, j2⟩ := i3 z hz0 hzb
      simp only [Plan.call, Plan.last]
      unfold Plan.polygon
      split
      · rw [List.append_nil]; exact ⟨i1, i2, same⟩
      · rename_i p0 rest _
        obtain ⟨first, rs, hd, f1, f2, f3⟩ := draw_climb (plan crossing flow cs).settings ((plan crossing flow cs).retracts crossing layer p0)
          (plan crossing flow cs).last p0 rest z isOpen hh h0
        obtain ⟨q, hq1, hqz⟩ := draw_last (plan crossing flow cs).settings ((plan crossing flow cs).retracts crossing layer p0)
          (plan crossing flow cs).last p0 rest z isOpen
        rw [List.getLast?_append, hq1]
        simp only [Option.some_or, Option.map_some, Option.getD_some, hqz]
        rw [hd]
        have hfirst : ∀ r ∈ first, r.target.z ≤ z := fun r hr => by rw [f1 r hr]; exact j1
        refine ⟨?_, ?_, ?_⟩
        · rw [List.pairwise_append, List.pairwise_append]
          refine ⟨i1, ⟨?_, ?_, ?_⟩, ?_⟩
          · match first, f2 with
            | [], _ => exact .nil
            | [r], _ => simp
          · exact pairwise_all fun a ha b hb he => by rw [(f3 a ha).2.2 he]; exact (f3 b hb).1
          · intro a ha b hb _
            exact (hfirst a ha).trans (f3 b hb).1
          · intro a ha b hb he
            rcases List.mem_append.1 hb with hb | hb
            · rw [f1 b hb]; exact i2 a ha he
            · exact ((j2 a ha).2 he).trans (f3 b hb).1
        · intro r hr he
          rcases List.mem_append.1 hr with hr | hr
          · exact (j2 r hr).2 he
          · rcases List.mem_append.1 hr with hr | hr
            · exact hfirst r hr
            · exact ((f3 r hr).2.2 he).le
        · intro b hb hx
          have hzb' : z ≤ b := hx (.polygon layer path z isOpen) (by simp) z rfl
          refine ⟨hzb', fun r hr => ?_⟩
          rcases List.mem_append.1 hr with hr | hr
          · exact (same b hb hx).2 r hr
          · rcases List.mem_append.1 hr with hr | hr
            · have := hfirst r hr
              omega
            · have := f3 r hr
              exact ⟨by omega, fun he => by rw [this.2.2 he]; exact hzb'⟩
    | _ => exact ⟨i1, i2, same⟩

end

section
variable {lib : ClipperLib} {o : Options} {pt : Patterns} {layers : List Layer} {crossing : List LayerPart → Path → Bool × Bool} {g0 : Builder} {t : Str}

theorem print_quiet : ∀ c ∈ printCalls lib o pt layers, NoMoves (max 0 o.filament.retractionZHop) c := by
  intro c hc
  unfold printCalls at hc
  rcases List.mem_append.1 hc with hc | hc
  · simp only [preLayerSettings, List.mem_cons, List.not_mem_nil, or_false] at hc
    rcases hc with rfl | rfl | rfl | rfl | rfl | rfl | rfl <;> first | trivial | exact le_max_right _ _
  · obtain ⟨x, -, hc⟩ := List.mem_flatMap.1 hc
    have h1 := (inner_keeps c hc).1
    cases c <;> trivial

theorem print_draws : ∀ c ∈ printCalls lib o pt layers, ∀ z, drawsAt c = some z → ∃ n, n < layers.length ∧ z = layerHeight o n := by
  intro c hc z hz
  unfold printCalls at hc
  rcases List.mem_append.1 hc with hc | hc
  · simp only [preLayerSettings, List.mem_cons, List.not_mem_nil, or_false] at hc
    rcases hc with rfl | rfl | rfl | rfl | rfl | rfl | rfl <;> cases hz
  · obtain ⟨x, hx, hc⟩ := List.mem_flatMap.1 hc
    have h1 := (inner_keeps c hc).2
    cases c with
    | polygon layer path z' isOpen =>
      cases hz
      refine ⟨x.2, ?_, h1 _ _ _ _ rfl⟩
      have := (List.mem_zipIdx hx).2.1
      omega
    | _ => cases hz

theorem print_rising (ht : 0 ≤ o.print.layerThickness) : Rising (printCalls lib o pt layers) := by
  unfold printCalls Rising
  rw [List.pairwise_append]
  have hset : ∀ c ∈ preLayerSettings o, drawsAt c = none := by
    intro c hc
    simp only [preLayerSettings, List.mem_cons, List.not_mem_nil, or_false] at hc
    rcases hc with rfl | rfl | rfl | rfl | rfl | rfl | rfl <;> rfl
  have hin : ∀ (m : Int) (x : Layer × Nat), ∀ c ∈ innerCalls lib o pt m x.2 x.1, ∀ z, drawsAt c = some z → z = layerHeight o x.2 := by
    intro m x c hc z hz
    have h1 := (inner_keeps c hc).2
    cases c with
    | polygon layer path z' isOpen => cases hz; exact h1 _ _ _ _ rfl
    | _ => cases hz
  refine ⟨pairwise_all fun a ha b _ za zb h1 _ => absurd h1 (by rw [hset a ha]; simp), ?_, fun a ha b _ za zb h1 _ => absurd h1 (by rw [hset a ha]; simp)⟩
  rw [List.pairwise_flatMap]
  constructor
  · intro x _
    exact pairwise_all fun a ha b hb za zb h1 h2 => by rw [hin _ x a ha za h1, hin _ x b hb zb h2]
  · have hsorted : (layers.zipIdx).Pairwise fun a b => a.2 ≤ b.2 := by
      have : (layers.zipIdx.map Prod.snd).Pairwise (· ≤ ·) := by
        rw [List.zipIdx_map_snd]
        exact (List.pairwise_lt_range' (s := 0) (n := layers.length) (step := 1)).imp le_of_lt
      exact List.pairwise_map.1 this
    refine hsorted.imp fun {x y} hxy a ha b hb za zb h1 h2 => ?_
    rw [hin _ x a ha za h1, hin _ y b hb zb h2]
    unfold layerHeight
    have : (x.2 : Int) * o.print.layerThickness ≤ y.2 * o.print.layerThickness := mul_le_mul_of_nonneg_right (by exact_mod_cast hxy) ht
    omega

/-- **C129** In a print no move goes below something printed before, and no move goes above the last layer by more than the hop. -/
theorem C129_climb (hne : layers ≠ []) (hi : 0 ≤ o.print.initialLayerThickness) (ht : 0 ≤ o.print.layerThickness)
    (h : (generateScripts crossing o (standardRenderers lib o pt) layers g0).2 = (t, none)) :
    ∃ body m moves, t = startText o ++ body ++ endText o ∧ run body = some (m, moves) ∧ NeverBelow moves ∧
      ∀ mv ∈ moves, ∃ z, mv.after.z = some z ∧ z ≤ decimals 2 (toMillimeter (layerHeight o (layers.length - 1) + toMicrometer (max 0 o.filament.retractionZHop))) := by
  obtain ⟨g, htext, hb⟩ := print_body hne h
  obtain ⟨m, moves, h1, h2, h3⟩ := C18_moves harmless_print hb
  have hlen : 0 < layers.length := List.length_pos_iff.2 hne
  have hpos : ∀ n : Nat, 0 ≤ layerHeight o n := fun n => by
    unfold layerHeight
    have := mul_nonneg (Int.natCast_nonneg n) ht
    omega
  have hmono : ∀ n : Nat, n < layers.length → layerHeight o n ≤ layerHeight o (layers.length - 1) := fun n hn => by
    unfold layerHeight
    have : (n : Int) * o.print.layerThickness ≤ ((layers.length - 1 : Nat) : Int) * o.print.layerThickness :=
      mul_le_mul_of_nonneg_right (by exact_mod_cast Nat.le_sub_one_of_lt hn) ht
    omega
  obtain ⟨p1, -, p3⟩ := plan_climb (crossing := crossing) (flow := flowOf o.filament.filamentDiameter o.filament.extrusionMultiplier) (le_max_left 0 _)
    (print_quiet (lib := lib) (o := o) (pt := pt) (layers := layers)) (print_rising ht) (fun c hc z hz => by
      obtain ⟨n, -, rfl⟩ := print_draws c hc z hz
      exact hpos n)
  obtain ⟨-, p3⟩ := p3 (layerHeight o (layers.length - 1)) (hpos _) fun c hc z hz => by
    obtain ⟨n, hn, rfl⟩ := print_draws c hc z hz
    exact hmono n hn
  generalize (plan crossing (flowOf o.filament.filamentDiameter o.filament.extrusionMultiplier) (printCalls lib o pt layers)).requests = reqs at *
  have hsub := emitted_sublist reqs
  have p1 := p1.sublist hsub
  have hmv : ∀ k (hk : k < moves.length), ∃ hk' : k < (emitted reqs).length, moves[k].after.z = some (decimals 2 (toMillimeter (emitted reqs)[k].target.z)) ∧
      (moves[k].hasE = true → (emitted reqs)[k].extrusion ≠ 0) := by
    intro k hk
    have hk' : k < (emitted reqs).length := by omega
    refine ⟨hk', ?_⟩
    rw [h3 k _ _ (List.getElem?_eq_getElem hk') (List.getElem?_eq_getElem hk)]
    refine ⟨rfl, fun he => ?_⟩
    simpa [moveFor] using he
  refine ⟨g.buf, m, moves, htext, h1, ?_, fun mv hm => ?_⟩
  · unfold NeverBelow
    rw [List.pairwise_iff_getElem] at p1 ⊢
    intro i j hij hjj hlt he
    obtain ⟨i1, i2, i3⟩ := hmv i hij
    obtain ⟨j1, j2, -⟩ := hmv j hjj
    exact ⟨_, _, i2, j2, decimals_mono 2 (toMillimeter_mono (p1 i j i1 j1 hlt (i3 he)))⟩
  · obtain ⟨k, hk, rfl⟩ := List.mem_iff_getElem.1 hm
    obtain ⟨k1, k2, -⟩ := hmv k hk
    exact ⟨_, k2, decimals_mono 2 (toMillimeter_mono (p3 _ (hsub.subset (List.getElem_mem k1))).1)⟩

/-- The number of layers. -/
theorem sliced_count {om : OptModel} {ls : List Layer} (ht : 0 < o.print.layerThickness) (h : slice lib o om = .ok ls) :
    (ls.length : Int) = (om.size.z - o.print.initialLayerThickness).tdiv o.print.layerThickness + 1 := by
  obtain ⟨layers, hs, h⟩ := bind_ok.1 h
  rw [← (mapM_ok.1 h).length_eq]
  simp only [sliceSegments, bind_ok, layerCount, quo, if_neg ht.ne', makeLayers, pure, Except.pure, Except.ok.injEq, exists_eq_left'] at hs
  obtain ⟨l0, hl0, fs, -, h⟩ := hs
  have key : ∀ (gs : List (Tri Vec3)) (i : Nat) (l l' : List (Option SliceLayer)), sliceFaces o i gs l = .ok l' → l'.length = l.length := by
    intro gs
    induction gs with
    | nil => intro _ _ _ h; cases h; rfl
    | cons g gs ih =>
      intro i l l' h
      simp only [sliceFaces, bind_ok] at h
      obtain ⟨l1, h1, h⟩ := h
      rw [ih _ _ _ h, (sliceOneFace_ok h1).1]
  rw [key _ _ _ _ h]
  split at hl0
  · cases hl0
  · cases hl0
    rw [List.length_replicate]
    omega

/-- The text between the custom lines is determined. -/
theorem body_unique {a b body body' : Str} (h : a ++ body ++ b = a ++ body' ++ b) : body = body' := by simpa using h

/-- **C129** The print is as high as the model: for a model of height `H` (as in its file), layer `top` is the last one which is not above `H`. The lines are
printed at the heights of the layers up to it, each wall of each of these layers is printed, no move goes below something printed before, and no move goes higher than
the hop above the last layer. -/
theorem C129_program (ext : Externals) (o : Options) (content t : Str) (h : gcodeOf ext o content = .ok t) (ho : Extrudes o)
    (hi : 0 ≤ o.print.initialLayerThickness) (ht : 0 < o.print.layerThickness) (lo hi' : Vec3)
    (hbox : IsBox (vertices ((ext.stl content).map stlTriangleToFace)) lo hi') (hH : o.print.initialLayerThickness ≤ hi'.z - lo.z) :
    ∃ (top : Nat) (om : OptModel) (sliced layers : List Layer), optimize o ((ext.stl content).map stlTriangleToFace) = .ok om ∧ slice ext.lib o om = .ok sliced ∧
      (standardModifiers ext.lib ext.tan o).foldlM (fun ls m => m ls) sliced = .ok layers ∧ layers.length = top + 1 ∧
      layerHeight o top ≤ hi'.z - lo.z ∧ hi'.z - lo.z < layerHeight o (top + 1) ∧
      ∃ body m moves, t = startText o ++ body ++ endText o ∧ run body = some (m, moves) ∧ NeverBelow moves ∧
        (∀ mv ∈ moves, ∃ z, mv.after.z = some z ∧ z ≤ decimals 2 (toMillimeter (layerHeight o top + toMicrometer (max 0 o.filament.retractionZHop)))) ∧
        (∀ (k : Nat) before line, moves[k]? = some before → moves[k + 1]? = some line → line.hasE = true →
          (before.after.x = line.after.x ∧ before.after.y = line.after.y ∧ before.after.z = line.after.z) ∨
          ∃ n ≤ top, before.after.z = some (decimals 2 (toMillimeter (layerHeight o n))) ∧ line.after.z = some (decimals 2 (toMillimeter (layerHeight o n)))) ∧
        ∀ n l, layers[n]? = some l → ∃ walls, l.perimeters = .ok walls ∧
          ∀ p ∈ walls.flatten.flatten, ∀ contour ∈ p.holes ++ [p.outline], PathPrinted o moves n false contour := by
  obtain ⟨om, sliced, layers, pt, g0, h1, h2, h3, h4, h5⟩ := gcodeOf_steps h
  obtain ⟨s, lo2, hi2, -, -, hbox2, hsize, -⟩ := optimize_faces h1
  obtain ⟨rfl, rfl⟩ := isBox_unique hbox hbox2
  have hz : om.size.z = hi'.z - lo.z := by rw [hsize]; rfl
  have hcount := sliced_count ht h2
  have hlen : layers.length = sliced.length := by
    have := congrArg List.length (C61_parts ext.lib ext.tan o _ (fun m h => h) sliced layers h3)
    simpa using this
  rw [hz, Int.tdiv_eq_ediv_of_nonneg (by omega)] at hcount
  have hq := Int.ediv_nonneg (show 0 ≤ hi'.z - lo.z - o.print.initialLayerThickness by omega) ht.le
  have hd := Int.mul_ediv_add_emod (hi'.z - lo.z - o.print.initialLayerThickness) o.print.layerThickness
  have hm1 := Int.emod_nonneg (hi'.z - lo.z - o.print.initialLayerThickness) ht.ne'
  have hm2 := Int.emod_lt_of_pos (hi'.z - lo.z - o.print.initialLayerThickness) ht
  generalize (hi'.z - lo.z - o.print.initialLayerThickness) / o.print.layerThickness = q at *
  obtain ⟨top, rfl⟩ := Int.eq_ofNat_of_zero_le hq
  have hl1 : layers.length = top + 1 := by omega
  have hne : layers ≠ [] := by intro he; rw [he] at hl1; simp at hl1
  obtain ⟨body, m, moves, t1, r1, n1, n2⟩ := C129_climb hne hi ht.le h5
  obtain ⟨body2, m2, moves2, t2, r2, -, n3⟩ := C112_only hne h5
  obtain ⟨body3, m3, moves3, t3, r3, n4⟩ := C111_printed ho hne h5
  obtain rfl := body_unique (t1.symm.trans t2)
  obtain rfl := body_unique (t1.symm.trans t3)
  cases r1.symm.trans r2
  cases r1.symm.trans r3
  have hsub : layers.length - 1 = top := by omega
  rw [hsub] at n2
  refine ⟨top, om, sliced, layers, h1, h2, h3, hl1, ?_, ?_, body, m, moves, t1, r1, n1, n2, fun k before line hb hl he => ?_, fun n l hnl => (n4 n l hnl).1⟩
  · unfold layerHeight
    rw [mul_comm] at hd
    omega
  · unfold layerHeight
    rw [mul_comm] at hd
    push_cast
    rw [add_mul, one_mul]
    omega
  · rcases n3 k before line hb hl he with h | ⟨n, l, isOpen, path, a, b, hn, -, -, ha, hb⟩
    · exact .inl h
    · have := (List.getElem?_eq_some_iff.1 hn).1
      exact .inr ⟨n, by omega, ha.2.2, hb.2.2⟩

end
/-- Non-vacuity of `C129_program`: the tetrahedron of 1 mm has five layers. -/
example : ∃ t, gcodeOf { cornerExt with lib := insideClipper } {} [] = .ok t ∧ ∃ layers : List Layer, layers.length = 5 ∧ ∃ body m moves,
    t = startText {} ++ body ++ endText {} ∧ run body = some (m, moves) ∧ NeverBelow moves ∧ ∀ mv ∈ moves, ∃ z, mv.after.z = some z ∧ z ≤ 1 := by
  have hm : cornerMesh = (cornerExt.stl []).map stlTriangleToFace := by decide +kernel
  have ho : OpenClipping insideClipper := by
    refine ⟨fun t s c => ⟨_, rfl⟩, ?_⟩
    intro s c tree h hs n hn
    simp only [insideClipper, if_true, Option.some.injEq] at h
    subst h
    obtain ⟨l, hl, rfl⟩ := List.mem_map.1 hn
    simp [PolyNode.contour, hs l hl]
  obtain ⟨t, ht⟩ := C90_gcode { cornerExt with lib := insideClipper } {} [] sensible_default (fun _ _ _ => rfl) ho cornerMesh hm (by decide) (by decide)
    (by unfold Separated; decide +kernel) corner_noGap (.inr rfl)
  have hb : IsBox (vertices ((cornerExt.stl []).map stlTriangleToFace)) ⟨0, 0, 0⟩ ⟨1000, 1000, 1000⟩ := by rw [← hm]; exact corner_box
  obtain ⟨top, om, sliced, layers, -, -, -, h1, h2, h3, body, m, moves, h4, h5, h6, h7, -⟩ := C129_program _ {} [] t ht extrudes_default (by decide) (by decide) _ _ hb (by decide)
  have : top = 4 := by
    unfold layerHeight at h2 h3
    simp at h2 h3
    omega
  subst this
  refine ⟨t, ht, layers, h1, body, m, moves, h4, h5, h6, fun mv hm => ?_⟩
  obtain ⟨z, z1, z2⟩ := h7 mv hm
  refine ⟨z, z1, z2.trans (le_of_eq (by decide +kernel))⟩

end Verif
