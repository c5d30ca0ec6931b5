import Verif.Props.Builder
import Verif.Props.Units

/-! # Printed accuracy, polygons, retraction and extrusion order (C22 to C27) -/
namespace Verif
open Go Model Spec Spec.GCode

/-! ## C22 -/

theorem decimals_err (k : Nat) (x : ℚ) : |decimals k x - x| ≤ 1 / 2 / 10 ^ k := by
  unfold decimals
  have h := roundEven_abs_sub_le (x * 10 ^ k)
  have hp : (0 : ℚ) < 10 ^ k := by positivity
  rw [show (roundEven (x * 10 ^ k) : ℚ) / 10 ^ k - x = ((roundEven (x * 10 ^ k) : ℚ) - x * 10 ^ k) / 10 ^ k by field_simp, abs_div,
    abs_of_pos hp]
  exact div_le_div_of_nonneg_right h hp.le

/-- **C22**: the printed number is within 5.1 µm of the coordinate, for coordinates up to one metre. -/
theorem C22_accuracy (m : Int) (hm : |m| ≤ 10 ^ 6) : |decimals 2 (toMillimeter m) * 1000 - m| ≤ 51 / 10 := by
  have h1 := decimals_err 2 (toMillimeter m)
  have h2 := toMillimeter_err m (by omega)
  have hq : |(m : ℚ)| ≤ 10 ^ 6 := by
    have : ((|m| : Int) : ℚ) ≤ ((10 ^ 6 : Int) : ℚ) := by exact_mod_cast hm
    push_cast at this; exact this
  have h3 := abs_add_le (decimals 2 (toMillimeter m) - toMillimeter m) (toMillimeter m - m / 1000)
  rw [show decimals 2 (toMillimeter m) * 1000 - m =
    1000 * (decimals 2 (toMillimeter m) - toMillimeter m + (toMillimeter m - m / 1000)) by ring, abs_mul, abs_of_pos (by norm_num : (0 : ℚ) < 1000)]
  norm_num at h1 h2 h3 ⊢
  linarith

/-- **C22**: together with C18 this bounds the position error of the machine for every history. -/
theorem C22_machine {crossing : List LayerPart → Path → Bool × Bool} {fd : Micrometer} {em : Int} {cs : List Call} {g : Builder}
    (hc : ∀ c ∈ cs, Call.Harmless c) (hok : (newBuilder fd em).exec crossing cs = .ok g) {r : Request}
    (hr : (plan crossing (flowOf fd em) cs).requests.getLast? = some r)
    (hx : |r.target.x| ≤ 10 ^ 6) (hy : |r.target.y| ≤ 10 ^ 6) (hz : |r.target.z| ≤ 10 ^ 6) :
    ∃ m moves x y z, run g.buf = some (m, moves) ∧ m.x = some x ∧ m.y = some y ∧ m.z = some z ∧
      |x * 1000 - r.target.x| ≤ 51 / 10 ∧ |y * 1000 - r.target.y| ≤ 51 / 10 ∧ |z * 1000 - r.target.z| ≤ 51 / 10 := by
  obtain ⟨m, moves, h1, h2, h3, h4⟩ := C18_position hc hok hr
  exact ⟨m, moves, _, _, _, h1, h2, h3, h4, C22_accuracy _ hx, C22_accuracy _ hy, C22_accuracy _ hz⟩

/-- The bound is nearly sharp: 0.005 mm are printed as 0.00. -/
example : decimals 2 (toMillimeter 5) = 0 ∧ |(5 : Int)| ≤ 10 ^ 6 := by
  constructor
  · decide +kernel
  · norm_num

/-! ## C23 -/

section
variable {crossing : List LayerPart → Path → Bool × Bool} {flow : Int → Int → ℚ}

theorem plan_append (cs : List Call) (c : Call) : plan crossing flow (cs ++ [c]) = (plan crossing flow cs).call crossing flow c := by
  simp [plan]

/-- **C23**: an empty path changes nothing. -/
theorem C23_empty (g : Builder) (layer : Option (List LayerPart)) (z : Micrometer) (isOpen : Bool) :
    g.addPolygon crossing layer [] z isOpen = .ok g := by
  simp [Builder.addPolygon]

/-- **C23**: the requests for a path whose travel crosses no perimeter: a travel to the first point, a line to each further point, and for
closed paths a line back. That the builder makes these requests is `C18_refines`. -/
theorem C23_draw (cs : List Call) (layer : Option (List LayerPart)) (path : Path) (z : Int) (isOpen : Bool) {p0 : Pt} {rest : Path}
    (hd : douglasPeuckerM path (-1) = p0 :: rest) (hn : (plan crossing flow cs).retracts crossing layer p0 = false) :
    (plan crossing flow (cs ++ [.polygon layer path z isOpen])).requests =
      (plan crossing flow cs).requests ++
      ((plan crossing flow cs).settings.move ⟨p0.x, p0.y, z⟩ 0 :: (plan crossing flow cs).settings.lines z p0 rest) ++
      (if isOpen then [] else [(plan crossing flow cs).settings.closing z p0 (rest.getLastD p0)]) := by
  rw [plan_append]
  simp only [Plan.call, Plan.polygon, hd, hn, Settings.draw, Settings.approach]
  simp

/-- **C23**: the lines go through all points in order at height `z`; the filament of each is the float32 product of its length and the
filament per millimetre. -/
theorem C23_lines (s : Settings) (z : Int) (p0 : Pt) (rest : Path) :
    (s.lines z p0 rest).map Request.target = rest.map (fun p => (⟨p.x, p.y, z⟩ : Vec3)) ∧
    (s.lines z p0 rest).map Request.extrusion = ((p0 :: rest).zip rest).map (fun ab => r32 ((ab.2.sub ab.1).sizeMM * s.perMM)) := by
  induction rest generalizing p0 with
  | nil => simp [Settings.lines]
  | cons b rest ih => simp [Settings.lines, Settings.move, Settings.filament, ih b]

/-- **C23**: without retraction settings or without a layer no crossing is assumed. -/
theorem C23_no_retract (p : Plan) (layer : Option (List LayerPart)) (p0 : Pt)
    (h : layer = none ∨ p.settings.retractionSpeed = 0 ∨ p.settings.retractionAmount = 0) : p.retracts crossing layer p0 = false := by
  unfold Plan.retracts
  cases layer with
  | none => rfl
  | some parts =>
    have : ¬ (p.settings.retractionSpeed ≠ 0 ∧ p.settings.retractionAmount ≠ 0) := by
      rintro ⟨h1, h2⟩; rcases h with h | h | h
      · exact absurd h (by simp)
      · exact h1 h
      · exact h2 h
    simp [decide_eq_false this]

/-- **C23**: adding a polygon never fails if the crossing test of the clipper succeeds. -/
theorem C23_total (g : Builder) (layer : Option (List LayerPart)) (path : Path) (z : Micrometer) (isOpen : Bool)
    (hc : ∀ parts mv, (crossing parts mv).2 = true) : ∃ g', g.addPolygon crossing layer path z isOpen = .ok g' := by
  unfold Builder.addPolygon
  split
  · exact ⟨g, rfl⟩
  · rename_i hl
    have hne : path ≠ [] := by rintro rfl; exact hl rfl
    have hh := C05_int64_ends path (-1)
    cases hd : douglasPeuckerM path (-1) with
    | nil =>
      rw [hd] at hh
      have : path.head? = none := by simpa using hh.1.symm
      exact absurd (List.head?_eq_none_iff.1 this) hne
    | cons p0 rest =>
      have : ∃ c, g.crossingTest crossing layer p0 = .ok c := by
        unfold Builder.crossingTest
        cases layer with
        | none => exact ⟨_, rfl⟩
        | some parts =>
          simp only
          split
          · simp [hc]
          · exact ⟨_, rfl⟩
      obtain ⟨c, hc⟩ := this
      simp only [hc, bind, Except.bind, pure, Except.pure]
      cases isOpen <;> exact ⟨_, rfl⟩

end

/-! ## C24 -/

/-- **C24**: without crossing there is no retraction, only the travel. -/
theorem C24_no_crossing (s : Settings) (last : Vec3) (p0 : Pt) (z : Int) : s.approach false last p0 z = [s.move ⟨p0.x, p0.y, z⟩ 0] := rfl

/-- **C24**: when crossing, the filament is pulled back at the last position before anything else, pushed back by the same amount at the
first point of the polygon at height `z` after everything else, and nothing is extruded between; with a hop the head is lifted first and
travels at the lifted height. -/
theorem C24_crossing (s : Settings) (last : Vec3) (p0 : Pt) (z : Int) :
    ∃ mid, s.approach true last p0 z =
        ⟨last, -s.retractionAmount, s.retractionSpeed⟩ :: mid ++ [⟨⟨p0.x, p0.y, z⟩, s.retractionAmount, s.retractionSpeed⟩] ∧
      (∀ r ∈ mid, r.extrusion = 0) ∧
      mid.getLast?.map Request.target = some ⟨p0.x, p0.y, z⟩ ∧
      (0 < s.zHop → ∃ up, 0 ≤ up ∧ up = toMicrometer s.zHop ∧
        mid.map Request.target = [⟨last.x, last.y, z + up⟩, ⟨p0.x, p0.y, z + up⟩, ⟨p0.x, p0.y, z⟩]) ∧
      (¬ 0 < s.zHop → mid.map Request.target = [⟨p0.x, p0.y, z⟩]) := by
  by_cases h : 0 < s.zHop
  · refine ⟨[s.move ⟨last.x, last.y, z + toMicrometer s.zHop⟩ 0, s.move ⟨p0.x, p0.y, z + toMicrometer s.zHop⟩ 0, s.move ⟨p0.x, p0.y, z⟩ 0],
      ?_, ?_, ?_, ?_, ?_⟩
    · simp [Settings.approach, h]
    · simp [Settings.move]
    · simp [Settings.move]
    · intro _
      refine ⟨toMicrometer s.zHop, ?_, rfl, by simp [Settings.move]⟩
      unfold toMicrometer
      apply int_le_roundEven
      have : (0 : ℚ) ≤ s.zHop * 1000 := by positivity
      simpa using r32_nonneg this
    · exact fun h' => absurd h h'
  · refine ⟨[s.move ⟨p0.x, p0.y, z⟩ 0], ?_, ?_, ?_, fun h' => absurd h' h, ?_⟩
    · simp [Settings.approach, h]
    · simp [Settings.move]
    · simp [Settings.move]
    · simp [Settings.move]

/-- **C24**: the retractions of a polygon add up to 0 and the rest of the polygon is the same as without crossing. -/
theorem C24_balanced (s : Settings) (c : Bool) (last : Vec3) (p0 : Pt) (rest : Path) (z : Int) (isOpen : Bool) :
    ((s.approach c last p0 z).map Request.extrusion).sum = 0 ∧
    ∃ tail, s.draw c last p0 rest z isOpen = s.approach c last p0 z ++ tail ∧ s.draw false last p0 rest z isOpen = s.move ⟨p0.x, p0.y, z⟩ 0 :: tail := by
  constructor
  · unfold Settings.approach
    cases c <;> by_cases h : 0 < s.zHop <;> simp [h, Settings.move]
  · exact ⟨s.lines z p0 rest ++ (if isOpen then [] else [s.closing z p0 (rest.getLastD p0)]), by simp [Settings.draw],
      by simp [Settings.draw, Settings.approach]⟩

/-- Non-vacuity for C23 and C24: a path, both answers of the crossing test. -/
example : douglasPeuckerM [⟨0, 0⟩, ⟨1000, 1⟩, ⟨2000, 0⟩] (-1) = [⟨0, 0⟩, ⟨2000, 0⟩] ∧
    Plan.retracts ⟨{ retractionSpeed := 30, retractionAmount := 2 }, []⟩ (fun _ _ => (true, true)) (some []) ⟨0, 0⟩ = true ∧
    Plan.retracts ⟨{ retractionSpeed := 30, retractionAmount := 2 }, []⟩ (fun _ _ => (false, true)) (some []) ⟨0, 0⟩ = false := by
  decide +kernel

/-! ## C25 -/

theorem decimals_mono (k : Nat) {x y : ℚ} (h : x ≤ y) : decimals k x ≤ decimals k y := by
  unfold decimals
  have hp : (0 : ℚ) < 10 ^ k := by positivity
  apply div_le_div_of_nonneg_right _ hp.le
  exact_mod_cast roundEven_mono (mul_le_mul_of_nonneg_right h hp.le)

theorem sum32_step (rs : List Request) (r : Request) (h : 0 ≤ r.extrusion) : sum32 rs ≤ sum32 (rs ++ [r]) := by
  rw [sum32_append]
  have h1 : sum32 rs ≤ sum32 rs + r.extrusion := by linarith
  have := r32_mono h1
  rwa [r32_sum32] at this

theorem sum32_append_list (rs qs : List Request) (h : ∀ q ∈ qs, 0 ≤ q.extrusion) : sum32 rs ≤ sum32 (rs ++ qs) := by
  induction qs generalizing rs with
  | nil => simp
  | cons q qs ih =>
    have h1 := sum32_step rs q (h q (by simp))
    have h2 := ih (rs ++ [q]) (fun x hx => h x (List.mem_cons_of_mem _ hx))
    rw [List.append_assoc, List.singleton_append] at h2
    exact h1.trans h2

/-- **C25**: between two moves of the text with filament, the E axis does not decrease if no retraction was requested in between. -/
theorem C25_monotone {crossing : List LayerPart → Path → Bool × Bool} {fd : Micrometer} {em : Int} {cs : List Call} {g : Builder}
    (hc : ∀ c ∈ cs, Call.Harmless c) (hok : (newBuilder fd em).exec crossing cs = .ok g) :
    ∃ m moves, run g.buf = some (m, moves) ∧
      ∀ (j k : Nat) (a b : Move) (x y : ℚ), j ≤ k → moves[j]? = some a → moves[k]? = some b → a.after.e = some x → b.after.e = some y →
        (∀ (i : Nat) (r : Request), j < i → i ≤ k → (emitted (plan crossing (flowOf fd em) cs).requests)[i]? = some r → 0 ≤ r.extrusion) → x ≤ y := by
  obtain ⟨m, moves, h1, h2, h3⟩ := C18_moves hc hok
  refine ⟨m, moves, h1, fun j k a b x y hjk ha hb hx hy hpos => ?_⟩
  set em' := emitted (plan crossing (flowOf fd em) cs).requests with hem
  have hjl : j < em'.length := by rw [← h2]; exact (List.getElem?_eq_some_iff.1 ha).1
  have hkl : k < em'.length := by rw [← h2]; exact (List.getElem?_eq_some_iff.1 hb).1
  have ra := h3 j em'[j] a (by simp) ha
  have rb := h3 k em'[k] b (by simp) hb
  have ta : em'.take j ++ [em'[j]] = em'.take (j + 1) := by simp
  have tb : em'.take k ++ [em'[k]] = em'.take (k + 1) := by simp
  rw [ra] at hx
  rw [rb] at hy
  simp only [moveFor, ta, tb] at hx hy
  split at hx
  · exact absurd hx (by simp)
  · split at hy
    · exact absurd hy (by simp)
    · rw [← Option.some.inj hx, ← Option.some.inj hy]
      apply decimals_mono
      have e : em'.take (k + 1) = em'.take (j + 1) ++ (em'.take (k + 1)).drop (j + 1) := by
        conv_lhs => rw [← List.take_append_drop (j + 1) (em'.take (k + 1))]
        rw [List.take_take, min_eq_left (by omega)]
      rw [e]
      apply sum32_append_list
      intro q hq
      obtain ⟨i, hi, rfl⟩ := List.mem_iff_getElem.1 hq
      simp only [List.length_drop, List.length_take] at hi
      refine hpos (j + 1 + i) _ (by omega) (by omega) ?_
      simp only [List.getElem_drop, List.getElem_take]
      exact List.getElem?_eq_getElem _

/-- **C25**: with non-negative filament per millimetre only the retraction before a travel asks for less filament. -/
theorem C25_only_retractions (s : Settings) (c : Bool) (last : Vec3) (p0 : Pt) (rest : Path) (z : Int) (isOpen : Bool) (hf : 0 ≤ s.perMM)
    (ha : 0 ≤ s.retractionAmount) : ∀ r ∈ s.draw c last p0 rest z isOpen, r.extrusion < 0 → r = ⟨last, -s.retractionAmount, s.retractionSpeed⟩ := by
  have hsz : ∀ p : Pt, 0 ≤ p.sizeMM := by
    intro p
    unfold Pt.sizeMM
    apply r32_nonneg
    rw [fsqrt64_eq]
    exact rnd_nonneg 53 _ (Real.sqrt_nonneg _)
  have hfil : ∀ a b, 0 ≤ s.filament a b := fun a b => r32_nonneg (mul_nonneg (hsz _) hf)
  have hl : ∀ (rest : Path) (p : Pt), ∀ r ∈ s.lines z p rest, 0 ≤ r.extrusion := by
    intro rest
    induction rest with
    | nil => intro p r hr; simp [Settings.lines] at hr
    | cons b rest ih =>
      intro p r hr
      rcases List.mem_cons.1 hr with hr | hr
      · rw [hr]; exact hfil p b
      · exact ih b r hr
  intro r hr hneg
  unfold Settings.draw at hr
  rcases List.mem_append.1 hr with hr | hr
  · rcases List.mem_append.1 hr with hr | hr
    · cases c with
      | false => simp only [C24_no_crossing, List.mem_singleton] at hr; rw [hr] at hneg; exact absurd hneg (lt_irrefl _)
      | true =>
        obtain ⟨mid, h1, h2, _⟩ := C24_crossing s last p0 z
        rw [h1] at hr
        rcases List.mem_append.1 hr with hr | hr
        · rcases List.mem_cons.1 hr with hr | hr
          · exact hr
          · rw [h2 r hr] at hneg; exact absurd hneg (lt_irrefl _)
        · rw [List.mem_singleton.1 hr] at hneg; exact absurd hneg (not_lt.2 ha)
    · exact absurd hneg (not_lt.2 (hl rest p0 r hr))
  · split at hr
    · simp at hr
    · rw [List.mem_singleton.1 hr] at hneg; exact absurd hneg (not_lt.2 (hfil _ _))

/-- Filament per millimetre is not negative for non-negative sizes. -/
theorem flowOf_nonneg (fd : Micrometer) (em t w : Int) (hem : 0 ≤ em) (ht : 0 ≤ t) (hw : 0 ≤ w) : 0 ≤ flowOf fd em t w := by
  have hmm : ∀ m : Int, 0 ≤ m → 0 ≤ toMillimeter m := by
    intro m hm
    unfold toMillimeter
    have h0 : (0 : ℚ) ≤ m := by exact_mod_cast hm
    exact r32_nonneg (rnd_nonneg 53 _ (div_nonneg (rnd_nonneg 53 _ h0) (by norm_num)))
  have hsq : ∀ h : ℚ, 0 ≤ r32 (r32 (pi32 * h) * h) := by
    intro h
    apply r32_nonneg
    rcases le_total 0 h with hh | hh
    · exact mul_nonneg (r32_nonneg (mul_nonneg (by norm_num [pi32]) hh)) hh
    · have : r32 (pi32 * h) ≤ 0 := by
        have h1 : pi32 * h ≤ 0 := mul_nonpos_of_nonneg_of_nonpos (by norm_num [pi32]) hh
        have := r32_mono h1
        rwa [r32_zero] at this
      exact mul_nonneg_of_nonpos_of_nonpos this hh
  unfold flowOf Builder.setExtrusion newBuilder
  simp only
  apply r32_nonneg
  have h0 : (0 : ℚ) ≤ em := by exact_mod_cast hem
  exact mul_nonneg (r32_nonneg (div_nonneg (r32_nonneg (mul_nonneg (hmm t ht) (hmm w hw))) (hsq _)))
    (r32_nonneg (div_nonneg (r32_nonneg h0) (by norm_num)))

/-! ## C26 -/

/-- All positions asked for by a call are at height `h` or above. -/
def Call.AtLeast (h : Int) : Call → Prop
  | .moveSpeed p _ _ => h ≤ p.z
  | .move p _ => h ≤ p.z
  | .polygon _ _ z _ => h ≤ z
  | _ => True

theorem lines_z {s : Settings} {z : Int} {rest : Path} {p : Pt} : ∀ r ∈ s.lines z p rest, r.target.z = z := by
  induction rest generalizing p with
  | nil => intro r hr; simp [Settings.lines] at hr
  | cons b rest ih =>
    intro r hr
    rcases List.mem_cons.1 hr with hr | hr
    · rw [hr]; rfl
    · exact ih r hr

theorem toMicrometer_nonneg {v : ℚ} (h : 0 ≤ v) : 0 ≤ toMicrometer v := by
  unfold toMicrometer
  apply int_le_roundEven
  have : (0 : ℚ) ≤ v * 1000 := by positivity
  simpa using r32_nonneg this

theorem draw_z {s : Settings} {c : Bool} {last : Vec3} {p0 : Pt} {rest : Path} {z : Int} {isOpen : Bool} {h : Int} (hz : h ≤ z)
    (hl : c = true → h ≤ last.z) : ∀ r ∈ s.draw c last p0 rest z isOpen, h ≤ r.target.z := by
  intro r hr
  unfold Settings.draw at hr
  rcases List.mem_append.1 hr with hr | hr
  · rcases List.mem_append.1 hr with hr | hr
    · unfold Settings.approach at hr
      cases c with
      | false => simp only [Bool.false_eq_true, if_false, List.mem_singleton] at hr; rw [hr]; exact hz
      | true =>
        have hl := hl rfl
        by_cases hh : 0 < s.zHop
        · have hn := toMicrometer_nonneg hh.le
          simp only [if_true, hh, List.mem_cons, List.not_mem_nil, or_false] at hr
          rcases hr with rfl | rfl | rfl | rfl | rfl <;> simp only [Settings.move] <;> first | exact hl | exact hz | omega
        · simp only [if_true, hh, if_false, List.mem_cons, List.not_mem_nil, or_false] at hr
          rcases hr with rfl | rfl | rfl <;> simp only [Settings.move] <;> first | exact hl | exact hz
    · rw [lines_z r hr]; exact hz
  · split at hr
    · simp at hr
    · rw [List.mem_singleton.1 hr]; exact hz

theorem toMillimeter_mono {a b : Int} (h : a ≤ b) : toMillimeter a ≤ toMillimeter b := by
  unfold toMillimeter
  have h1 : (a : ℚ) ≤ b := by exact_mod_cast h
  have m64 : ∀ {x y : ℚ}, x ≤ y → r64 x ≤ r64 y := fun hxy => rnd_mono 53 (by norm_num) _ hxy
  exact r32_mono (m64 (div_le_div_of_nonneg_right (m64 h1) (by norm_num)))

/-- **C26** is violated in general: a print whose first polygon is drawn with the crossing test may start with a retraction at
X0 Y0 Z0, although all heights asked for are 0.2 mm. -/
theorem C26_violation : ((newBuilder 1750 100).exec (fun _ _ => (true, true))
    [.setExtrusion 200 400, .setMoveSpeed 150, .setExtrudeSpeed 60, .setRetractionSpeed 30, .setRetractionAmount 2,
     .polygon (some []) [⟨1000, 1000⟩, ⟨2000, 1000⟩] 200 true]).toOption.map Builder.buf =
    some ("G1 X0.00 Y0.00 Z0.00 F1800 E-2.0000\nG0 X1.00 Y1.00 Z0.20 F9000\nG1 F1800 E0.0000\nG1 X2.00 F3600 E0.0333\n").toList := by
  decide +kernel

/-! ## C27 -/

/-- **C27** is violated for percent signs: the text of a display message is changed, and the newline after it is lost, so that the next
move is not a line of its own any more and is not executed. -/
theorem C27_violation :
    let g := ((newBuilder 1750 100).addCommand "M117 50%".toList).addMove ⟨1000, 1000, 200⟩ 0
    g.buf = "M117 50%!\n(MISSING)G0 X1.00 Y1.00 Z0.20\n".toList ∧ run g.buf = some ({}, []) := by
  decide +kernel

/-- **C99** In the G-code such a rectangle is therefore the same as its short side: exactly the same lines are written as for the
polygon of these two points. -/
theorem C99_written (crossing : List LayerPart → Path → Bool × Bool) (g : Builder) (layer : Option (List LayerPart)) (z : Int) (isOpen : Bool)
    (x y w h : Int) (hw1 : 55109 ≤ w) (hw2 : w ≤ 65535) (hh1 : 1 ≤ h) (hh2 : h ≤ 55108) :
    Builder.addPolygon crossing g layer [⟨x, y⟩, ⟨x + w, y⟩, ⟨x + w, y + h⟩, ⟨x, y + h⟩] z isOpen =
      Builder.addPolygon crossing g layer [⟨x, y⟩, ⟨x, y + h⟩] z isOpen := by
  unfold Builder.addPolygon
  rw [C99_rectangle x y w h hw1 hw2 hh1 hh2, C05_int64_short [⟨x, y⟩, ⟨x, y + h⟩] (-1) (by simp)]
  rfl

end Verif
