import Verif.Props.Speeds
import Verif.Props.Drift
import Verif.Props.Filled

/-! # C124: every printed line gets its filament -/
namespace Verif
open Verif.Go Verif.Model Verif.Spec Verif.Spec.GCode

theorem r32_pow (K : Nat) : r32 ((2 : ℚ) ^ K) = 2 ^ K :=
  rnd_of_repr (K := ℚ) 24 (by norm_num) (-149) _ ⟨1, K, by norm_num, by omega, by simp; rfl⟩

/-- One step of the running total, as far as it can be seen in the text: the difference of two E words is the requested amount, up to the four
decimals of the E words and the precision of the total. -/
theorem total_step {total e : ℚ} {K : Nat} (hK : |decimals 4 (r32 (total + e))| ≤ 2 ^ K) :
    |decimals 4 (r32 (total + e)) - decimals 4 total - e| ≤ 1 / 10 ^ 4 + 2 ^ K / 2 ^ 24 := by
  have d1 := decimals_err 4 total
  have d2 := decimals_err 4 (r32 (total + e))
  have hlt : |r32 (total + e)| < 2 ^ (K + 1) := by
    have h1 : (1 : ℚ) ≤ 2 ^ K := one_le_pow₀ (by norm_num)
    rw [pow_succ]
    rw [abs_le] at d2 hK
    rw [abs_lt]
    constructor <;> linarith
  have hx : |total + e| < 2 ^ ((K + 1 : Nat) : Int) := by
    rw [zpow_natCast]
    by_contra hcon
    push Not at hcon
    have h2 := r32_pow (K + 1)
    rcases le_abs.1 hcon with h | h
    · have := r32_mono h
      rw [h2] at this
      exact absurd (this.trans (le_abs_self _)) (not_le.2 hlt)
    · have := r32_mono h
      rw [h2, r32_neg] at this
      exact absurd (this.trans (neg_le_abs _)) (not_le.2 hlt)
  have h3 := r32_err_below (k := ((K + 1 : Nat) : Int)) (by omega) hx
  have e3 : (2 : ℚ) ^ (((K + 1 : Nat) : Int) - 25) = 2 ^ K / 2 ^ 24 := by
    rw [zpow_sub₀ (by norm_num), zpow_natCast, pow_succ]
    norm_num
    ring
  rw [e3] at h3
  rw [abs_le] at *
  constructor <;> linarith

/-- **C124** The filament for each move of a print: a move without E word uses none; a move which stands still retracts the configured length or
gives it back; each other one is a line of a path of a layer, and the volume of the filament it uses is the volume of that line (with the thickness
of its layer), up to 3 ppm, the four decimals of the E words and the float32 precision of the total, `2^-24` of the next power of two. -/
theorem C124_filament {crossing : List LayerPart → Path → Bool × Bool} {lib : ClipperLib} {o : Options} {pt : Patterns} {layers : List Layer}
    {g0 : Builder} {t : Str} (ho : Feeds o) (hne : layers ≠ [])
    (h : (generateScripts crossing o (standardRenderers lib o pt) layers g0).2 = (t, none)) :
    ∃ body m moves, t = startText o ++ body ++ endText o ∧ run body = some (m, moves) ∧
      ∀ (k : Nat) before line, moves[k]? = some before → moves[k + 1]? = some line →
        let used := line.after.filament - before.after.filament
        (line.hasE = false → used = 0) ∧
        (line.hasE = true → ∀ K : Nat, |line.after.filament| ≤ 2 ^ K →
          (before.after.x = line.after.x ∧ before.after.y = line.after.y ∧ before.after.z = line.after.z ∧
            (|used + o.filament.retractionLength| ≤ 1 / 10 ^ 4 + 2 ^ K / 2 ^ 24 ∨ |used - o.filament.retractionLength| ≤ 1 / 10 ^ 4 + 2 ^ K / 2 ^ 24)) ∨
          ∃ n l isOpen path speed a b, layers[n]? = some l ∧ PrintedWith lib o pt n l isOpen path speed ∧
            (a, b) ∈ pathLines isOpen (douglasPeuckerM path (-1)) ∧ At before.after a (layerHeight o n) ∧ At line.after b (layerHeight o n) ∧
            (|b.x - a.x| ≤ 2 ^ 53 → |b.y - a.y| ≤ 2 ^ 53 →
              let volume := lineVolume a b (if n = 0 then o.print.initialLayerThickness else o.print.layerThickness) o.printer.extrusionWidth
                o.filament.extrusionMultiplier
              |(used : ℝ) * crossSection o.filament.filamentDiameter - volume| ≤
                3 / 10 ^ 6 * volume + (1 / 10 ^ 4 + 2 ^ K / 2 ^ 24) * crossSection o.filament.filamentDiameter)) := by
  obtain ⟨g, ht, hb⟩ := print_body hne h
  obtain ⟨-, m2⟩ := moving_moves (leads_print (crossing := crossing) (flow := flowOf o.filament.filamentDiameter o.filament.extrusionMultiplier)
    (lib := lib) (o := o) (pt := pt) (layers := layers))
  refine ⟨g.buf, _, _, ht, C18_refines harmless_print hb, fun k before line hbe hl => ?_⟩
  obtain ⟨v, r, total, h1, h2, h3, h4, -, h5, h6, h7⟩ := m2 k before line hbe hl
  unfold Spec.GCode.Machine.filament
  rw [h6, h7]
  refine ⟨fun he => ?_, fun he K hK => ?_⟩
  · rw [he] at h4
    have hr : r.extrusion = 0 := by simpa using h4.symm
    rw [hr, add_zero, h5, sub_self]
  · rw [he] at h4
    have hr : r.extrusion ≠ 0 := by simpa using h4.symm
    have hstep := total_step hK
    generalize decimals 4 (r32 (total + r.extrusion)) - decimals 4 total = used at *
    rcases h1 with ⟨h1, -⟩ | ⟨-, h1, -, h8⟩ | ⟨-, n, l, isOpen, path, speed, a, b, e1, e2, e3, e4, e5, -, e7⟩
    · exact absurd h1 hr
    · have h1 : v = r.target := h1
      subst h1
      refine .inl ⟨h2.1.trans h3.1.symm, h2.2.1.trans h3.2.1.symm, h2.2.2.trans h3.2.2.symm, ?_⟩
      rcases h8 with h8 | h8
      · rw [h8, sub_neg_eq_add] at hstep
        exact .inl hstep
      · rw [h8] at hstep
        exact .inr hstep
    · obtain rfl := Option.some.inj e4
      rw [e5] at h3
      refine .inr ⟨n, l, isOpen, path, speed, a, b, e1, e2, e3, h2, h3, fun hx hy => ?_⟩
      have hth : 1 ≤ thicknessOf o n ∧ thicknessOf o n ≤ 2 ^ 53 := by
        unfold thicknessOf
        split
        exacts [ho.first, ho.thickness]
      have hab : a ≠ b := by
        rintro rfl
        apply hr
        rw [e7]
        exact C28_zero ⟨0, 0, 0, 0, 0, 0, _⟩ a
      obtain ⟨s, hs⟩ : ∃ s : Settings, s.perMM = flowOf o.filament.filamentDiameter o.filament.extrusionMultiplier (thicknessOf o n)
          o.printer.extrusionWidth := ⟨{ perMM := _ }, rfl⟩
      have hv := C28_volume ho.diameter ho.multiplier hth ho.width s hs a b hab hx hy
      have hf : s.filament a b = r.extrusion := by rw [e7, ← hs, Settings.filament]
      rw [hf] at hv
      have hc : 0 < crossSection o.filament.filamentDiameter := by
        unfold crossSection
        have h1 : (0 : ℝ) < o.filament.filamentDiameter := by exact_mod_cast ho.diameter.1
        have := Real.pi_pos
        positivity
      have hs' : |(used : ℝ) - r.extrusion| ≤ 1 / 10 ^ 4 + 2 ^ K / 2 ^ 24 := by
        have := (Rat.cast_le (K := ℝ)).2 hstep
        push_cast at this
        exact this
      have hs2 : |(used : ℝ) * crossSection o.filament.filamentDiameter - r.extrusion * crossSection o.filament.filamentDiameter| ≤
          (1 / 10 ^ 4 + 2 ^ K / 2 ^ 24) * crossSection o.filament.filamentDiameter := by
        rw [← sub_mul, abs_mul, abs_of_pos hc]
        exact mul_le_mul_of_nonneg_right hs' hc.le
      intro volume
      have hv : |(r.extrusion : ℝ) * crossSection o.filament.filamentDiameter - volume| ≤ 3 / 10 ^ 6 * volume := hv
      rw [abs_le] at *
      constructor <;> linarith

/-- **C124** The same for the text the whole program writes. -/
theorem C124_program (ext : Externals) (o : Options) (content t : Str) (h : gcodeOf ext o content = .ok t) (ho : Feeds o) :
    ∃ om sliced layers pt, optimize o ((ext.stl content).map stlTriangleToFace) = .ok om ∧ slice ext.lib o om = .ok sliced ∧
      (standardModifiers ext.lib ext.tan o).foldlM (fun ls m => m ls) sliced = .ok layers ∧ initPatterns ext.lib ext.trig o om = .ok pt ∧
      (sliced ≠ [] → ∃ body m moves, t = startText o ++ body ++ endText o ∧ run body = some (m, moves) ∧
      ∀ (k : Nat) before line, moves[k]? = some before → moves[k + 1]? = some line →
        let used := line.after.filament - before.after.filament
        (line.hasE = false → used = 0) ∧
        (line.hasE = true → ∀ K : Nat, |line.after.filament| ≤ 2 ^ K →
          (before.after.x = line.after.x ∧ before.after.y = line.after.y ∧ before.after.z = line.after.z ∧
            (|used + o.filament.retractionLength| ≤ 1 / 10 ^ 4 + 2 ^ K / 2 ^ 24 ∨ |used - o.filament.retractionLength| ≤ 1 / 10 ^ 4 + 2 ^ K / 2 ^ 24)) ∨
          ∃ n l isOpen path speed a b, layers[n]? = some l ∧ PrintedWith ext.lib o pt n l isOpen path speed ∧
            (a, b) ∈ pathLines isOpen (douglasPeuckerM path (-1)) ∧ At before.after a (layerHeight o n) ∧ At line.after b (layerHeight o n) ∧
            (|b.x - a.x| ≤ 2 ^ 53 → |b.y - a.y| ≤ 2 ^ 53 →
              let volume := lineVolume a b (if n = 0 then o.print.initialLayerThickness else o.print.layerThickness) o.printer.extrusionWidth
                o.filament.extrusionMultiplier
              |(used : ℝ) * crossSection o.filament.filamentDiameter - volume| ≤
                3 / 10 ^ 6 * volume + (1 / 10 ^ 4 + 2 ^ K / 2 ^ 24) * crossSection o.filament.filamentDiameter))) := by
  obtain ⟨om, sliced, layers, pt, g0, e1, e2, e3, h4, h5⟩ := gcodeOf_steps h
  refine ⟨om, sliced, layers, pt, e1, e2, e3, h4, fun hne => ?_⟩
  have hparts := C61_parts ext.lib ext.tan o _ (fun m hm => hm) sliced layers e3
  exact C124_filament ho (by
    rintro rfl
    exact hne (by simpa using hparts.symm)) h5

theorem feeds_default : Feeds {} := ⟨by decide, by decide, by decide, by decide, by decide⟩

/-- Non-vacuity: a side of the square of 10 mm is printed, and with a total of at most 4 mm it gets 0.8 mm³ up to 0.003 mm³ (its ends are
known up to 0.01 mm). -/
example : ∃ t body m moves, t = startText {} ++ body ++ endText {} ∧ run body = some (m, moves) ∧
    ∃ (k : Nat) (before line : Move), moves[k]? = some before ∧ moves[k + 1]? = some line ∧ At before.after ⟨10000, 0⟩ 200 ∧
      At line.after ⟨10000, 10000⟩ 200 ∧ line.hasE = true ∧ (|line.after.filament| ≤ 2 ^ 2 →
        |((line.after.filament - before.after.filament : ℚ) : ℝ) * crossSection 1750 - 0.8| ≤ 0.003) := by
  have hs : (generateScripts (fun _ _ => (false, true)) {} (standardRenderers wallLib {} ⟨none, none, none, none, none⟩) [squareLayer] (newBuilder 0 0)).2.2 =
      none := by decide +kernel
  have hs' : (generateScripts (fun _ _ => (false, true)) {} (standardRenderers wallLib {} ⟨none, none, none, none, none⟩) [squareLayer] (newBuilder 0 0)).2 =
      ((generateScripts (fun _ _ => (false, true)) {} (standardRenderers wallLib {} ⟨none, none, none, none, none⟩) [squareLayer] (newBuilder 0 0)).2.1, none) :=
    Prod.ext rfl hs
  obtain ⟨body, m, moves, h1, h2, h3⟩ := C111_printed extrudes_default (by simp) hs'
  obtain ⟨body', m', moves', g1, g2, g3⟩ := C124_filament feeds_default (by simp) hs'
  have hbody : body = body' := by
    have := h1.symm.trans g1
    rw [List.append_assoc, List.append_assoc] at this
    exact List.append_cancel_right (List.append_cancel_left this)
  subst hbody
  rw [g2] at h2
  obtain ⟨rfl, rfl⟩ := Prod.ext_iff.1 (Option.some.inj h2)
  have hw' : squareLayer.perimeters = .ok [[[⟨[⟨0, 0⟩, ⟨10000, 0⟩, ⟨10000, 10000⟩, ⟨0, 10000⟩], []⟩]]] := rfl
  obtain ⟨⟨walls, hw, hp⟩, -⟩ := h3 0 squareLayer rfl
  rw [hw'] at hw
  have hw := Except.ok.inj hw
  subst hw
  obtain ⟨k, before, line, p1, p2, p3, -, p5, p6⟩ := hp _ (List.mem_singleton.2 rfl) [⟨0, 0⟩, ⟨10000, 0⟩, ⟨10000, 10000⟩, ⟨0, 10000⟩] (by simp)
    ⟨10000, 0⟩ ⟨10000, 10000⟩ (by decide +kernel) (by decide) (by decide) (by decide)
  refine ⟨_, body, m', moves', g1, g2, k, before, line, p1, p2, p3, p6, p5, fun hK => ?_⟩
  have hmono : ∀ {i j : Int}, i ≤ j → decimals 2 (toMillimeter i) ≤ decimals 2 (toMillimeter j) := fun h => decimals_mono 2 (toMillimeter_mono h)
  have hnear : ∀ {i c : Int} {lo hi : Int}, some (decimals 2 (toMillimeter i)) = some (decimals 2 (toMillimeter c)) →
      decimals 2 (toMillimeter lo) < decimals 2 (toMillimeter c) → decimals 2 (toMillimeter c) < decimals 2 (toMillimeter hi) → lo < i ∧ i < hi := by
    intro i c lo hi h h1 h2
    have h := Option.some.inj h
    constructor
    · by_contra hc
      exact absurd (hmono (not_lt.1 hc)) (not_le.2 (h ▸ h1))
    · by_contra hc
      exact absurd (hmono (not_lt.1 hc)) (not_le.2 (h ▸ h2))
  rcases (g3 k before line p1 p2).2 p5 2 hK with ⟨-, hy, -⟩ | ⟨n, l, isOpen, path, speed, a, b, e1, -, -, e4, e5, e6⟩
  · have := (p3.2.1.symm.trans hy).trans p6.2.1
    exact absurd this (by decide +kernel)
  · cases n with
    | succ n => simp at e1
    | zero =>
      have ax := hnear (lo := 9990) (hi := 10010) (e4.1.symm.trans p3.1) (by decide +kernel) (by decide +kernel)
      have ay := hnear (lo := -10) (hi := 10) (e4.2.1.symm.trans p3.2.1) (by decide +kernel) (by decide +kernel)
      have bx := hnear (lo := 9990) (hi := 10010) (e5.1.symm.trans p6.1) (by decide +kernel) (by decide +kernel)
      have by' := hnear (lo := 9990) (hi := 10010) (e5.2.1.symm.trans p6.2.1) (by decide +kernel) (by decide +kernel)
      have e := e6 (by rw [abs_le]; constructor <;> omega) (by rw [abs_le]; constructor <;> omega)
      have hlen : 9980 ≤ euclid2 (b.x - a.x) (b.y - a.y) ∧ euclid2 (b.x - a.x) (b.y - a.y) ≤ 10020 := by
        have d1 : -20 ≤ (b.x - a.x : Int) ∧ (b.x - a.x : Int) ≤ 20 := by omega
        have d2 : 9981 ≤ (b.y - a.y : Int) ∧ (b.y - a.y : Int) ≤ 10019 := by omega
        generalize b.x - a.x = dx at d1
        generalize b.y - a.y = dy at d2
        have x1 : (-20 : ℝ) ≤ dx ∧ (dx : ℝ) ≤ 20 := by exact_mod_cast d1
        have y1 : (9981 : ℝ) ≤ dy ∧ (dy : ℝ) ≤ 10019 := by exact_mod_cast d2
        unfold euclid2
        constructor
        · apply Real.le_sqrt_of_sq_le
          nlinarith
        · apply Real.sqrt_le_iff.2
          constructor
          · norm_num
          · nlinarith
      have hvol : lineVolume a b 200 400 100 = euclid2 (b.x - a.x) (b.y - a.y) * (8 / 10 ^ 5) := by
        unfold lineVolume
        push_cast
        ring
      have hc : crossSection 1750 ≤ 2.42 ∧ 0 ≤ crossSection 1750 := by
        unfold crossSection
        have h1 := Real.pi_lt_d2
        have h2 := Real.pi_pos
        push_cast
        constructor <;> nlinarith
      have e : |((line.after.filament - before.after.filament : ℚ) : ℝ) * crossSection 1750 - lineVolume a b 200 400 100| ≤
        3 / 10 ^ 6 * lineVolume a b 200 400 100 + (1 / 10 ^ 4 + 2 ^ 2 / 2 ^ 24) * crossSection 1750 := e
      rw [hvol] at e
      generalize ((line.after.filament - before.after.filament : ℚ) : ℝ) * crossSection 1750 = used at *
      rw [abs_le] at *
      norm_num at e ⊢
      constructor <;> linarith

end Verif
