import Verif.Props.Volume
import Verif.Model.Options

/-! # C100: precision of the running total of filament -/
namespace Verif
open Go Model Spec Spec.GCode

/-- Float32 rounding below `2^k` is off by at most `2^(k-25)`. -/
theorem r32_err_below {x : ℚ} {k : Int} (hk : -124 ≤ k) (hx : |x| < 2 ^ k) : |r32 x - x| ≤ 2 ^ (k - 25) := by
  rcases eq_or_ne x 0 with rfl | h0
  · simp [(zpow2_pos (K := ℚ) (k - 25)).le]
  have hpos : 0 < |x| := abs_pos.2 h0
  have hlog := (lt_log_iff hpos k).1 hx
  have hu : ulpExp 24 (-149) x ≤ k - 24 := by unfold ulpExp; omega
  have h1 := rnd_abs_err 24 (-149) x
  have h2 : (2 : ℚ) ^ ulpExp 24 (-149) x ≤ 2 ^ (k - 24) := zpow_le_zpow_right₀ (by norm_num) hu
  have h3 : (2 : ℚ) ^ (k - 24) = 2 ^ (k - 25) * 2 := by
    rw [← zpow_add_one₀ (by norm_num)]; congr 1; ring
  unfold r32
  simp only [Rat.cast_id] at h1
  linarith

/-- A float32 number between `2^k` and `2^(k+1)` does not change if less than half a unit of its last place is added. -/
theorem r32_stall {t e : ℚ} {k : Int} (hk : -126 ≤ k) (ht : r32 t = t) (h1 : 2 ^ k ≤ t) (h2 : t < 2 ^ (k + 1)) (he0 : 0 ≤ e)
    (he : e < 2 ^ (k - 24)) : r32 (t + e) = t := by
  have tpos : 0 < t := lt_of_lt_of_le (zpow2_pos k) h1
  have ulp : ∀ x : ℚ, 2 ^ k ≤ x → x < 2 ^ (k + 1) → ulpExp 24 (-149) x = k - 23 := by
    intro x hx1 hx2
    have hx : 0 < x := lt_of_lt_of_le (zpow2_pos k) hx1
    have l1 := (log_le_iff hx k).1 hx1
    have l2 := (lt_log_iff hx (k + 1)).1 hx2
    unfold ulpExp
    rw [abs_of_pos hx]; omega
  have hp := zpow2_pos (K := ℚ) (k - 23)
  obtain ⟨m, hm⟩ : ∃ m : Int, t = m * 2 ^ (k - 23) := by
    refine ⟨roundEven (t / 2 ^ (k - 23)), ?_⟩
    have h := ht
    unfold r32 rnd at h
    rw [ulp t h1 h2] at h
    exact h.symm
  have p1 : (2 : ℚ) ^ (k + 1) = 2 ^ 24 * 2 ^ (k - 23) := by
    rw [← zpow_natCast, ← zpow_add₀ (by norm_num)]; congr 1; push_cast; ring
  have p2 : (2 : ℚ) ^ (k - 23) = 2 ^ (k - 24) * 2 := by
    rw [← zpow_add_one₀ (by norm_num)]; congr 1; ring
  have hm24 : m < 2 ^ 24 := by
    have : (m : ℚ) * 2 ^ (k - 23) < 2 ^ 24 * 2 ^ (k - 23) := by rw [← hm, ← p1]; exact h2
    have := lt_of_mul_lt_mul_right this hp.le
    exact_mod_cast this
  have hlt : t + e < 2 ^ (k + 1) := by
    have : (m : ℚ) ≤ 2 ^ 24 - 1 := by exact_mod_cast (by omega : m ≤ 2 ^ 24 - 1)
    rw [p1, hm]; nlinarith
  unfold r32 rnd
  rw [ulp (t + e) (by linarith) hlt]
  have hr : roundEven ((t + e) / 2 ^ (k - 23)) = m := by
    apply roundEven_eq_of_lt
    have : (t + e) / 2 ^ (k - 23) - (m : ℚ) = e / 2 ^ (k - 23) := by rw [hm]; field_simp; ring
    rw [this, abs_of_nonneg (div_nonneg he0 hp.le), div_lt_iff₀ hp]
    linarith
  rw [hr, hm]

/-- **C100** As long as the total stays below `2^k` mm, the E value differs from the exact sum of the `n` requested amounts by at most
`n * 2^(k-25)` mm. -/
theorem C100_drift (rs : List Request) (k : Int) (hk : -124 ≤ k)
    (hb : ∀ before r after, rs = before ++ r :: after → |sum32 before + r.extrusion| < 2 ^ k) :
    |sum32 rs - (rs.map Request.extrusion).sum| ≤ rs.length * 2 ^ (k - 25) := by
  induction rs using List.reverseRecOn with
  | nil => simp [sum32]
  | append_singleton rs r ih =>
    have ih := ih (fun before q after h => hb before q (after ++ [r]) (by rw [h]; simp))
    have h1 := r32_err_below hk (hb rs r [] rfl)
    have e : sum32 (rs ++ [r]) = r32 (sum32 rs + r.extrusion) := by simp [sum32]
    rw [e, List.map_append, List.sum_append]
    simp only [List.map_cons, List.map_nil, List.sum_cons, List.sum_nil, add_zero, List.length_append, List.length_singleton]
    push_cast
    rw [abs_le] at *
    constructor <;> linarith

theorem sum32_fold (rs ss : List Request) : sum32 (rs ++ ss) = ss.foldl (fun t r => r32 (t + r.extrusion)) (sum32 rs) := by
  simp [sum32, List.foldl_append]

theorem sum32_repr (rs : List Request) : r32 (sum32 rs) = sum32 rs := by
  rcases List.eq_nil_or_concat rs with rfl | ⟨l, r, rfl⟩
  · simp [sum32]
  · rw [List.concat_eq_append]; simp only [sum32_fold, List.foldl_cons, List.foldl_nil]; exact r32_idem _

/-- **C100** Once the total has reached `2^k` mm, amounts below `2^(k-24)` mm are lost, however many there are. -/
theorem C100_stall (rs ss : List Request) (k : Int) (hk : -126 ≤ k) (h1 : 2 ^ k ≤ sum32 rs) (h2 : sum32 rs < 2 ^ (k + 1))
    (hs : ∀ r ∈ ss, 0 ≤ r.extrusion ∧ r.extrusion < 2 ^ (k - 24)) : sum32 (rs ++ ss) = sum32 rs := by
  rw [sum32_fold]
  have ht := sum32_repr rs
  generalize sum32 rs = t at *
  induction ss with
  | nil => rfl
  | cons r ss ih =>
    obtain ⟨e0, e1⟩ := hs r (by simp)
    rw [List.foldl_cons, r32_stall hk ht h1 h2 e0 e1]
    exact ih (fun q hq => hs q (List.mem_cons_of_mem _ hq))

variable {fd : Micrometer} {em : Int} {crossing : List LayerPart → Path → Bool × Bool} {cs : List Call} {g : Builder}

/-- **C100** In the G-code: after 131.072 m of filament (and below twice of it), during moves with less than 1/128 mm each the E word does
not change any more: the printer extrudes nothing. -/
theorem C100_text (hc : ∀ c ∈ cs, Call.Harmless c) (hok : (newBuilder fd em).exec crossing cs = .ok g) (rs ss rest : List Request)
    (r : Request) (hplan : emitted (plan crossing (flowOf fd em) cs).requests = rs ++ ss ++ r :: rest)
    (h1 : 131072 ≤ sum32 rs) (h2 : sum32 rs < 262144) (hs : ∀ q ∈ ss ++ [r], 0 ≤ q.extrusion ∧ q.extrusion < 1 / 128) (hr : r.extrusion ≠ 0) :
    ∃ m moves mv, run g.buf = some (m, moves) ∧ moves[(rs ++ ss).length]? = some mv ∧ mv.hasE = true ∧
      mv.after.e = some (decimals 4 (sum32 rs)) := by
  obtain ⟨m, moves, hrun, hmv⟩ := C20_total hc hok
  obtain ⟨m', moves', hrun', hlen⟩ := C21_count hc hok
  rw [hrun] at hrun'
  simp only [Option.some.injEq, Prod.mk.injEq] at hrun'
  obtain ⟨-, rfl⟩ := hrun'
  rw [hplan] at hmv hlen
  have hlt : (rs ++ ss).length < moves.length := by rw [hlen]; simp
  have hget : (rs ++ ss ++ r :: rest)[(rs ++ ss).length]? = some r := by simp
  obtain ⟨-, k2, k3⟩ := hmv _ r _ hget (List.getElem?_eq_getElem hlt)
  refine ⟨m, moves, _, hrun, List.getElem?_eq_getElem hlt, k2.2 hr, ?_⟩
  rw [k3 hr, List.take_left, List.append_assoc, C100_stall rs (ss ++ [r]) 17 (by norm_num) (by norm_num; exact h1) (by norm_num; exact h2)]
  intro q hq
  have := hs q hq
  norm_num at this ⊢
  exact this

/-- **C28** With the default options the filament is that of a 1.75 mm filament and a 0.2 mm × 0.4 mm line, without correction. -/
theorem C28_default (o : Options) (ho : o = {}) (s : Settings)
    (hs : s.perMM = flowOf o.filament.filamentDiameter o.filament.extrusionMultiplier o.print.layerThickness o.printer.extrusionWidth)
    (a b : Pt) (hne : a ≠ b) (hx : |b.x - a.x| ≤ 2 ^ 53) (hy : |b.y - a.y| ≤ 2 ^ 53) :
    |(s.filament a b : ℝ) * crossSection 1750 - euclid2 (b.x - a.x) (b.y - a.y) / 1000 * 0.2 * 0.4| ≤
      3 / 10 ^ 6 * (euclid2 (b.x - a.x) (b.y - a.y) / 1000 * 0.2 * 0.4) := by
  subst ho
  have h := C28_volume (fd := 1750) (em := 100) (t := 200) (w := 400) (by norm_num) (by norm_num) (by norm_num) (by norm_num) s hs a b hne
    hx hy
  simp only at h
  push_cast at h
  have e : ∀ l : ℝ, l / 1000 * (200 / 1000) * (400 / 1000) * (100 / 100) = l / 1000 * 0.2 * 0.4 := fun l => by norm_num
  rw [e] at h
  exact h

/-- **C100** With the default settings these are all lines of up to 0.23 mm. -/
theorem C100_default_line (s : Settings) (hs : s.perMM = flowOf 1750 100 200 400) (a b : Pt) (hne : a ≠ b)
    (hlen : euclid2 (b.x - a.x) (b.y - a.y) ≤ 230) : s.filament a b < 1 / 128 := by
  have hx : |b.x - a.x| ≤ 2 ^ 53 ∧ |b.y - a.y| ≤ 2 ^ 53 := by
    have h := (C02_point ⟨b.x - a.x, b.y - a.y⟩ 230).2 (by exact_mod_cast hlen)
    unfold Pt.shorterThanOrEqual at h
    split at h
    · cases h
    · rename_i hc
      simp only [not_or, not_lt] at hc
      constructor <;> rw [abs_le] <;> constructor <;> omega
  have h := C28_volume (fd := 1750) (em := 100) (t := 200) (w := 400) (by norm_num) (by norm_num) (by norm_num) (by norm_num) s hs a b hne
    hx.1 hx.2
  simp only at h
  have hpi := Real.pi_gt_d2
  have hnn : 0 ≤ euclid2 (b.x - a.x) (b.y - a.y) := by unfold euclid2; positivity
  generalize euclid2 (b.x - a.x) (b.y - a.y) = l at *
  have hcs : (2.4 : ℝ) ≤ crossSection 1750 := by unfold crossSection; push_cast; nlinarith
  rw [abs_le] at h
  have h2 := h.2
  have hq : (s.filament a b : ℝ) < 1 / 128 := by
    by_contra hc
    rw [not_lt] at hc
    push_cast at h2
    nlinarith
  exact_mod_cast (by push_cast; exact hq : ((s.filament a b : ℚ) : ℝ) < ((1 / 128 : ℚ) : ℝ))

/-- Non-vacuity of the drift and the stall. -/
example : sum32 [⟨⟨0, 0, 0⟩, 131072, 1⟩] = 131072 ∧
    sum32 ([⟨⟨0, 0, 0⟩, 131072, 1⟩] ++ List.replicate 1000 ⟨⟨0, 0, 0⟩, 1 / 200, 1⟩) = 131072 := by
  have h : sum32 [⟨⟨0, 0, 0⟩, 131072, 1⟩] = 131072 := by
    have : r32 ((131072 : Int) : ℚ) = 131072 := by rw [r32_intCast (by norm_num)]; norm_num
    simpa [sum32] using this
  refine ⟨h, ?_⟩
  rw [C100_stall _ _ 17 (by norm_num) (by rw [h]; norm_num) (by rw [h]; norm_num), h]
  intro r hr
  rw [List.eq_of_mem_replicate hr]
  norm_num

end Verif
