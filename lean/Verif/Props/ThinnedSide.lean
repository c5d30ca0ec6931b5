import Verif.Props.Way

/-! # Thinned paths keep the sides of points at a distance -/
namespace Verif
open Verif.Model Verif.Go Verif.Spec

/-- A linear function which is zero nowhere on the lines of a path has the same sign everywhere. -/
theorem same_sign {f : Pt → ℚ} : ∀ (l : Path) (a : Pt), f a ≠ 0 → (∀ s ∈ (a :: l).zip l, ∀ t : ℚ, 0 ≤ t → t ≤ 1 → (1 - t) * f s.1 + t * f s.2 ≠ 0) →
    (∀ p ∈ a :: l, 0 < f p) ∨ ∀ p ∈ a :: l, f p < 0
  | [], a, ha, _ => by
    rcases lt_or_gt_of_ne ha with h | h
    · exact .inr (by simpa using h)
    · exact .inl (by simpa using h)
  | b :: l, a, ha, h => by
    have hb : f b ≠ 0 := by simpa using h (a, b) (by simp) 1 zero_le_one le_rfl
    have ih := same_sign l b hb fun s hs => h s (by simp [hs])
    have hab : ¬(0 < f a ∧ f b < 0) ∧ ¬(f a < 0 ∧ 0 < f b) := by
      have hne : f a - f b ≠ 0 → 0 ≤ f a / (f a - f b) → f a / (f a - f b) ≤ 1 → False := fun h0 h1 h2 => h (a, b) (by simp) _ h1 h2 (by
        show (1 - f a / (f a - f b)) * f a + f a / (f a - f b) * f b = 0
        field_simp
        ring)
      refine ⟨fun hc => ?_, fun hc => ?_⟩
      · exact hne (by linarith [hc.1, hc.2]) (div_nonneg hc.1.le (by linarith [hc.1, hc.2])) ((div_le_one (by linarith [hc.1, hc.2])).2 (by linarith [hc.1, hc.2]))
      · exact hne (by linarith [hc.1, hc.2]) (div_nonneg_of_nonpos hc.1.le (by linarith [hc.1, hc.2]))
          ((div_le_one_of_neg (by linarith [hc.1, hc.2])).2 (by linarith [hc.1, hc.2]))
    rcases ih with ih | ih
    · refine .inl fun p hp => ?_
      rcases List.mem_cons.1 hp with rfl | hp
      · exact lt_of_le_of_ne (not_lt.1 fun hc => hab.2 ⟨hc, ih b (by simp)⟩) (Ne.symm ha)
      · exact ih p hp
    · refine .inr fun p hp => ?_
      rcases List.mem_cons.1 hp with rfl | hp
      · exact lt_of_le_of_ne (not_lt.1 fun hc => hab.1 ⟨hc, ih b (by simp)⟩) ha
      · exact ih p hp

/-- A path whose points are within `d` of the line through `a` and `b`, and which does not come within `2·d` of `q`, is on one side of `q`. -/
theorem strip_side {d : ℚ} {a b : Pt} {q : ℚ × ℚ} (l : Path) (hl : l ≠ []) (hline : ∀ p ∈ a :: l, lineDist2 a b p ≤ d ^ 2)
    (hfar : ∀ s ∈ (a :: l).zip l, FarFrom (2 * d) (exactPt s.1) (exactPt s.2) q) : ∃ u v, ∀ p ∈ a :: l, Side u v q (exactPt p) := by
  have ha : (2 * d) ^ 2 < ((a.x : ℚ) - q.1) ^ 2 + ((a.y : ℚ) - q.2) ^ 2 := by
    cases l with
    | nil => exact absurd rfl hl
    | cons c l =>
      have := hfar (a, c) (by simp) 0 le_rfl zero_le_one
      simpa [exactPt] using this
  by_cases hab : a = b
  · refine ⟨a.x - q.1, a.y - q.2, fun p hp => ?_⟩
    have := hline p hp
    unfold lineDist2 at this
    rw [if_pos hab] at this
    push_cast at this
    simp only [Side, exactPt]
    nlinarith [sq_nonneg ((p.x : ℚ) - q.1), sq_nonneg ((p.y : ℚ) - q.2), sq_nonneg d]
  have hN : 0 < ((b.x : ℚ) - a.x) ^ 2 + ((b.y : ℚ) - a.y) ^ 2 := by
    by_contra hc
    have h1 : ((b.x : ℚ) - a.x) ^ 2 = 0 := le_antisymm (by nlinarith [sq_nonneg ((b.x : ℚ) - a.x), sq_nonneg ((b.y : ℚ) - a.y)]) (sq_nonneg _)
    have h2 : ((b.y : ℚ) - a.y) ^ 2 = 0 := le_antisymm (by nlinarith [sq_nonneg ((b.x : ℚ) - a.x), sq_nonneg ((b.y : ℚ) - a.y)]) (sq_nonneg _)
    rw [sq_eq_zero_iff, sub_eq_zero] at h1 h2
    apply hab
    rw [Pt.mk.injEq]
    exact ⟨by exact_mod_cast h1.symm, by exact_mod_cast h2.symm⟩
  generalize hNe : ((b.x : ℚ) - a.x) ^ 2 + ((b.y : ℚ) - a.y) ^ 2 = N at hN
  generalize hx : (b.x : ℚ) - a.x = ex at hNe
  generalize hy : (b.y : ℚ) - a.y = ey at hNe
  have hc : ∀ p ∈ a :: l, (ex * ((p.y : ℚ) - a.y) - ey * ((p.x : ℚ) - a.x)) ^ 2 ≤ d ^ 2 * N := by
    intro p hp
    have := hline p hp
    unfold lineDist2 at this
    rw [if_neg hab] at this
    push_cast at this
    rw [hx, hy, hNe, div_le_iff₀ hN] at this
    exact this
  by_cases hq : d ^ 2 * N < (ex * (q.2 - a.y) - ey * (q.1 - a.x)) ^ 2
  · rcases le_or_gt (ex * (q.2 - a.y) - ey * (q.1 - a.x)) 0 with h0 | h0
    · refine ⟨-ey, ex, fun p hp => ?_⟩
      have h1 := abs_lt_of_sq_lt_sq ((hc p hp).trans_lt (by rw [← neg_sq (ex * (q.2 - a.y) - _)] at hq; exact hq)) (by linarith)
      have := (abs_lt.1 h1).1
      simp only [Side, exactPt]
      linarith
    · refine ⟨ey, -ex, fun p hp => ?_⟩
      have h1 := abs_lt_of_sq_lt_sq ((hc p hp).trans_lt hq) h0.le
      have := (abs_lt.1 h1).2
      simp only [Side, exactPt]
      linarith
  · rw [not_lt] at hq
    -- no point of the path is beside `q`
    have beside : ∀ x y : ℚ, (ex * (y - a.y) - ey * (x - a.x)) ^ 2 ≤ d ^ 2 * N → (2 * d) ^ 2 < (x - q.1) ^ 2 + (y - q.2) ^ 2 → ex * (x - q.1) + ey * (y - q.2) ≠ 0 := by
      intro x y h1 h2 h0
      have e : ((x - q.1) ^ 2 + (y - q.2) ^ 2) * N = (ex * (x - q.1) + ey * (y - q.2)) ^ 2 +
          ((ex * (y - a.y) - ey * (x - a.x)) - (ex * (q.2 - a.y) - ey * (q.1 - a.x))) ^ 2 := by rw [← hNe]; ring
      rw [h0] at e
      have := mul_lt_mul_of_pos_right h2 hN
      nlinarith [sq_nonneg ((ex * (y - a.y) - ey * (x - a.x)) + (ex * (q.2 - a.y) - ey * (q.1 - a.x)))]
    have hsign := same_sign (f := fun p => ex * ((p.x : ℚ) - q.1) + ey * ((p.y : ℚ) - q.2)) l a (beside _ _ (hc a (by simp)) ha) (by
      intro s hs t t0 t1 h0
      have h1 := hc s.1 (List.of_mem_zip hs).1
      have h2 := hc s.2 (List.mem_cons_of_mem _ (List.of_mem_zip hs).2)
      have h3 := hfar s hs t t0 t1
      simp only [exactPt] at h3
      refine beside _ _ ?_ h3 ?_
      · have e : ex * (s.1.y + t * ((s.2.y : ℚ) - s.1.y) - a.y) - ey * (s.1.x + t * ((s.2.x : ℚ) - s.1.x) - a.x) =
          (1 - t) * (ex * ((s.1.y : ℚ) - a.y) - ey * ((s.1.x : ℚ) - a.x)) + t * (ex * ((s.2.y : ℚ) - a.y) - ey * ((s.2.x : ℚ) - a.x)) := by ring
        rw [e]
        generalize ex * ((s.1.y : ℚ) - a.y) - ey * ((s.1.x : ℚ) - a.x) = A at h1 ⊢
        generalize ex * ((s.2.y : ℚ) - a.y) - ey * ((s.2.x : ℚ) - a.x) = B at h2 ⊢
        have e2 : ((1 - t) * A + t * B) ^ 2 = (1 - t) * A ^ 2 + t * B ^ 2 - t * (1 - t) * (A - B) ^ 2 := by ring
        rw [e2]
        have := mul_nonneg (mul_nonneg t0 (show 0 ≤ 1 - t by linarith)) (sq_nonneg (A - B))
        nlinarith [mul_le_mul_of_nonneg_left h1 (show 0 ≤ 1 - t by linarith), mul_le_mul_of_nonneg_left h2 t0]
      · rw [← h0]; ring)
    rcases hsign with h | h
    · exact ⟨ex, ey, fun p hp => by simp only [Side, exactPt]; exact h p hp⟩
    · exact ⟨-ex, -ey, fun p hp => by simp only [Side, exactPt]; have := h p hp; linarith⟩

theorem walkSum_split {α : Type} (g : α → α → ZMod 2) (b : α) (rest : List α) : ∀ (l : List α) (a : α), walkSum g (a :: (l ++ b :: rest)) = walkSum g (a :: (l ++ [b])) + walkSum g (b :: rest)
  | [], a => by simp [walkSum]
  | c :: l, a => by
    simp only [List.cons_append, walkSum]
    rw [← List.cons_append, ← List.cons_append, List.cons_append, walkSum_split g b rest l c]
    simp only [List.cons_append]
    ring

theorem thinned_zip (b : Pt) (rest : Path) : ∀ (dropped : Path) (a : Pt), (a :: (dropped ++ b :: rest)).zip (dropped ++ b :: rest) =
    (a :: (dropped ++ [b])).zip (dropped ++ [b]) ++ (b :: rest).zip rest
  | [], a => rfl
  | c :: dropped, a => by simp only [List.cons_append, List.zip_cons_cons]; rw [thinned_zip b rest dropped c]

theorem lineDist2_ends (a b : Pt) : lineDist2 a b a = 0 ∧ lineDist2 a b b = 0 := by
  unfold lineDist2
  constructor
  · split <;> simp
  · split
    · next h => simp [h]
    · have : (b.x - a.x) * (b.y - a.y) - (b.y - a.y) * (b.x - a.x) = 0 := by ring
      rw [this]; simp

/-- The walk along a thinned path is crossed as often as the one along the path, modulo 2, for points which are farther than twice the limit away from the path. -/
theorem thinned_cross {d : ℚ} {ok : Pt → Pt → Pt → Prop} (hok : ∀ a b p, ok a b p → lineDist2 a b p ≤ d ^ 2) {l r : Path} (h : Thinned ok l r) {q : ℚ × ℚ}
    (hfar : ∀ s ∈ l.zip l.tail, FarFrom (2 * d) (exactPt s.1) (exactPt s.2) q) :
    walkSum (fun s t => cross2 q (exactPt s) (exactPt t)) l = walkSum (fun s t => cross2 q (exactPt s) (exactPt t)) r := by
  induction h with
  | single a => rfl
  | step a b dropped rest res hdr _ ih =>
    rw [List.tail_cons, thinned_zip] at hfar
    rw [walkSum_split]
    have ih := ih fun s hs => hfar s (List.mem_append_right _ (by simpa using hs))
    rw [ih]
    obtain ⟨u, v, hside⟩ := strip_side (b := b) (dropped ++ [b]) (by simp) (by
      intro p hp
      rcases List.mem_cons.1 hp with rfl | hp
      · rw [(lineDist2_ends _ _).1]; positivity
      · rcases List.mem_append.1 hp with hp | hp
        · exact hok _ _ _ (hdr p hp)
        · rw [List.mem_singleton.1 hp, (lineDist2_ends _ _).2]; positivity) fun s hs => hfar s (List.mem_append_left _ hs)
    rw [walk_side _ _ hside]
    simp [walkSum]

/-- What is drawn of a closed path encloses the same points, apart from those within 138 µm of the path (for paths with a diameter of at most 55.1 mm). -/
theorem drawn_encloses {path : Path} (hs : SmallPath path) {q : ℚ × ℚ} (hq : FarFromPath 138 path q) : Encloses (douglasPeuckerM path (-1)) q ↔ Encloses path q := by
  cases path with
  | nil => rw [show douglasPeuckerM [] (-1) = [] by decide +kernel]
  | cons p rest =>
    have ht := C06_int64 (p :: rest) (-1) (by simp) hs
    have hends := C05_int64_ends (p :: rest) (-1)
    simp only [if_true] at ht
    have hok : ∀ a b q : Pt, (1 ≤ (70 : Int) ∧ lineDist2 a b q ≤ ((70 - 1 : Int) : ℚ) ^ 2) → lineDist2 a b q ≤ 69 ^ 2 := by
      rintro a b q ⟨-, h⟩
      norm_num at h ⊢
      exact h
    cases hd : douglasPeuckerM (p :: rest) (-1) with
    | nil => rw [hd] at hends; simp at hends
    | cons p' res =>
      rw [hd] at hends ht
      have hp : p' = p := by simpa using hends.1
      subst hp
      have hlast : (p' :: res).getLast (by simp) = (p' :: rest).getLast (by simp) := by
        have := hends.2
        rw [List.getLast?_eq_some_getLast (by simp), List.getLast?_eq_some_getLast (by simp)] at this
        exact Option.some.inj this
      rw [encloses_iff, encloses_iff, pathCross_cons, pathCross_cons, hlast,
        thinned_cross (d := 69) hok ht fun s hs => by
          have := hq s (by
            rw [← pathLines_sides, pathLines_closed]
            refine List.mem_append_left _ ?_
            simpa [pathLines] using hs)
          norm_num
          exact this]

end Verif
