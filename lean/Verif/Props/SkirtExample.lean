import Verif.Props.ShellExample
import Verif.Props.Skirt

/-! # C125: an example -/
namespace Verif
open Verif.Go Verif.Model Verif.Spec Verif.Spec.GCode

/-- The smallest rectangle around the points. -/
def boxAround (ps : Path) : Int × Int × Int × Int :=
  match ps with
  | [] => (0, 0, 0, 0)
  | p :: rest => rest.foldl (fun r q => (min r.1 q.x, min r.2.1 q.y, max r.2.2.1 q.x, max r.2.2.2 q.y)) (p.x, p.y, p.x, p.y)

/-- The block with a library which makes real insets and real hulls of rectangles. -/
noncomputable def skirtExt : Externals := { blockExt with lib := { rectLib with hull := fun ps => (contour4 (boxAround ps)).map fun q => ⟨q.x, q.y⟩ } }

/-- The convex hull of points in a rectangle, which has its corners among them. -/
theorem inHull_rect {r : Int × Int × Int × Int} {ps : Path} (hin : ∀ p ∈ ps, (r.1 ≤ p.x ∧ p.x ≤ r.2.2.1) ∧ r.2.1 ≤ p.y ∧ p.y ≤ r.2.2.2)
    (hc : ∀ q ∈ contour4 r, (⟨q.x, q.y⟩ : Pt) ∈ ps) (x : ℚ × ℚ) :
    InHull ps x ↔ ((r.1 : ℚ) ≤ x.1 ∧ x.1 ≤ r.2.2.1) ∧ (r.2.1 : ℚ) ≤ x.2 ∧ x.2 ≤ r.2.2.2 := by
  have hin' : ∀ p ∈ ps, ((r.1 : ℚ) ≤ p.x ∧ (p.x : ℚ) ≤ r.2.2.1) ∧ (r.2.1 : ℚ) ≤ p.y ∧ (p.y : ℚ) ≤ r.2.2.2 := fun p hp => by exact_mod_cast hin p hp
  constructor
  · intro h
    have h1 := h (-1) 0 (-r.1) fun p hp => by linarith [(hin' p hp).1.1]
    have h2 := h 1 0 r.2.2.1 fun p hp => by linarith [(hin' p hp).1.2]
    have h3 := h 0 (-1) (-r.2.1) fun p hp => by linarith [(hin' p hp).2.1]
    have h4 := h 0 1 r.2.2.2 fun p hp => by linarith [(hin' p hp).2.2]
    refine ⟨⟨?_, ?_⟩, ?_, ?_⟩ <;> linarith
  · rintro ⟨⟨h1, h2⟩, h3, h4⟩ u v w h
    have k1 := h _ (hc ⟨r.2.2.1, r.2.1⟩ (by simp [contour4]))
    have k2 := h _ (hc ⟨r.2.2.1, r.2.2.2⟩ (by simp [contour4]))
    have k3 := h _ (hc ⟨r.1, r.2.2.2⟩ (by simp [contour4]))
    have k4 := h _ (hc ⟨r.1, r.2.1⟩ (by simp [contour4]))
    dsimp only at k1 k2 k3 k4
    rcases le_total 0 u with hu | hu <;> rcases le_total 0 v with hv | hv
    · linarith [mul_le_mul_of_nonneg_left h2 hu, mul_le_mul_of_nonneg_left h4 hv]
    · linarith [mul_le_mul_of_nonneg_left h2 hu, mul_le_mul_of_nonpos_left h3 hv]
    · linarith [mul_le_mul_of_nonpos_left h1 hu, mul_le_mul_of_nonneg_left h4 hv]
    · linarith [mul_le_mul_of_nonpos_left h1 hu, mul_le_mul_of_nonpos_left h3 hv]

/-- The sides of a rectangle. -/
theorem onPath_rect {r : Int × Int × Int × Int} (hr : Proper4 r) {x : ℚ × ℚ} (h : OnPath false (asPath (contour4 r)) x) :
    (((r.1 : ℚ) ≤ x.1 ∧ x.1 ≤ r.2.2.1) ∧ (r.2.1 : ℚ) ≤ x.2 ∧ x.2 ≤ r.2.2.2) ∧ (x.1 = r.1 ∨ x.1 = r.2.2.1 ∨ x.2 = r.2.1 ∨ x.2 = r.2.2.2) := by
  have h1 : (r.1 : ℚ) < r.2.2.1 := by exact_mod_cast hr.1
  have h2 : (r.2.1 : ℚ) < r.2.2.2 := by exact_mod_cast hr.2
  obtain ⟨a, b, hab, t, t0, t1, rfl⟩ := h
  rw [pathLines_sides, rect_sides] at hab
  simp only [List.mem_cons, Prod.mk.injEq, List.not_mem_nil, or_false] at hab
  rcases hab with ⟨rfl, rfl⟩ | ⟨rfl, rfl⟩ | ⟨rfl, rfl⟩ | ⟨rfl, rfl⟩ <;> simp only [lineAt, exactPt, sub_self, mul_zero, add_zero] <;>
    refine ⟨⟨⟨?_, ?_⟩, ?_, ?_⟩, ?_⟩ <;> first | (simp; done) | linarith | nlinarith

theorem skirt_ring {r : Int × Int × Int × Int} (hr : Proper4 r) {ps : Path} (hin : ∀ p ∈ ps, (r.1 ≤ p.x ∧ p.x ≤ r.2.2.1) ∧ r.2.1 ≤ p.y ∧ p.y ≤ r.2.2.2)
    (hc : ∀ q ∈ contour4 r, (⟨q.x, q.y⟩ : Pt) ∈ ps) (hbox : boxAround ps = r) {d : Int} (hd : 0 < d) : RingAround skirtExt.lib 1 ps d := by
  have hg : Proper4 (growRect r d) := by
    unfold Proper4 growRect at *
    dsimp only at *
    omega
  have hd' : (0 : ℚ) < d := by exact_mod_cast hd
  refine ⟨contour4 (growRect r d), ?_, fun x hx => ?_, fun x hx => ?_⟩
  · have e : asRect (((contour4 (boxAround ps)).map fun q => (⟨q.x, q.y⟩ : Pt)).map fun q => (⟨q.x, q.y⟩ : IntPoint)) = some r := by
      rw [hbox]
      simp [contour4, asRect, hr.1, hr.2]
    change rectOffset [_] _ = _
    simp only [rectOffset, List.mapM_cons, List.mapM_nil, skirtExt]
    rw [e]
    simp [pure, hg, rectLeaf]
  · rw [inHull_rect hin hc] at hx
    refine (rect_encloses hg x).2 ?_
    obtain ⟨⟨h1, h2⟩, h3, h4⟩ := hx
    simp only [inRect, growRect]
    push_cast
    refine ⟨?_, ?_, ?_, ?_⟩ <;> linarith
  · obtain ⟨⟨⟨a1, a2⟩, a3, a4⟩, hs⟩ := onPath_rect hg hx
    have hr1 : (r.1 : ℚ) < r.2.2.1 := by exact_mod_cast hr.1
    have hr2 : (r.2.1 : ℚ) < r.2.2.2 := by exact_mod_cast hr.2
    simp only [growRect] at a1 a2 a3 a4 hs
    push_cast at a1 a2 a3 a4 hs
    constructor
    · intro y hy
      rw [inHull_rect hin hc] at hy
      obtain ⟨⟨h1, h2⟩, h3, h4⟩ := hy
      by_cases hd1 : (d : ℚ) ≤ 1
      · exact .inl (by linarith)
      · rw [not_le] at hd1
        refine .inr ?_
        have key : ∀ a b : ℚ, (d : ℚ) ≤ |a| ∨ (d : ℚ) ≤ |b| → ((d : ℚ) - 1) ^ 2 ≤ a ^ 2 + b ^ 2 := by
          intro a b h
          rw [← sq_abs a, ← sq_abs b]
          rcases h with h | h <;> nlinarith [abs_nonneg a, abs_nonneg b]
        refine key _ _ ?_
        rcases hs with h | h | h | h
        · exact .inl (le_abs.2 (.inr (by linarith)))
        · exact .inl (le_abs.2 (.inl (by linarith)))
        · exact .inr (le_abs.2 (.inr (by linarith)))
        · exact .inr (le_abs.2 (.inl (by linarith)))
    · refine ⟨(max r.1 (min x.1 r.2.2.1), max r.2.1 (min x.2 r.2.2.2)), (inHull_rect hin hc _).2 ⟨⟨le_max_left _ _, ?_⟩, le_max_left _ _, ?_⟩, by positivity, ?_⟩
      · exact max_le hr1.le (min_le_right _ _)
      · exact max_le hr2.le (min_le_right _ _)
      · have key : ∀ a lo hi : ℚ, lo < hi → lo - d ≤ a → a ≤ hi + d → (a - max lo (min a hi)) ^ 2 ≤ (d : ℚ) ^ 2 := by
          intro a lo hi h h1 h2
          refine sq_le_sq' ?_ ?_ <;> rcases le_total a hi with h3 | h3 <;> rcases le_total a lo with h4 | h4 <;> simp [h3, h4, h.le] <;> linarith
        have k1 := key x.1 _ _ hr1 a1 a2
        have k2 := key x.2 _ _ hr2 a3 a4
        nlinarith

theorem skirt_modified : ((slice skirtExt.lib blockOptions blockOpt >>= fun ls => (standardModifiers skirtExt.lib 1 blockOptions).foldlM (fun ls m => m ls) ls).map fun ls =>
    (ls.all wellTyped, ls.length, (ls.head?.map fun l => (decide (l.perimeters = .ok (perimetersOf rectLib blockOptions [blockPart])) && decide (l.fullSupport = .ok []))).getD false)) =
      .ok (true, 5, true) := by decide +kernel

theorem skirt_ordinary : ∀ p ∈ (skirtLines skirtExt.lib blockOptions [] (perimetersOf rectLib blockOptions [blockPart])).flatten,
    (∀ a ∈ p.outline, ∀ b ∈ p.outline, (a.x - b.x) ^ 2 + (a.y - b.y) ^ 2 ≤ safe) ∧ ∀ a ∈ p.outline, |a.x| ≤ 10 ^ 6 ∧ |a.y| ≤ 10 ^ 6 := by decide +kernel

/-- Non-vacuity of `C125_program`: the straight way from the middle of the block to the outside meets both lines of the skirt. -/
example : ∃ t body m moves, gcodeOf skirtExt blockOptions [] = .ok t ∧ t = startText blockOptions ++ body ++ endText blockOptions ∧ run body = some (m, moves) ∧
    ∀ k : Nat, k < 2 → ∃ z, OnWay [(100000, 100000), (80000, 100000)] z ∧ PrintedNear moves 200 8 z ∧ Apart (5330 + 400 * k) z (95200, 100000) := by
  have hm := skirt_modified
  cases h2 : slice skirtExt.lib blockOptions blockOpt with
  | error e => rw [h2] at hm; cases hm
  | ok sliced =>
  rw [h2] at hm
  simp only [bind, Except.bind] at hm
  cases h3 : (standardModifiers skirtExt.lib 1 blockOptions).foldlM (fun ls m => m ls) sliced with
  | error e => rw [h3] at hm; cases hm
  | ok layers =>
  rw [h3] at hm
  have hm := Except.ok.inj hm
  obtain ⟨m1, m2, m3⟩ : layers.all wellTyped = true ∧ layers.length = 5 ∧ (layers.head?.map fun l =>
      (decide (l.perimeters = .ok (perimetersOf rectLib blockOptions [blockPart])) && decide (l.fullSupport = .ok []))).getD false = true := by simpa only [Prod.mk.injEq] using hm
  have hty := typed_modified h3 (sliced_plain h2) m1
  obtain ⟨lo, hlo⟩ : ∃ lo, blockOpt.min = .ok lo := by unfold OptModel.min; rw [block_faces]; exact ⟨_, rfl⟩
  obtain ⟨hi, hhi⟩ : ∃ hi, blockOpt.max = .ok hi := by unfold OptModel.max; rw [block_faces]; exact ⟨_, rfl⟩
  have hstl : skirtExt.stl = blockExt.stl := rfl
  obtain ⟨t, ht⟩ := gcode_of_modified (ext := skirtExt) block_sensible ⟨piece_open.ok, piece_open.lines⟩ (by rw [hstl, block_stl]; decide) (by rw [hstl]; exact block_opt) h2 h3 hty hlo hhi
  obtain ⟨om, sliced', layers', k1, k2, k3, key⟩ := C125_program skirtExt blockOptions [] t ht ⟨by decide, by decide, by decide, by decide, by decide⟩ (tol := 1) (by decide +kernel) (by decide)
  rw [hstl, block_opt] at k1
  cases k1
  rw [h2] at k2
  cases k2
  have k3 : (standardModifiers skirtExt.lib 1 blockOptions).foldlM (fun ls m => m ls) sliced = .ok layers' := k3
  rw [h3] at k3
  cases k3
  obtain ⟨l, hl⟩ : ∃ l, layers[0]? = some l := ⟨_, List.getElem?_eq_getElem (by omega)⟩
  rw [List.head?_eq_getElem?, hl] at m3
  obtain ⟨w1, w2⟩ : l.perimeters = .ok (perimetersOf rectLib blockOptions [blockPart]) ∧ l.fullSupport = .ok [] := by simpa using m3
  obtain ⟨body, m, moves, walls, support, b1, b2, b3, b4, b5⟩ := key l hl
  rw [w1] at b3
  cases b3
  rw [w2] at b4
  cases b4
  have e0 : layerHeight blockOptions 0 = 200 := by decide
  refine ⟨t, body, m, moves, ht, b1, b2, fun k hk => ?_⟩
  have er : (skirtReach blockOptions k : ℚ) = 5400 + 400 * k := by
    have : skirtReach blockOptions k = 5400 + 400 * k := by
      have : skirtReach blockOptions k = 5000 + (0 + 1 + k) * 400 := by
        unfold skirtReach
        rw [show toMicrometer blockOptions.print.brimSkirt.skirtDistance = 5000 by decide +kernel]
        rfl
      omega
    rw [this]
    push_cast
    rfl
  have hk1 : (k : ℚ) ≤ 1 := by exact_mod_cast (by omega : k ≤ 1)
  have hk0 : (0 : ℚ) ≤ k := by positivity
  have hring : RingAround skirtExt.lib 1 (([] ++ (perimetersOf rectLib blockOptions [blockPart]).flatten.flatten).flatMap LayerPart.outline) (skirtReach blockOptions k) :=
    skirt_ring (r := (95200, 95200, 104800, 104800)) (by decide) (by decide +kernel) (by decide +kernel) (by decide +kernel) (by
      have : (0 : ℚ) < skirtReach blockOptions k := by rw [er]; linarith
      exact_mod_cast this)
  obtain ⟨z, z1, z2, z3⟩ := b5 _ rfl (fun p hp => ⟨(skirt_ordinary p hp).1, (skirt_ordinary p hp).2⟩) k (by
      have : blockOptions.print.brimSkirt.skirtCount = 2 := rfl
      omega) hring (by rw [er]; linarith)
    ⟨[⟨104800, 95200⟩, ⟨104800, 104800⟩, ⟨95200, 104800⟩, ⟨95200, 95200⟩], []⟩ (by decide +kernel) (100000, 100000) (80000, 100000) [(100000, 100000), (80000, 100000)] ⟨rfl, rfl⟩
    (.inl (by decide +kernel)) ⟨-1, 0, -95200, by decide +kernel, by norm_num, by rw [er]; nlinarith⟩
  rw [e0] at z2
  refine ⟨z, z1, z2, ?_⟩
  have := z3 (95200, 100000) ((inHull_rect (r := (95200, 95200, 104800, 104800)) (by decide +kernel) (by decide +kernel) _).2 (by norm_num))
  rw [er] at this
  rw [show (5330 : ℚ) + 400 * k = 5400 + 400 * k - 1 - 69 by ring]
  exact this

end Verif
