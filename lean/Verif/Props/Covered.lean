import Verif.Props.Filled
import Verif.Props.OutsideFill
import Verif.Props.Bounds
import Verif.Spec.Deep

/-! # C118: solid areas are covered by printed lines -/
namespace Verif
open Verif.Go Verif.Model Verif.Spec Verif.Spec.GCode

/-! ## Moved points -/

/-- The point moved by `v`. -/
def shift (v p : ℚ × ℚ) : ℚ × ℚ := (p.1 + v.1, p.2 + v.2)

theorem cross2_shift (v q a b : ℚ × ℚ) : cross2 (shift v q) (shift v a) (shift v b) = cross2 q a b := by
  refine cross2_congr ?_
  unfold RayCrosses shift
  simp only [add_lt_add_iff_right, add_sub_add_right_eq_sub]
  rw [show a.1 + v.1 + (b.1 - a.1) * (q.2 - a.2) / (b.2 - a.2) = a.1 + (b.1 - a.1) * (q.2 - a.2) / (b.2 - a.2) + v.1 by ring, add_lt_add_iff_right]

theorem ringCross_shift (v q : ℚ × ℚ) (l : List (ℚ × ℚ)) : ringCross (shift v q) (l.map (shift v)) = ringCross q l := by
  unfold ringCross
  rw [ringSides_map, List.map_map]
  exact congrArg List.sum (List.map_congr_left fun s _ => cross2_shift v q s.1 s.2)

theorem farFrom_of_not_near {d : ℚ} (hd : 0 ≤ d) {a b q : ℚ × ℚ} (h : ∀ y, OnSegment a b y → ¬ NearPt d q y) : FarFrom d a b q := by
  intro t h0 h1
  by_contra hc
  refine h (lineAt a b t) ⟨t, h0, h1, rfl⟩ ⟨hd, ?_⟩
  rw [not_lt] at hc
  simp only [lineAt]
  nlinarith

/-- What encloses a point encloses a near one, too, if it is not nearer. -/
theorem ringCross_moved {l : List (ℚ × ℚ)} {q q' : ℚ × ℚ} {d : ℚ} (hn : NearPt d q q') (hf : ∀ s ∈ ringSides l, FarFrom d s.1 s.2 q) : ringCross q' l = ringCross q l := by
  set v : ℚ × ℚ := (q.1 - q'.1, q.2 - q'.2) with hv
  have e : shift v q' = q := by
    rw [hv]; unfold shift
    ext <;> simp
  have h1 := ringCross_shift v q' l
  rw [e] at h1
  rw [← h1]
  have h2 := ringCross_near (l := l) (f := id) (g := shift v) (q := q) (d := d) (fun x _ => ⟨hn.1, by
    have := hn.2
    simp only [shift, hv, id]
    nlinarith⟩) (fun s hs => hf s hs)
  rw [List.map_id] at h2
  exact h2

theorem deep_iff {r : ℚ} {part : LayerPart} {x : ℚ × ℚ} : Deep r (partContours part) x ↔
    ((part.outline :: part.holes).map fun c => ringCross x (c.map exactPt)).sum = 1 ∧
      ∀ c ∈ part.outline :: part.holes, ∀ s ∈ ringSides c, ∀ y, OnSegment (exactPt s.1) (exactPt s.2) y → ¬ NearPt r x y := by
  unfold Deep
  rw [mem_region_ring]
  refine and_congr Iff.rfl ⟨fun h c hc s hs y hy => ?_, fun h c hc y hy => ?_⟩
  · refine h (clipperPath c) (List.mem_map_of_mem hc) y ?_
    rw [asPath_clipper]
    exact ⟨s.1, s.2, by rw [pathLines_ring]; exact hs, hy⟩
  · obtain ⟨c', hc', rfl⟩ := List.mem_map.1 hc
    change OnPath false (asPath (clipperPath c')) y at hy
    rw [asPath_clipper] at hy
    obtain ⟨a, b, hab, hy⟩ := hy
    rw [pathLines_ring] at hab
    exact h c' hc' (a, b) hab y hy

/-- A point near a deep point is deep, too. -/
theorem deep_moved {r d : ℚ} {part : LayerPart} {x x' : ℚ × ℚ} (h : Deep (r + d) (partContours part) x) (hr : 0 ≤ r) (hn : NearPt d x x') :
    Deep r (partContours part) x' := by
  rw [deep_iff] at h ⊢
  obtain ⟨h1, h2⟩ := h
  refine ⟨?_, fun c hc s hs y hy hxy => h2 c hc s hs y hy ((hn.trans hxy).mono (by linarith))⟩
  rw [← h1]
  refine congrArg List.sum (List.map_congr_left fun c hc => ringCross_moved hn ?_)
  rw [ringSides_map]
  intro s hs
  obtain ⟨e, he, rfl⟩ := List.mem_map.1 hs
  exact farFrom_of_not_near hn.1 fun y hy hxy => h2 c hc e he y hy (hxy.mono (by linarith))

theorem near_turned {s c d : ℚ} (h3 : |c ^ 2 + s ^ 2 - 1| ≤ 1 / 2 ^ 45) {p q : ℚ × ℚ} (h : NearPt d p q) :
    NearPt (d * (1 + 1 / 2 ^ 44)) (lin c (-s) s c p) (lin c (-s) s c q) := by
  obtain ⟨hd, h⟩ := h
  refine ⟨mul_nonneg hd (by norm_num), ?_⟩
  have e : ((lin c (-s) s c p).1 - (lin c (-s) s c q).1) ^ 2 + ((lin c (-s) s c p).2 - (lin c (-s) s c q).2) ^ 2 =
      (c ^ 2 + s ^ 2) * ((p.1 - q.1) ^ 2 + (p.2 - q.2) ^ 2) := by unfold lin; ring
  rw [e, mul_pow, mul_comm]
  have hn : c ^ 2 + s ^ 2 ≤ (1 + 1 / 2 ^ 44) ^ 2 := by
    have := (abs_le.1 h3).2
    norm_num at this ⊢
    linarith
  have hn0 : 0 ≤ c ^ 2 + s ^ 2 := by positivity
  apply mul_le_mul h hn hn0 (sq_nonneg d)

/-- The image of a deep point under a rotation is inside of the rotated part, of which all points are moved by at most `d`. -/
theorem deep_turned {c s d r : ℚ} (h3 : |c ^ 2 + s ^ 2 - 1| ≤ 1 / 2 ^ 45) (hd : 0 ≤ d) (f : Pt → Pt) {part : LayerPart}
    (hf : ∀ p ∈ part.outline :: part.holes, ∀ q ∈ p, NearPt d (exactPt (f q)) (lin c (-s) s c (exactPt q))) {x : ℚ × ℚ}
    (hx : Deep r (partContours part) x) (hr : d * (1 + 1 / 2 ^ 44) ≤ r) :
    lin c (-s) s c x ∈ region enclosedBy [⟨part.outline.map f, part.holes.map fun p => p.map f⟩] := by
  have hcs : 0 < c ^ 2 + s ^ 2 := by have := (abs_le.1 h3).1; norm_num at this; linarith
  rw [deep_iff] at hx
  obtain ⟨h1, h2⟩ := hx
  rw [region, List.flatMap_singleton, mem_region_ring]
  rw [show (part.outline.map f :: part.holes.map fun p => p.map f) = (part.outline :: part.holes).map fun p => p.map f from rfl, List.map_map, ← h1]
  refine congrArg List.sum (List.map_congr_left fun p hp => ?_)
  have hr0 : 0 ≤ r := le_trans (mul_nonneg hd (by norm_num)) hr
  have hoff : OffRing x (p.map exactPt) := by
    unfold OffRing
    rw [ringSides_map]
    intro e he hon
    obtain ⟨e', he', rfl⟩ := List.mem_map.1 he
    exact h2 p hp e' he' x hon (NearPt.refl hr0 x)
  have k1 := (keeps_turn hcs _ _ hoff).2
  rw [List.map_map] at k1
  rw [← k1]
  simp only [Function.comp, List.map_map]
  have k2 := ringCross_near (l := p) (f := fun q => lin c (-s) s c (exactPt q)) (g := fun q => exactPt (f q)) (q := lin c (-s) s c x) (d := d) (hf p hp) (by
    intro e he
    refine farFrom_of_not_near hd fun y hy hn => ?_
    obtain ⟨t, h0, h1, rfl⟩ := hy
    rw [← lin_lineAt] at hn
    exact h2 p hp e he _ ⟨t, h0, h1, rfl⟩ ((near_unturned h3 hn).mono hr))
  exact k2

/-! ## Lines near a point -/

/-- The scan line next to a point. -/
theorem scan_near {d : Int} {min max : Pt} (hd : 0 < d) {scan : List (List IntPoint)} (h : Linear.scanLines d min max = some scan) {x : ℚ}
    (h1 : (min.x : ℚ) ≤ x) (h2 : x ≤ (max.x : ℚ) - d / 2) : ∃ X : Int, [⟨X, max.y⟩, ⟨X, min.y⟩] ∈ scan ∧ |x - X| ≤ d / 2 := by
  have hdq : (0 : ℚ) < d := by exact_mod_cast hd
  obtain ⟨n, hs, hn⟩ := C43_lines d min max hd
  rw [h] at hs
  have hs := Option.some.inj hs
  set k := ⌊(x - min.x) / d + 1 / 2⌋ with hk
  have hk0 : 0 ≤ k := Int.floor_nonneg.2 (add_nonneg (div_nonneg (by linarith) hdq.le) (by norm_num))
  have e1 : ((k : ℚ) - 1 / 2) * d ≤ x - min.x := by
    have := Int.floor_le ((x - min.x) / (d : ℚ) + 1 / 2)
    rw [← hk, ← sub_le_iff_le_add, le_div_iff₀ hdq] at this
    exact this
  have e2 : x - min.x < ((k : ℚ) + 1 / 2) * d := by
    have := Int.lt_floor_add_one ((x - min.x) / (d : ℚ) + 1 / 2)
    rw [← hk, ← lt_sub_iff_add_lt, div_lt_iff₀ hdq] at this
    calc x - min.x < ((k : ℚ) + 1 - 1 / 2) * d := this
      _ = _ := by ring
  obtain ⟨m, hm⟩ : ∃ m : Nat, (m : Int) = k := ⟨k.toNat, Int.toNat_of_nonneg hk0⟩
  refine ⟨min.x + m * d, ?_, ?_⟩
  · rw [hs, List.mem_map]
    refine ⟨m, ?_, rfl⟩
    rw [List.mem_range, hn]
    have : ((min.x + m * d : Int) : ℚ) ≤ max.x := by
      rw [hm]; push_cast; linarith
    exact_mod_cast this
  · rw [hm, abs_le]; push_cast; constructor <;> linarith

/-- The rotation of a pattern: its values of sine and cosine, and how it turns points and turns them back. -/
theorem turning {trig : ℚ → ℚ × ℚ} (ht : TurnsBack trig) (rot : ℚ) : ∃ (s c : ℚ) (f g : Pt → Pt), |c ^ 2 + s ^ 2 - 1| ≤ 1 / 2 ^ 45 ∧ |s| ≤ 2 ∧ |c| ≤ 2 ∧
    (∀ path : Path, pathRotate rot (trig rot).1 (trig rot).2 path = path.map f) ∧ (∀ path : Path, pathRotate (-rot) (trig (-rot)).1 (trig (-rot)).2 path = path.map g) ∧
    (∀ p : Pt, |p.x| ≤ 2 ^ 37 → |p.y| ≤ 2 ^ 37 → NearPt (4 / 5) (exactPt (f p)) (lin c (-s) s c (exactPt p)) ∧
      NearPt (5 / 6) (lin c (-s) s c (exactPt (g p))) (exactPt p)) := by
  by_cases hr : rot = 0
  · subst hr
    refine ⟨0, 1, id, id, by norm_num, by norm_num, by norm_num, fun path => ?_, fun path => ?_, fun p _ _ => ?_⟩
    · rw [C11_zero, List.map_id]
    · rw [neg_zero, C11_zero, List.map_id]
    · have e : lin 1 (-0) 0 1 (exactPt p) = exactPt p := by unfold lin; ext <;> simp
      simp only [id, e]
      exact ⟨NearPt.refl (by norm_num) _, NearPt.refl (by norm_num) _⟩
  · obtain ⟨θ, hs, hc, hs', hc'⟩ := ht rot
    have hacc : Accurate (trig rot).1 (trig rot).2 θ := ⟨hs, hc⟩
    have hacc' : Accurate (trig (-rot)).1 (trig (-rot)).2 (-θ) := ⟨hs', hc'⟩
    obtain ⟨b1, b2, b3, -, -⟩ := accurate_bounds hacc hacc'
    refine ⟨(trig rot).1, (trig rot).2, fun q => q.rotate (trig rot).1 (trig rot).2, fun q => q.rotate (trig (-rot)).1 (trig (-rot)).2, b3, b1, b2, fun path => ?_, fun path => ?_,
      fun p hx hy => ⟨rotate_near hacc (hx.trans (by norm_num)) (hy.trans (by norm_num)), turned_back hacc hacc' hx hy⟩⟩
    · simp only [pathRotate, if_neg hr]
    · simp only [pathRotate, if_neg (neg_ne_zero.2 hr)]

/-- A linear function in a rectangle: away from the border of the rectangle it is away from its values at the corners. -/
theorem rect_value {u v r m : ℚ} {x0 x1 y0 y1 x y : ℚ} (hx0 : x0 + r ≤ x) (hx1 : x ≤ x1 - r) (hy0 : y0 + r ≤ y) (hy1 : y ≤ y1 - r)
    (h00 : m ≤ u * x0 + v * y0) (h10 : m ≤ u * x1 + v * y0) (h11 : m ≤ u * x1 + v * y1) (h01 : m ≤ u * x0 + v * y1) : m + r * (|u| + |v|) ≤ u * x + v * y := by
  rcases abs_cases u with ⟨hu, hu'⟩ | ⟨hu, hu'⟩ <;> rcases abs_cases v with ⟨hv, hv'⟩ | ⟨hv, hv'⟩ <;> rw [hu, hv]
  · nlinarith [mul_le_mul_of_nonneg_left hx0 hu', mul_le_mul_of_nonneg_left hy0 hv']
  · nlinarith [mul_le_mul_of_nonneg_left hx0 hu', mul_le_mul_of_nonpos_left hy1 hv'.le]
  · nlinarith [mul_le_mul_of_nonpos_left hx1 hu'.le, mul_le_mul_of_nonneg_left hy0 hv']
  · nlinarith [mul_le_mul_of_nonpos_left hx1 hu'.le, mul_le_mul_of_nonpos_left hy1 hv'.le]

/-- What is near a turned small part is not far away. -/
theorem turned_small {c s tol : ℚ} (b1 : |s| ≤ 2) (b2 : |c| ≤ 2) (h0 : 0 ≤ tol) (h1 : tol ≤ 2 ^ 30) (f : Pt → Pt) {part : LayerPart} (hp : SmallPart part)
    (hf : ∀ p ∈ part.outline :: part.holes, ∀ q ∈ p, NearPt (4 / 5) (exactPt (f q)) (lin c (-s) s c (exactPt q))) {z : ℚ × ℚ}
    (hz : NearArea enclosedBy tol (partContours ⟨part.outline.map f, part.holes.map fun p => p.map f⟩) z) : |z.1| ≤ 2 ^ 37 ∧ |z.2| ≤ 2 ^ 37 := by
  obtain ⟨y, hy, hzy⟩ := hz
  have hb := touches_box hy (B := 2 ^ 36 + 1) (by
    rw [show (part.outline.map f :: part.holes.map fun p => p.map f) = (part.outline :: part.holes).map fun p => p.map f from rfl]
    intro c' hc' q hq
    obtain ⟨path, hpm, rfl⟩ := List.mem_map.1 hc'
    obtain ⟨q, hqm, rfl⟩ := List.mem_map.1 hq
    have hq2 := hp path hpm q hqm
    have hqx : |(q.x : ℚ)| ≤ 2 ^ 34 := by exact_mod_cast hq2.1
    have hqy : |(q.y : ℚ)| ≤ 2 ^ 34 := by exact_mod_cast hq2.2
    obtain ⟨-, hq3⟩ := hf path hpm q hqm
    generalize f q = r at hq3 ⊢
    simp only [exactPt, lin] at hq3
    have k1 := abs_le_of_sq_le_sq (a := (r.x : ℚ) - (c * q.x + -s * q.y)) (b := 4 / 5) (by nlinarith [sq_nonneg ((r.y : ℚ) - (s * q.x + c * q.y))]) (by norm_num)
    have k2 := abs_le_of_sq_le_sq (a := (r.y : ℚ) - (s * q.x + c * q.y)) (b := 4 / 5) (by nlinarith [sq_nonneg ((r.x : ℚ) - (c * q.x + -s * q.y))]) (by norm_num)
    have m1 : |c * (q.x : ℚ)| ≤ 2 * 2 ^ 34 := by rw [abs_mul]; gcongr
    have m2 : |s * (q.y : ℚ)| ≤ 2 * 2 ^ 34 := by rw [abs_mul]; gcongr
    have m3 : |s * (q.x : ℚ)| ≤ 2 * 2 ^ 34 := by rw [abs_mul]; gcongr
    have m4 : |c * (q.y : ℚ)| ≤ 2 * 2 ^ 34 := by rw [abs_mul]; gcongr
    rw [abs_le] at k1 k2 m1 m2 m3 m4
    rw [abs_le, abs_le]
    norm_num at k1 k2 m1 m2 m3 m4 ⊢
    refine ⟨⟨?_, ?_⟩, ?_, ?_⟩ <;> linarith)
  obtain ⟨-, hzy⟩ := hzy
  have k1 := abs_le_of_sq_le_sq (a := z.1 - y.1) (b := tol) (by nlinarith [sq_nonneg (z.2 - y.2)]) h0
  have k2 := abs_le_of_sq_le_sq (a := z.2 - y.2) (b := tol) (by nlinarith [sq_nonneg (z.1 - y.1)]) h0
  have hb1 := abs_le.1 hb.1
  have hb2 := abs_le.1 hb.2
  rw [abs_le] at k1 k2
  rw [abs_le, abs_le]
  norm_num at k1 k2 hb1 hb2 h1 ⊢
  refine ⟨⟨?_, ?_⟩, ?_, ?_⟩ <;> linarith

/-- A rotated rectangle is in the bounds of its rotated corners: how far a point away from its border is away from the border of the bounds. -/
theorem turned_limits {c s r : ℚ} (h3 : |c ^ 2 + s ^ 2 - 1| ≤ 1 / 2 ^ 45) (b1 : |s| ≤ 2) (b2 : |c| ≤ 2) (hr : 0 ≤ r) (hr' : r ≤ 2 ^ 40) (f : Pt → Pt) {min max : Pt}
    (hmin : |min.x| ≤ 2 ^ 34 ∧ |min.y| ≤ 2 ^ 34) (hmax : |max.x| ≤ 2 ^ 34 ∧ |max.y| ≤ 2 ^ 34)
    (hf : ∀ p : Pt, |p.x| ≤ 2 ^ 37 → |p.y| ≤ 2 ^ 37 → NearPt (4 / 5) (exactPt (f p)) (lin c (-s) s c (exactPt p))) {x : ℚ × ℚ} (hx : InLimits r min max x) :
    let box := pathBounds (List.map f [min, ⟨max.x, min.y⟩, max, ⟨min.x, max.y⟩])
    box.1.x + (r - 1) ≤ (lin c (-s) s c x).1 ∧ (lin c (-s) s c x).1 ≤ box.2.x - (r - 1) ∧
      box.1.y + (r - 1) ≤ (lin c (-s) s c x).2 ∧ (lin c (-s) s c x).2 ≤ box.2.y - (r - 1) := by
  intro box
  have hcorner : ∀ q ∈ [min, ⟨max.x, min.y⟩, max, ⟨min.x, max.y⟩], |q.x| ≤ 2 ^ 34 ∧ |q.y| ≤ 2 ^ 34 := by
    simp only [List.mem_cons, List.not_mem_nil, or_false]
    rintro q (rfl | rfl | rfl | rfl)
    · exact hmin
    · exact ⟨hmax.1, hmin.2⟩
    · exact hmax
    · exact ⟨hmin.1, hmax.2⟩
  have hnear : ∀ q ∈ [min, ⟨max.x, min.y⟩, max, ⟨min.x, max.y⟩], |((f q).x : ℚ) - (c * q.x + -s * q.y)| ≤ 4 / 5 ∧ |((f q).y : ℚ) - (s * q.x + c * q.y)| ≤ 4 / 5 ∧
      |((f q).x : ℚ)| ≤ 2 ^ 37 ∧ |((f q).y : ℚ)| ≤ 2 ^ 37 := by
    intro q hq
    have hq2 := hcorner q hq
    have hqx : |(q.x : ℚ)| ≤ 2 ^ 34 := by exact_mod_cast hq2.1
    have hqy : |(q.y : ℚ)| ≤ 2 ^ 34 := by exact_mod_cast hq2.2
    obtain ⟨-, hq3⟩ := hf q (hq2.1.trans (by norm_num)) (hq2.2.trans (by norm_num))
    generalize f q = r at hq3 ⊢
    simp only [exactPt, lin] at hq3
    have k1 := abs_le_of_sq_le_sq (a := (r.x : ℚ) - (c * q.x + -s * q.y)) (b := 4 / 5) (by nlinarith [sq_nonneg ((r.y : ℚ) - (s * q.x + c * q.y))]) (by norm_num)
    have k2 := abs_le_of_sq_le_sq (a := (r.y : ℚ) - (s * q.x + c * q.y)) (b := 4 / 5) (by nlinarith [sq_nonneg ((r.x : ℚ) - (c * q.x + -s * q.y))]) (by norm_num)
    refine ⟨k1, k2, ?_⟩
    have m1 : |c * (q.x : ℚ)| ≤ 2 * 2 ^ 34 := by rw [abs_mul]; gcongr
    have m2 : |s * (q.y : ℚ)| ≤ 2 * 2 ^ 34 := by rw [abs_mul]; gcongr
    have m3 : |s * (q.x : ℚ)| ≤ 2 * 2 ^ 34 := by rw [abs_mul]; gcongr
    have m4 : |c * (q.y : ℚ)| ≤ 2 * 2 ^ 34 := by rw [abs_mul]; gcongr
    rw [abs_le] at k1 k2 m1 m2 m3 m4
    rw [abs_le, abs_le]
    norm_num at k1 k2 m1 m2 m3 m4 ⊢
    refine ⟨⟨?_, ?_⟩, ?_, ?_⟩ <;> linarith
  have hbox : TightBox (List.map f [min, ⟨max.x, min.y⟩, max, ⟨min.x, max.y⟩]) box := by
    refine C10_path _ (by simp) fun q hq => ?_
    obtain ⟨q, hqm, rfl⟩ := List.mem_map.1 hq
    obtain ⟨-, -, k1, k2⟩ := hnear q hqm
    have k1 : |(f q).x| ≤ 2 ^ 37 := by exact_mod_cast k1
    have k2 : |(f q).y| ≤ 2 ^ 37 := by exact_mod_cast k2
    rw [abs_le] at k1 k2
    norm_num at k1 k2
    unfold Int64Pt minMicrometer maxMicrometer
    omega
  have hsum : 1 - 1 / 2 ^ 45 ≤ |c| + |s| := by
    have h4 := (abs_le.1 h3).1
    refine abs_le_of_sq_le_sq' (a := 1 - 1 / 2 ^ 45) ?_ (by positivity) |>.2
    nlinarith [sq_abs c, sq_abs s, mul_nonneg (abs_nonneg c) (abs_nonneg s)]
  have hrs : r - 1 / 32 ≤ r * (|c| + |s|) := by
    have := mul_le_mul_of_nonneg_left hsum hr
    norm_num at this hr' ⊢
    linarith
  obtain ⟨hx0, hx1, hy0, hy1⟩ := hx
  have e := hbox.encloses
  simp only [List.mem_map, forall_exists_index, and_imp, forall_apply_eq_imp_iff₂] at e
  have corner : ∀ q ∈ [min, ⟨max.x, min.y⟩, max, ⟨min.x, max.y⟩], (box.1.x : ℚ) - 4 / 5 ≤ c * q.x + -s * q.y ∧ -(box.2.x : ℚ) - 4 / 5 ≤ -c * q.x + s * q.y ∧
      (box.1.y : ℚ) - 4 / 5 ≤ s * q.x + c * q.y ∧ -(box.2.y : ℚ) - 4 / 5 ≤ -s * q.x + -c * q.y := by
    intro q hq
    obtain ⟨k1, k2, -, -⟩ := hnear q hq
    obtain ⟨e1, e2, e3, e4⟩ := e q hq
    have e1 : (box.1.x : ℚ) ≤ (f q).x := by exact_mod_cast e1
    have e2 : ((f q).x : ℚ) ≤ box.2.x := by exact_mod_cast e2
    have e3 : (box.1.y : ℚ) ≤ (f q).y := by exact_mod_cast e3
    have e4 : ((f q).y : ℚ) ≤ box.2.y := by exact_mod_cast e4
    rw [abs_le] at k1 k2
    refine ⟨?_, ?_, ?_, ?_⟩ <;> linarith
  obtain ⟨a1, a2, a3, a4⟩ := corner min (by simp)
  obtain ⟨c1, c2, c3, c4⟩ := corner ⟨max.x, min.y⟩ (by simp)
  obtain ⟨d1, d2, d3, d4⟩ := corner max (by simp)
  obtain ⟨g1, g2, g3, g4⟩ := corner ⟨min.x, max.y⟩ (by simp)
  have v1 := rect_value hx0 hx1 hy0 hy1 a1 c1 d1 g1
  have v2 := rect_value hx0 hx1 hy0 hy1 a2 c2 d2 g2
  have v3 := rect_value hx0 hx1 hy0 hy1 a3 c3 d3 g3
  have v4 := rect_value hx0 hx1 hy0 hy1 a4 c4 d4 g4
  simp only [abs_neg] at v1 v2 v3 v4
  rw [add_comm |s|] at v3 v4
  simp only [lin]
  refine ⟨?_, ?_, ?_, ?_⟩ <;> linarith

theorem near_of_abs {d e : ℚ} {p q : ℚ × ℚ} (h1 : |p.1 - q.1| ≤ d) (h2 : |p.2 - q.2| ≤ e) : NearPt (d + e) p q := by
  have d0 := (abs_nonneg _).trans h1
  have e0 := (abs_nonneg _).trans h2
  refine ⟨add_nonneg d0 e0, ?_⟩
  have k1 : (p.1 - q.1) ^ 2 ≤ d ^ 2 := sq_le_sq' (by linarith [(abs_le.1 h1).1]) (abs_le.1 h1).2
  have k2 : (p.2 - q.2) ^ 2 ≤ e ^ 2 := sq_le_sq' (by linarith [(abs_le.1 h2).1]) (abs_le.1 h2).2
  nlinarith [mul_nonneg d0 e0]

theorem turn_onto {c s : ℚ} (h : c ^ 2 + s ^ 2 ≠ 0) (p : ℚ × ℚ) : ∃ q, lin c (-s) s c q = p := by
  refine ⟨((c * p.1 + s * p.2) / (c ^ 2 + s ^ 2), (c * p.2 - s * p.1) / (c ^ 2 + s ^ 2)), ?_⟩
  unfold lin
  ext <;> simp only <;> field_simp <;> ring

/-- A point between two points of a vertical line. -/
theorem through_between {a b : Pt} {X : Int} {lo hi y : ℚ} (h1 : PassesThrough a b X lo) (h2 : PassesThrough a b X hi) (hlo : lo ≤ y) (hhi : y ≤ hi) (hlt : lo < hi) :
    OnSegment (exactPt a) (exactPt b) ((X : ℚ), y) ∧ hi - lo ≤ |(a.y : ℚ) - b.y| := by
  obtain ⟨ax, bx, k1⟩ := h1
  obtain ⟨-, -, k2⟩ := h2
  have on : ∀ {u v : Pt}, u.x = X → v.x = X → (u.y : ℚ) ≤ lo → hi ≤ v.y → OnSegment (exactPt u) (exactPt v) ((X : ℚ), y) := by
    intro u v hu hv h1 h2
    have hp : (0 : ℚ) < v.y - u.y := by linarith
    refine ⟨(y - u.y) / (v.y - u.y), div_nonneg (by linarith) hp.le, (div_le_one hp).2 (by linarith), ?_⟩
    simp only [lineAt, exactPt, hu, hv]
    ext
    · simp
    · simp only
      field_simp
      ring
  rcases k1 with ⟨k1, k1'⟩ | ⟨k1, k1'⟩ <;> rcases k2 with ⟨k2, k2'⟩ | ⟨k2, k2'⟩
  · exact ⟨onSegment_swap (on bx ax k1 k2'), by rw [abs_of_nonneg (by linarith)]; linarith⟩
  · linarith
  · linarith
  · exact ⟨on ax bx k1 k2', by rw [abs_sub_comm, abs_of_nonneg (by linarith)]; linarith⟩

/-- What is turned near to a point which is not far away is not far away, too. -/
theorem unturned_small {c s : ℚ} (h3 : |c ^ 2 + s ^ 2 - 1| ≤ 1 / 2 ^ 45) {a' a : ℚ × ℚ} (h : NearPt (5 / 6) (lin c (-s) s c a') a) (hx : |a.1| ≤ 2 ^ 37) (hy : |a.2| ≤ 2 ^ 37) :
    |a'.1| ≤ 2 ^ 39 ∧ |a'.2| ≤ 2 ^ 39 := by
  have e : lin c (-s) s c (0, 0) = (0, 0) := by unfold lin; simp
  have h1 : NearPt (2 ^ 37 + 2 ^ 37) a (0, 0) := near_of_abs (by simpa using hx) (by simpa using hy)
  have h2 := h.trans h1
  rw [← e] at h2
  obtain ⟨d0, h2⟩ := near_unturned h3 h2
  simp only [sub_zero] at h2
  have b : (5 / 6 + (2 ^ 37 + 2 ^ 37)) * (1 + 1 / 2 ^ 44) ≤ (2 ^ 39 : ℚ) := by norm_num
  exact ⟨(abs_le_of_sq_le_sq (by nlinarith [sq_nonneg a'.2]) d0).trans b, (abs_le_of_sq_le_sq (by nlinarith [sq_nonneg a'.1]) d0).trans b⟩

/-- **C118** A pattern covers its areas: next to each point which is deep enough inside of the part and of the limits of the pattern passes one of the lines,
in half the line distance (and a micrometer for rounding). -/
theorem C118_fill {lib : ClipperLib} {tol : ℚ} (h0 : 0 ≤ tol) (h1 : tol ≤ 2 ^ 30) (hn : NothingOutside enclosedBy lib tol) (ho : OpenClipping lib) (hk : KeepsInside enclosedBy lib)
    {trig : ℚ → ℚ × ℚ} (ht : TurnsBack trig) (p : Linear) (hd : 0 < p.lineDistance) (hd' : p.lineDistance ≤ 2 ^ 34) (hw : 0 ≤ p.lineWidth) (hw' : p.lineWidth ≤ 2 ^ 34)
    (hmin : |p.min.x| ≤ 2 ^ 34 ∧ |p.min.y| ≤ 2 ^ 34) (hmax : |p.max.x| ≤ 2 ^ 34 ∧ |p.max.y| ≤ 2 ^ 34) (layerNr : Nat) {part : LayerPart} (hp : SmallPart part) :
    Yields (p.fill lib trig layerNr part) fun paths => ∀ x,
      Deep (p.lineDistance / 2 + (if p.zigZag then (p.lineWidth : ℚ) / 2 else 0) + 5) (partContours part) x →
      InLimits (p.lineDistance / 2 + (if p.zigZag then (p.lineWidth : ℚ) / 2 else 0) + 5) p.min p.max x →
      ∃ a b, [a, b] ∈ paths ∧ a ≠ b ∧ |b.x - a.x| ≤ 2 ^ 53 ∧ |b.y - a.y| ≤ 2 ^ 53 ∧
        ∃ q, OnSegment (exactPt a) (exactPt b) q ∧ NearPt (p.lineDistance / 2 + 1) x q := by
  obtain ⟨scan, tree, lines, order, hscan, htree, hlines, horder, hfill⟩ := C81_fill p lib ho trig hd layerNr part
  obtain ⟨s, c, f, g, h3, b1, b2, hf, hg, hfg⟩ := turning ht (p.rotation layerNr)
  intro paths hpaths
  rw [hfill, Except.ok.injEq] at hpaths
  subst hpaths
  simp only [hf] at hscan htree
  intro x hdeep hlim
  have hdq : (0 : ℚ) < p.lineDistance := by exact_mod_cast hd
  have hdq' : (p.lineDistance : ℚ) ≤ 2 ^ 34 := by exact_mod_cast hd'
  have hw0 : 0 ≤ (if p.zigZag then p.lineWidth else 0) := by split <;> omega
  have hw1 : (if p.zigZag then p.lineWidth else 0) ≤ 2 ^ 34 := by split; exacts [hw', by norm_num]
  have hm : (if p.zigZag then (p.lineWidth : ℚ) / 2 else 0) = ((if p.zigZag then p.lineWidth else 0 : Int) : ℚ) / 2 := by split <;> simp
  rw [hm] at hdeep hlim
  simp only [hf]
  generalize (if p.zigZag then p.lineWidth else 0) = w at *
  have hwq : (0 : ℚ) ≤ w := by exact_mod_cast hw0
  have hwq' : (w : ℚ) ≤ 2 ^ 34 := by exact_mod_cast hw1
  have hcs : c ^ 2 + s ^ 2 ≠ 0 := by have := (abs_le.1 h3).1; norm_num at this; linarith
  have hfwd : ∀ path ∈ part.outline :: part.holes, ∀ q ∈ path, NearPt (4 / 5) (exactPt (f q)) (lin c (-s) s c (exactPt q)) := by
    intro path hpm q hq
    have := hp path hpm q hq
    exact (hfg q (this.1.trans (by norm_num)) (this.2.trans (by norm_num))).1
  have hlimits := turned_limits h3 b1 b2 (r := p.lineDistance / 2 + w / 2 + 5) (by positivity) (by norm_num at hdq' hwq' ⊢; linarith) f hmin hmax (fun p h1 h2 => (hfg p h1 h2).1) hlim
  generalize hbox : pathBounds (List.map f [p.min, ⟨p.max.x, p.min.y⟩, p.max, ⟨p.min.x, p.max.y⟩]) = box at *
  dsimp only at hlimits
  obtain ⟨l1, l2, l3, l4⟩ := hlimits
  obtain ⟨X, hX, hX'⟩ := scan_near hd hscan (x := (lin c (-s) s c x).1) (by linarith) (by linarith)
  set y := (lin c (-s) s c x).2 with hy
  obtain ⟨a, b, t1, t2, hab⟩ := covered_lines hk (part := ⟨part.outline.map f, part.holes.map fun p => p.map f⟩) htree hlines horder hw0
    (lk := link p.zigZag (p.lineWidth + 2 * p.lineDistance) fun q => (lib.isCrossingPerimeter [⟨part.outline.map f, part.holes.map fun p => p.map f⟩] q).1)
    hX (lo := y - 2) (hi := y + 2) (by linarith) (by linarith) (by linarith) (by
      intro u hu1 hu2
      obtain ⟨z, hz⟩ := turn_onto hcs ((X : ℚ), u)
      rw [← hz]
      refine deep_turned h3 (d := 4 / 5) (by norm_num) f hfwd (r := 3 / 2) (deep_moved (x := x) (d := (p.lineDistance / 2 + (w / 2 + 3)) * (1 + 1 / 2 ^ 44)) ?_ (by norm_num) ?_) (by norm_num)
      · refine ⟨hdeep.1, fun c' hc' y hy hxy => hdeep.2 c' hc' y hy (hxy.mono ?_)⟩
        norm_num at hdq' hwq' ⊢
        linarith
      · refine near_unturned h3 ?_
        rw [hz]
        refine near_of_abs hX' ?_
        rw [abs_le]; constructor <;> simp only <;> linarith)
  obtain ⟨a', b', he, hnear⟩ := woven_near hn ho (part := ⟨part.outline.map f, part.holes.map fun p => p.map f⟩)
    (fun l hl => by obtain ⟨x, rfl⟩ := scanLoop_shape _ _ _ _ _ _ _ hscan l hl; exact ⟨_, _, _, rfl⟩) htree hlines horder hw0 hab
  cases he
  have hsa := turned_small b1 b2 h0 h1 f hp hfwd (hnear (exactPt a) ⟨0, le_rfl, by norm_num, by unfold lineAt; ext <;> simp⟩)
  have hsb := turned_small b1 b2 h0 h1 f hp hfwd (hnear (exactPt b) ⟨1, by norm_num, le_rfl, by unfold lineAt; ext <;> simp⟩)
  have na := (hfg a (by simp only [exactPt] at hsa; exact_mod_cast hsa.1) (by simp only [exactPt] at hsa; exact_mod_cast hsa.2)).2
  have nb := (hfg b (by simp only [exactPt] at hsb; exact_mod_cast hsb.1) (by simp only [exactPt] at hsb; exact_mod_cast hsb.2)).2
  obtain ⟨⟨t, ht0, ht1, hon⟩, hlen⟩ := through_between t1 t2 (y := y) (by linarith) (by linarith) (by linarith)
  have sa := unturned_small h3 na hsa.1 hsa.2
  have sb := unturned_small h3 nb hsb.1 hsb.2
  refine ⟨g a, g b, List.mem_map.2 ⟨[a, b], hab, hg _⟩, fun heq => ?_, ?_, ?_, lineAt (exactPt (g a)) (exactPt (g b)) t, ⟨t, ht0, ht1, rfl⟩, ?_⟩
  · rw [heq] at na
    obtain ⟨-, k⟩ := na.symm.trans nb
    have := abs_le_of_sq_le_sq (a := (a.y : ℚ) - b.y) (b := 5 / 6 + 5 / 6) (by simp only [exactPt] at k; nlinarith [sq_nonneg ((a.x : ℚ) - b.x)]) (by norm_num)
    linarith
  · simp only [exactPt] at sa sb
    have k1 : |(g a).x| ≤ 2 ^ 39 := by exact_mod_cast sa.1
    have k2 : |(g b).x| ≤ 2 ^ 39 := by exact_mod_cast sb.1
    rw [abs_le] at k1 k2 ⊢
    norm_num at k1 k2 ⊢
    omega
  · simp only [exactPt] at sa sb
    have k1 : |(g a).y| ≤ 2 ^ 39 := by exact_mod_cast sa.2
    have k2 : |(g b).y| ≤ 2 ^ 39 := by exact_mod_cast sb.2
    rw [abs_le] at k1 k2 ⊢
    norm_num at k1 k2 ⊢
    omega
  · have n1 := near_lineAt ht0 ht1 na nb
    rw [← lin_lineAt, ← hon] at n1
    have n2 : NearPt (p.lineDistance / 2 + 0) (lin c (-s) s c x) ((X : ℚ), y) := near_of_abs hX' (by simp [hy])
    refine (near_unturned h3 (n2.trans n1.symm)).mono ?_
    norm_num at hdq' ⊢
    linarith

end Verif
