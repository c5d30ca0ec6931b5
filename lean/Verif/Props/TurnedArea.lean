import Verif.Props.Turned
import Verif.Props.Rotation
import Verif.Props.Accuracy
import Verif.Props.Coverage
import Verif.Spec.Outside
import Verif.Spec.PrintArea

/-! # C114: infill lines stay in their areas -/
namespace Verif
open Verif.Model Verif.Go Verif.Spec

/-! ## Closed areas -/

section
variable {inside : List IntPoint → Set (ℚ × ℚ)}

theorem touches_perm {a b : List (List IntPoint)} (h : a.Perm b) {x : ℚ × ℚ} (ht : Touches inside a x) : Touches inside b x := by
  rcases ht with ht | ⟨c, hc, hx⟩
  · exact .inl (by rwa [← evenOdd_perm inside h])
  · exact .inr ⟨c, h.mem_iff.1 hc, hx⟩

theorem nearArea_perm {a b : List (List IntPoint)} (h : a.Perm b) {x : ℚ × ℚ} {tol : ℚ} (ht : NearArea inside tol a x) : NearArea inside tol b x := by
  obtain ⟨y, h1, h2⟩ := ht
  exact ⟨y, touches_perm h h1, h2⟩

theorem NearArea.near {tol d : ℚ} {cs : List (List IntPoint)} {x y : ℚ × ℚ} (h : NearArea inside tol cs y) (hd : NearPt d x y) : NearArea inside (d + tol) cs x := by
  obtain ⟨z, h1, h2⟩ := h
  exact ⟨z, h1, hd.trans h2⟩

theorem NearArea.mono {tol d : ℚ} {cs : List (List IntPoint)} {x : ℚ × ℚ} (h : NearArea inside tol cs x) (hd : tol ≤ d) : NearArea inside d cs x := by
  obtain ⟨z, h1, h2⟩ := h
  exact ⟨z, h1, h2.mono hd⟩

/-- A point of the area of many parts belongs to one of them. -/
theorem touches_append {a b : List (List IntPoint)} {x : ℚ × ℚ} (h : Touches inside (a ++ b) x) : Touches inside a x ∨ Touches inside b x := by
  rcases h with h | ⟨c, hc, hx⟩
  · unfold evenOdd at h
    rw [Set.mem_ofPred_eq, crossings_append, Nat.odd_add] at h
    by_cases ho : Odd (crossings inside a x)
    · exact .inl (.inl ho)
    · refine .inr (.inl ?_)
      unfold evenOdd
      rw [Set.mem_ofPred_eq]
      rw [← Nat.not_even_iff_odd]
      exact fun he => ho (h.2 he)
  · rcases List.mem_append.1 hc with hc | hc
    · exact .inl (.inr ⟨c, hc, hx⟩)
    · exact .inr (.inr ⟨c, hc, hx⟩)

theorem touches_nil {x : ℚ × ℚ} : ¬ Touches inside [] x := by
  rintro (h | ⟨c, hc, -⟩)
  · simp [evenOdd, crossings] at h
  · cases hc

theorem touches_parts {parts : List LayerPart} {x : ℚ × ℚ} (h : Touches inside (parts.flatMap partContours) x) : ∃ p ∈ parts, Touches inside (partContours p) x := by
  induction parts with
  | nil => exact absurd h touches_nil
  | cons p ps ih =>
    rcases touches_append h with h | h
    · exact ⟨p, by simp, h⟩
    · obtain ⟨q, hq, h⟩ := ih h
      exact ⟨q, by simp [hq], h⟩

end

theorem asPath_clipper (p : Path) : asPath (clipperPath p) = p := by
  unfold asPath clipperPath
  rw [List.map_map]
  exact List.map_id' p

theorem partContours_asPath (p : LayerPart) : (partContours p).map asPath = p.outline :: p.holes := by
  unfold partContours
  rw [List.map_map]
  exact (List.map_congr_left fun c _ => asPath_clipper c).trans (List.map_id' _)

theorem pathLines_ring (p : Path) : pathLines false p = ringSides p := by
  cases p with
  | nil => rfl
  | cons a l => simp [pathLines, ringSides]

/-- Inside of a part, and on its border, for the enclosed points. -/
theorem mem_region_ring (p : LayerPart) (x : ℚ × ℚ) : x ∈ evenOdd enclosedBy (partContours p) ↔
    ((p.outline :: p.holes).map fun c => ringCross x (c.map exactPt)).sum = 1 := by
  have := evenOdd_enclosedBy (p.outline :: p.holes) x
  rw [show clipperPaths (p.outline :: p.holes) = partContours p from rfl] at this
  rw [this, insidePaths_iff, List.map_congr_left fun c _ => pathCross_ring x c]

theorem onContour_part {p : LayerPart} {x : ℚ × ℚ} : (∃ c ∈ partContours p, OnPath false (asPath c) x) ↔ ∃ c ∈ p.outline :: p.holes, OnPath false c x := by
  rw [← partContours_asPath]
  simp

/-- A point of a closed area is not outside of a half plane which contains its contours. -/
theorem touches_half {p : LayerPart} {x : ℚ × ℚ} (h : Touches enclosedBy (partContours p) x) {u v w : ℚ}
    (hp : ∀ c ∈ p.outline :: p.holes, ∀ q ∈ c, u * (exactPt q).1 + v * (exactPt q).2 ≤ w) : u * x.1 + v * x.2 ≤ w := by
  by_contra hc
  rw [not_le] at hc
  rcases h with h | h
  · rw [mem_region_ring] at h
    have : ∀ c ∈ p.outline :: p.holes, ringCross x (c.map exactPt) = 0 := by
      intro c hcm
      rw [← pathCross_ring]
      refine pathCross_side (u := -u) (v := -v) fun q hq => ?_
      have := hp c hcm q hq
      unfold Side
      linarith
    rw [List.map_congr_left this] at h
    simp at h
  · obtain ⟨c, hcm, a, b, hab, t, h0, h1, rfl⟩ := onContour_part.1 h
    rw [pathLines_ring] at hab
    have hm := List.of_mem_zip hab
    have ha := hp c hcm a hm.1
    have hb := hp c hcm b (List.mem_rotate.1 hm.2)
    simp only [lineAt] at hc
    nlinarith [mul_le_mul_of_nonneg_left hb h0, mul_le_mul_of_nonneg_left ha (sub_nonneg.2 h1)]

theorem touches_box {p : LayerPart} {x : ℚ × ℚ} (h : Touches enclosedBy (partContours p) x) {B : ℚ}
    (hp : ∀ c ∈ p.outline :: p.holes, ∀ q ∈ c, |(q.x : ℚ)| ≤ B ∧ |(q.y : ℚ)| ≤ B) : |x.1| ≤ B ∧ |x.2| ≤ B := by
  have hp' : ∀ c ∈ p.outline :: p.holes, ∀ q ∈ c, (-B ≤ (exactPt q).1 ∧ (exactPt q).1 ≤ B) ∧ (-B ≤ (exactPt q).2 ∧ (exactPt q).2 ≤ B) :=
    fun c hc q hq => ⟨abs_le.1 (hp c hc q hq).1, abs_le.1 (hp c hc q hq).2⟩
  have h1 := touches_half h (u := 1) (v := 0) (w := B) fun c hc q hq => by linarith [(hp' c hc q hq).1.2]
  have h2 := touches_half h (u := -1) (v := 0) (w := B) fun c hc q hq => by linarith [(hp' c hc q hq).1.1]
  have h3 := touches_half h (u := 0) (v := 1) (w := B) fun c hc q hq => by linarith [(hp' c hc q hq).2.2]
  have h4 := touches_half h (u := 0) (v := -1) (w := B) fun c hc q hq => by linarith [(hp' c hc q hq).2.1]
  rw [abs_le, abs_le]
  refine ⟨⟨?_, ?_⟩, ?_, ?_⟩ <;> linarith

/-- Points of lines with near ends are near. -/
theorem near_lineAt {d t : ℚ} {a b a' b' : ℚ × ℚ} (h0 : 0 ≤ t) (h1 : t ≤ 1) (ha : NearPt d a a') (hb : NearPt d b b') : NearPt d (lineAt a b t) (lineAt a' b' t) := by
  refine ⟨ha.1, ?_⟩
  obtain ⟨hd, ha⟩ := ha
  obtain ⟨-, hb⟩ := hb
  have e : ((lineAt a b t).1 - (lineAt a' b' t).1) ^ 2 + ((lineAt a b t).2 - (lineAt a' b' t).2) ^ 2 =
      (1 - t) * ((a.1 - a'.1) ^ 2 + (a.2 - a'.2) ^ 2) + t * ((b.1 - b'.1) ^ 2 + (b.2 - b'.2) ^ 2) -
        t * (1 - t) * (((a.1 - a'.1) - (b.1 - b'.1)) ^ 2 + ((a.2 - a'.2) - (b.2 - b'.2)) ^ 2) := by
    unfold lineAt; ring
  have := mul_nonneg (mul_nonneg h0 (sub_nonneg.2 h1)) (add_nonneg (sq_nonneg ((a.1 - a'.1) - (b.1 - b'.1))) (sq_nonneg ((a.2 - a'.2) - (b.2 - b'.2))))
  rw [e]
  nlinarith [mul_le_mul_of_nonneg_left ha (sub_nonneg.2 h1), mul_le_mul_of_nonneg_left hb h0]

/-- **C114** What is in the area of a turned part is the image of something in the part: if the points of the contours are moved by at most `d` from their images under a rotation
(with any scale), then each point of the closed area of the moved part is within `2 * d` of the image of a point of the closed area of the part. -/
theorem C114_turned {c s d : ℚ} (hcs : 0 < c ^ 2 + s ^ 2) (hd : 0 ≤ d) (f : Pt → Pt) {part : LayerPart}
    (hf : ∀ p ∈ part.outline :: part.holes, ∀ q ∈ p, NearPt d (exactPt (f q)) (lin c (-s) s c (exactPt q))) {z : ℚ × ℚ}
    (hz : Touches enclosedBy (partContours ⟨part.outline.map f, part.holes.map fun p => p.map f⟩) z) :
    ∃ y, Touches enclosedBy (partContours part) y ∧ NearPt (2 * d) z (lin c (-s) s c y) := by
  by_cases hfar : ∀ p ∈ part.outline :: part.holes, ∀ e ∈ ringSides p, FarFrom d (exactPt (f e.1)) (exactPt (f e.2)) z
  · -- far from the border the same points are enclosed
    set M := lin c (-s) s c with hM
    set y := lin (c / (c ^ 2 + s ^ 2)) (s / (c ^ 2 + s ^ 2)) (-s / (c ^ 2 + s ^ 2)) (c / (c ^ 2 + s ^ 2)) z with hy
    have hMy : M y = z := by
      rw [hM, hy]
      unfold lin
      ext <;> simp only <;> field_simp <;> ring
    rcases hz with hz | hz
    · by_cases hoff : ∀ p ∈ part.outline :: part.holes, OffRing y (p.map exactPt)
      · refine ⟨y, .inl ?_, by rw [hMy]; exact NearPt.refl (by linarith) _⟩
        rw [mem_region_ring] at hz ⊢
        rw [← hz]
        rw [show (part.outline.map f :: part.holes.map fun p => p.map f) = (part.outline :: part.holes).map fun p => p.map f from rfl, List.map_map]
        refine congrArg List.sum (List.map_congr_left fun p hp => ?_)
        have h1 := (keeps_turn hcs _ _ (hoff p hp)).2
        rw [← hM, hMy, List.map_map] at h1
        rw [← h1]
        simp only [Function.comp, List.map_map]
        have h2 := ringCross_near (l := p) (f := fun q => exactPt (f q)) (g := fun q => M (exactPt q)) (q := z) (d := d)
          (fun q hq => (hf p hp q hq).symm) (hfar p hp)
        exact h2
      · rw [not_forall] at hoff
        obtain ⟨p, hoff⟩ := hoff
        rw [Classical.not_imp] at hoff
        obtain ⟨hp, hoff⟩ := hoff
        unfold OffRing at hoff
        rw [not_forall] at hoff
        obtain ⟨e, hoff⟩ := hoff
        rw [Classical.not_imp, not_not, ringSides_map] at hoff
        obtain ⟨he, hon⟩ := hoff
        obtain ⟨e', he', rfl⟩ := List.mem_map.1 he
        refine ⟨y, .inr (onContour_part.2 ⟨p, hp, e'.1, e'.2, ?_, hon⟩), by rw [hMy]; exact NearPt.refl (by linarith) _⟩
        rw [pathLines_ring]
        exact he'
    · -- impossible, but also near the border
      obtain ⟨p, hp, a, b, hab, t, h0, h1, rfl⟩ := onContour_part.1 hz
      rw [show (part.outline.map f :: part.holes.map fun p => p.map f) = (part.outline :: part.holes).map fun p => p.map f from rfl] at hp
      obtain ⟨p', hp', rfl⟩ := List.mem_map.1 hp
      rw [pathLines_ring, ringSides_map] at hab
      obtain ⟨e, he, hab⟩ := List.mem_map.1 hab
      obtain ⟨rfl, rfl⟩ := Prod.ext_iff.1 hab
      have := hfar p' hp' e he t h0 h1
      simp only [lineAt] at this
      nlinarith
  · rw [not_forall] at hfar
    obtain ⟨p, hfar⟩ := hfar
    rw [Classical.not_imp] at hfar
    obtain ⟨hp, hfar⟩ := hfar
    rw [not_forall] at hfar
    obtain ⟨e, hfar⟩ := hfar
    rw [Classical.not_imp] at hfar
    obtain ⟨he, hfar⟩ := hfar
    unfold FarFrom at hfar
    simp only [not_forall, not_lt, exists_prop] at hfar
    obtain ⟨t, h0, h1, hn⟩ := hfar
    have hm := List.of_mem_zip he
    refine ⟨lineAt (exactPt e.1) (exactPt e.2) t, .inr (onContour_part.2 ⟨p, hp, e.1, e.2, by rw [pathLines_ring]; exact he, t, h0, h1, rfl⟩), ?_⟩
    rw [lin_lineAt, two_mul]
    have hn' : NearPt d (lineAt (exactPt (f e.1)) (exactPt (f e.2)) t) z := ⟨hd, by unfold lineAt; exact hn⟩
    exact hn'.symm.trans (near_lineAt h0 h1 (hf p hp _ hm.1) (hf p hp _ (List.mem_rotate.1 hm.2)))

/-! ## Rotation by float arithmetic -/

/-- The values of sine and cosine are accurate. -/
def Accurate (s c : ℚ) (θ : ℝ) : Prop := |(s : ℝ) - Real.sin θ| ≤ 1 / 2 ^ 48 ∧ |(c : ℝ) - Real.cos θ| ≤ 1 / 2 ^ 48

theorem rotate_near {s c : ℚ} {θ : ℝ} (h : Accurate s c θ) {p : Pt} (hx : |p.x| ≤ 2 ^ 40) (hy : |p.y| ≤ 2 ^ 40) :
    NearPt (4 / 5) (exactPt (p.rotate s c)) (lin c (-s) s c (exactPt p)) := by
  obtain ⟨hs, hc⟩ := h
  obtain ⟨px, py⟩ := p
  simp only at hx hy
  have hS := Real.abs_sin_le_one θ
  have hC := Real.abs_cos_le_one θ
  have hneg : |((-s : ℚ) : ℝ) - (-Real.sin θ)| ≤ 1 / 2 ^ 48 := by
    rw [← abs_neg]; push_cast; convert hs using 2; ring
  have a1 := rotate_coord_err px py c (-s) _ _ hx hy hc hneg hC (by rwa [abs_neg])
  have a2 := rotate_coord_err px py s c _ _ hx hy hs hc hS hC
  have hr1 : (⟨px, py⟩ : Pt).rotate s c = ⟨roundEven (r64 (r64 (r64 (px : ℚ) * c) + r64 (r64 (py : ℚ) * (-s)))),
      roundEven (r64 (r64 (r64 (px : ℚ) * s) + r64 (r64 (py : ℚ) * c)))⟩ := by
    simp only [Pt.rotate, mul_neg, r64_neg, sub_eq_add_neg]
  rw [hr1]
  generalize roundEven (r64 (r64 (r64 (px : ℚ) * c) + r64 (r64 (py : ℚ) * (-s)))) = X at *
  generalize roundEven (r64 (r64 (r64 (px : ℚ) * s) + r64 (r64 (py : ℚ) * c))) = Y at *
  have mul : ∀ (a : Int) (u U : ℝ), |a| ≤ 2 ^ 40 → |u - U| ≤ 1 / 2 ^ 48 → |(a : ℝ) * u - a * U| ≤ 1 / 2 ^ 8 := by
    intro a u U ha hu
    rw [← mul_sub, abs_mul]
    have : |(a : ℝ)| ≤ 2 ^ 40 := by exact_mod_cast ha
    calc |(a : ℝ)| * |u - U| ≤ 2 ^ 40 * (1 / 2 ^ 48) := by gcongr
      _ = 1 / 2 ^ 8 := by norm_num
  have m1 := mul px _ _ hx hc
  have m2 := mul py _ _ hy hneg
  have m3 := mul px _ _ hx hs
  have m4 := mul py _ _ hy hc
  have b1 : |(X : ℝ) - (px * c + py * (-s : ℚ))| ≤ 69 / 128 := by
    rw [abs_le] at *
    norm_num at *
    constructor <;> linarith
  have b2 : |(Y : ℝ) - (px * s + py * c)| ≤ 69 / 128 := by
    rw [abs_le] at *
    norm_num at *
    constructor <;> linarith
  have c1 : |(X : ℚ) - (px * c + py * (-s))| ≤ 69 / 128 := (Rat.cast_le (K := ℝ)).1 (by push_cast at b1 ⊢; exact b1)
  have c2 : |(Y : ℚ) - (px * s + py * c)| ≤ 69 / 128 := (Rat.cast_le (K := ℝ)).1 (by push_cast at b2 ⊢; exact b2)
  have d1 := sq_le_sq' (abs_le.1 c1).1 (abs_le.1 c1).2
  have d2 := sq_le_sq' (abs_le.1 c2).1 (abs_le.1 c2).2
  refine ⟨by norm_num, ?_⟩
  simp only [exactPt, lin]
  have e1 : ((X : ℚ) - (c * px + -s * py)) ^ 2 = ((X : ℚ) - (px * c + py * (-s))) ^ 2 := by ring
  have e2 : ((Y : ℚ) - (s * px + c * py)) ^ 2 = ((Y : ℚ) - (px * s + py * c)) ^ 2 := by ring
  rw [e1, e2]
  norm_num at d1 d2 ⊢
  linarith

/-- Rational consequences of accurate values for an angle and the opposite angle. -/
theorem accurate_bounds {s c s' c' : ℚ} {θ : ℝ} (h : Accurate s c θ) (h' : Accurate s' c' (-θ)) :
    |s| ≤ 2 ∧ |c| ≤ 2 ∧ |c ^ 2 + s ^ 2 - 1| ≤ 1 / 2 ^ 45 ∧ |c' - c| ≤ 1 / 2 ^ 47 ∧ |s' + s| ≤ 1 / 2 ^ 47 := by
  obtain ⟨hs, hc⟩ := h
  obtain ⟨hs', hc'⟩ := h'
  rw [Real.sin_neg] at hs'
  rw [Real.cos_neg] at hc'
  have hS := abs_le.1 (Real.abs_sin_le_one θ)
  have hC := abs_le.1 (Real.abs_cos_le_one θ)
  have hsq : Real.sin θ ^ 2 + Real.cos θ ^ 2 = 1 := Real.sin_sq_add_cos_sq θ
  generalize Real.sin θ = S at *
  generalize Real.cos θ = C at *
  have r1 : |(s : ℝ)| ≤ 2 := by rw [abs_le] at *; norm_num at *; constructor <;> linarith
  have r2 : |(c : ℝ)| ≤ 2 := by rw [abs_le] at *; norm_num at *; constructor <;> linarith
  have r4 : |(c' : ℝ) - c| ≤ 1 / 2 ^ 47 := by rw [abs_le] at *; norm_num at *; constructor <;> linarith
  have r5 : |(s' : ℝ) + s| ≤ 1 / 2 ^ 47 := by rw [abs_le] at *; norm_num at *; constructor <;> linarith
  have r3 : |(c : ℝ) ^ 2 + s ^ 2 - 1| ≤ 1 / 2 ^ 45 := by
    have e : (c : ℝ) ^ 2 + s ^ 2 - 1 = (c - C) * (c + C) + (s - S) * (s + S) := by linear_combination hsq
    rw [e]
    have k1 : |((c : ℝ) - C) * (c + C)| ≤ 1 / 2 ^ 48 * 3 := by
      rw [abs_mul]
      have : |(c : ℝ) + C| ≤ 3 := by rw [abs_le] at *; norm_num at *; constructor <;> linarith
      gcongr
    have k2 : |((s : ℝ) - S) * (s + S)| ≤ 1 / 2 ^ 48 * 3 := by
      rw [abs_mul]
      have : |(s : ℝ) + S| ≤ 3 := by rw [abs_le] at *; norm_num at *; constructor <;> linarith
      gcongr
    refine (abs_add_le _ _).trans ?_
    norm_num at *
    linarith
  exact ⟨by exact_mod_cast r1, by exact_mod_cast r2, (Rat.cast_le (K := ℝ)).1 (by push_cast; exact r3),
    (Rat.cast_le (K := ℝ)).1 (by push_cast; exact r4), (Rat.cast_le (K := ℝ)).1 (by push_cast; exact r5)⟩

/-- Turning a point back and forth again. -/
theorem turned_back {s c s' c' : ℚ} {θ : ℝ} (h : Accurate s c θ) (h' : Accurate s' c' (-θ)) {p : Pt} (hx : |p.x| ≤ 2 ^ 37) (hy : |p.y| ≤ 2 ^ 37) :
    NearPt (5 / 6) (lin c (-s) s c (exactPt (p.rotate s' c'))) (exactPt p) := by
  obtain ⟨h1, h2, h3, h4, h5⟩ := accurate_bounds h h'
  have hr := rotate_near h' (p := p) (hx.trans (by norm_num)) (hy.trans (by norm_num))
  generalize exactPt (p.rotate s' c') = a at *
  have hxq : |(exactPt p).1| ≤ 2 ^ 37 := by simp only [exactPt]; exact_mod_cast hx
  have hyq : |(exactPt p).2| ≤ 2 ^ 37 := by simp only [exactPt]; exact_mod_cast hy
  generalize exactPt p = r at *
  -- the image of the error of the first rotation
  have n1 : NearPt (81 / 100) (lin c (-s) s c a) (lin c (-s) s c (lin c' (-s') s' c' r)) := by
    refine ⟨by norm_num, ?_⟩
    generalize lin c' (-s') s' c' r = b at *
    obtain ⟨-, hr⟩ := hr
    have e : ((lin c (-s) s c a).1 - (lin c (-s) s c b).1) ^ 2 + ((lin c (-s) s c a).2 - (lin c (-s) s c b).2) ^ 2 =
        (c ^ 2 + s ^ 2) * ((a.1 - b.1) ^ 2 + (a.2 - b.2) ^ 2) := by unfold lin; ring
    rw [e]
    have h3' := (abs_le.1 h3).2
    calc (c ^ 2 + s ^ 2) * ((a.1 - b.1) ^ 2 + (a.2 - b.2) ^ 2) ≤ (1 + 1 / 2 ^ 45) * (4 / 5) ^ 2 := by
          apply mul_le_mul (by linarith) hr (by positivity) (by positivity)
      _ ≤ (81 / 100) ^ 2 := by norm_num
  have n2 : NearPt (1 / 50) (lin c (-s) s c (lin c' (-s') s' c' r)) r := by
    refine ⟨by norm_num, ?_⟩
    have hA : |c * c' - s * s' - 1| ≤ 1 / 2 ^ 44 := by
      have e : c * c' - s * s' - 1 = (c ^ 2 + s ^ 2 - 1) + c * (c' - c) - s * (s' + s) := by ring
      rw [e]
      have k1 : |c * (c' - c)| ≤ 2 * (1 / 2 ^ 47) := by rw [abs_mul]; gcongr
      have k2 : |s * (s' + s)| ≤ 2 * (1 / 2 ^ 47) := by rw [abs_mul]; gcongr
      rw [abs_le] at *
      norm_num at *
      constructor <;> linarith
    have hB : |s * c' + c * s'| ≤ 1 / 2 ^ 45 := by
      have e : s * c' + c * s' = s * (c' - c) + c * (s' + s) := by ring
      rw [e]
      have k1 : |s * (c' - c)| ≤ 2 * (1 / 2 ^ 47) := by rw [abs_mul]; gcongr
      have k2 : |c * (s' + s)| ≤ 2 * (1 / 2 ^ 47) := by rw [abs_mul]; gcongr
      rw [abs_le] at *
      norm_num at *
      constructor <;> linarith
    have e1 : (lin c (-s) s c (lin c' (-s') s' c' r)).1 - r.1 = (c * c' - s * s' - 1) * r.1 - (s * c' + c * s') * r.2 := by unfold lin; ring
    have e2 : (lin c (-s) s c (lin c' (-s') s' c' r)).2 - r.2 = (s * c' + c * s') * r.1 + (c * c' - s * s' - 1) * r.2 := by unfold lin; ring
    rw [e1, e2]
    have m1 : |(c * c' - s * s' - 1) * r.1| ≤ 1 / 2 ^ 44 * 2 ^ 37 := by rw [abs_mul]; gcongr
    have m2 : |(s * c' + c * s') * r.2| ≤ 1 / 2 ^ 45 * 2 ^ 37 := by rw [abs_mul]; gcongr
    have m3 : |(s * c' + c * s') * r.1| ≤ 1 / 2 ^ 45 * 2 ^ 37 := by rw [abs_mul]; gcongr
    have m4 : |(c * c' - s * s' - 1) * r.2| ≤ 1 / 2 ^ 44 * 2 ^ 37 := by rw [abs_mul]; gcongr
    have q1 : ((c * c' - s * s' - 1) * r.1 - (s * c' + c * s') * r.2) ^ 2 ≤ (3 / 256) ^ 2 := by
      apply sq_le_sq' <;> rw [abs_le] at m1 m2 <;> norm_num at * <;> linarith
    have q2 : ((s * c' + c * s') * r.1 + (c * c' - s * s' - 1) * r.2) ^ 2 ≤ (3 / 256) ^ 2 := by
      apply sq_le_sq' <;> rw [abs_le] at m3 m4 <;> norm_num at * <;> linarith
    norm_num at q1 q2 ⊢
    linarith
  exact (n1.trans n2).mono (by norm_num)

/-- Distances are nearly the same after an accurate rotation. -/
theorem near_unturned {s c d : ℚ} (h3 : |c ^ 2 + s ^ 2 - 1| ≤ 1 / 2 ^ 45) {p q : ℚ × ℚ} (h : NearPt d (lin c (-s) s c p) (lin c (-s) s c q)) :
    NearPt (d * (1 + 1 / 2 ^ 44)) p q := by
  obtain ⟨hd, h⟩ := h
  refine ⟨mul_nonneg hd (by norm_num), ?_⟩
  have e : ((lin c (-s) s c p).1 - (lin c (-s) s c q).1) ^ 2 + ((lin c (-s) s c p).2 - (lin c (-s) s c q).2) ^ 2 =
      (c ^ 2 + s ^ 2) * ((p.1 - q.1) ^ 2 + (p.2 - q.2) ^ 2) := by unfold lin; ring
  rw [e] at h
  generalize (p.1 - q.1) ^ 2 + (p.2 - q.2) ^ 2 = D at *
  have hn : 1 - 1 / 2 ^ 45 ≤ c ^ 2 + s ^ 2 := by linarith [(abs_le.1 h3).1]
  generalize c ^ 2 + s ^ 2 = n at *
  have hn0 : 0 < n := lt_of_lt_of_le (by norm_num) hn
  have h1 : 1 ≤ n * (1 + 1 / 2 ^ 44) ^ 2 := by
    calc (1 : ℚ) ≤ (1 - 1 / 2 ^ 45) * (1 + 1 / 2 ^ 44) ^ 2 := by norm_num
      _ ≤ n * (1 + 1 / 2 ^ 44) ^ 2 := by gcongr
  rw [mul_pow]
  have h2 : n * D ≤ n * (d ^ 2 * (1 + 1 / 2 ^ 44) ^ 2) := by nlinarith [sq_nonneg d]
  exact le_of_mul_le_mul_left h2 hn0

end Verif
