import Verif.Model.Machine
import Verif.Props.Units
import Verif.Props.Polyline

/-! # C02 and C74: what int64 overflow does to the length tests and to the polyline reduction -/
namespace Verif
open Verif.Go Verif.Model Verif.Spec

theorem wrap_of_lt {n : Int} (h1 : -2 ^ 63 ≤ n) (h2 : n < 2 ^ 63) : wrap n = n := by
  unfold wrap; rw [Int.bmod_eq_of_le] <;> omega

theorem wrap_of_abs {n b : Int} (h : |n| ≤ b) (hb : b < 2 ^ 63) : wrap n = n := by
  rw [abs_le] at h; exact wrap_of_lt (by omega) (by omega)

theorem mul_self_bounds {a b : Int} (h : |a| ≤ b) : 0 ≤ a * a ∧ a * a ≤ b * b := by
  rw [abs_le] at h
  exact ⟨mul_self_nonneg a, by nlinarith [h.1, h.2]⟩

theorem size2M_eq (p : Pt) (hx : |p.x| < 2 ^ 30) (hy : |p.y| < 2 ^ 30) : size2M p = p.size2 := by
  have h1 := mul_self_bounds hx.le
  have h2 := mul_self_bounds hy.le
  unfold size2M Pt.size2
  rw [wrap_of_lt (n := p.x * p.x), wrap_of_lt (n := p.y * p.y), wrap_of_lt] <;> omega

/-- **C02** With int64 arithmetic the length test of points is the Euclidean one for coordinates and limits below `2^30` µm (1 km). -/
theorem C02_int64_point (p : Pt) (l : Int) (hx : |p.x| < 2 ^ 30) (hy : |p.y| < 2 ^ 30) (hl : |l| < 2 ^ 30) :
    shorterThanOrEqualM p l = true ↔ euclid2 p.x p.y ≤ l := by
  rw [← C02_point]
  have h := mul_self_bounds hl.le
  rw [abs_lt] at hl
  unfold shorterThanOrEqualM Pt.shorterThanOrEqual
  rw [size2M_eq p hx hy, wrap_of_lt (n := -l), wrap_of_lt (n := l * l)] <;> omega

/-- **C02** The same for 3d vectors. -/
theorem C02_int64_vec3 (v : Vec3) (l : Int) (hx : |v.x| < 2 ^ 30) (hy : |v.y| < 2 ^ 30) (hz : |v.z| < 2 ^ 30)
    (hl : |l| < 2 ^ 30) (hl0 : 0 ≤ l) : shorterThanOrEqualM3 v l = true ↔ euclid3 v.x v.y v.z ≤ l := by
  rw [← C02_vec3 v l hl0]
  have h := mul_self_bounds hl.le
  have h1 := mul_self_bounds hx.le
  have h2 := mul_self_bounds hy.le
  have h3 := mul_self_bounds hz.le
  unfold shorterThanOrEqualM3 Vec3.shorterThanOrEqual size2M3 Vec3.size2
  rw [wrap_of_lt (n := v.x * v.x), wrap_of_lt (n := v.y * v.y), wrap_of_lt (n := v.z * v.z), wrap_of_lt (n := l * l),
    wrap_of_lt (n := v.x * v.x + v.y * v.y), wrap_of_lt] <;> omega

/-- **C02** Beyond that range the answer can be wrong: the limit `2^32` squares to 0, so that not even a vector of length 1 is accepted. -/
theorem C02_int64_limit :
    shorterThanOrEqualM ⟨1, 0⟩ 4294967296 = false ∧ euclid2 1 0 ≤ (4294967296 : Int) := by
  constructor
  · decide +kernel
  · rw [← C02_point ⟨1, 0⟩]; decide +kernel

example : |(123456 : Int)| < 2 ^ 30 := by norm_num

/-! ## C74 -/

/-- The largest integer whose square is below `2^63`. As a squared distance in µm² it belongs to 55.1089 mm. -/
def safe : Int := 3037000499

/-- Any two points are at most 55.1089 mm apart (squared distance at most `safe`). -/
def SmallPath (l : Path) : Prop := ∀ p ∈ l, ∀ q ∈ l, (p.x - q.x) ^ 2 + (p.y - q.y) ^ 2 ≤ safe

theorem coords_of_size2 {x y b n : Int} (h : x ^ 2 + y ^ 2 ≤ b) (hb : b < n * n) (hn : 0 ≤ n) : |x| < n ∧ |y| < n := by
  constructor <;> rw [abs_lt] <;> constructor <;> nlinarith [sq_nonneg x, sq_nonneg y]

theorem subM_eq (p q : Pt) (hx : |p.x - q.x| < 2 ^ 30) (hy : |p.y - q.y| < 2 ^ 30) : subM p q = p.sub q := by
  unfold subM Pt.sub
  rw [wrap_of_abs hx.le (by norm_num), wrap_of_abs hy.le (by norm_num)]

theorem mul_bounds {a b c d : Int} (h : |a| ≤ b) (h' : |c| ≤ d) : -(b * d) ≤ a * c ∧ a * c ≤ b * d := by
  rw [← abs_le, abs_mul]
  exact mul_le_mul h h' (abs_nonneg _) ((abs_nonneg a).trans h)

theorem perpendicularDistance2_le (a b p : Pt) : perpendicularDistance2 a b p ≤ (p.sub a).size2 := by
  unfold perpendicularDistance2
  simp only
  split
  · exact le_rfl
  · have h1 := size2_nonneg (p.sub a)
    have h2 := size2_nonneg (b.sub a)
    have h3 : 0 ≤ (dotProduct (b.sub a) (p.sub a) * dotProduct (b.sub a) (p.sub a)).tdiv (b.sub a).size2 :=
      Int.tdiv_nonneg (mul_self_nonneg _) h2
    unfold maxM; split <;> omega

theorem dotProductM_eq (u v : Pt) (hux : |u.x| < 2 ^ 30) (huy : |u.y| < 2 ^ 30) (hvx : |v.x| < 2 ^ 30) (hvy : |v.y| < 2 ^ 30) :
    dotProductM u v = dotProduct u v := by
  have m1 := mul_bounds hux.le hvx.le
  have m2 := mul_bounds huy.le hvy.le
  unfold dotProductM dotProduct
  rw [wrap_of_lt (n := u.x * v.x), wrap_of_lt (n := u.y * v.y), wrap_of_lt] <;> omega

/-- For coordinates below `2^30` the distance is computed correctly if the square of the dot product fits. -/
theorem perpendicularDistance2M_eq (a b p : Pt) (hbx : |b.x - a.x| < 2 ^ 30) (hby : |b.y - a.y| < 2 ^ 30)
    (hpx : |p.x - a.x| < 2 ^ 30) (hpy : |p.y - a.y| < 2 ^ 30)
    (hdot : ((b.x - a.x) * (p.x - a.x) + (b.y - a.y) * (p.y - a.y)) ^ 2 < 2 ^ 63) :
    perpendicularDistance2M a b p = perpendicularDistance2 a b p := by
  unfold perpendicularDistance2M perpendicularDistance2
  rw [subM_eq b a hbx hby, subM_eq p a hpx hpy]
  have e1 : (b.sub a).x = b.x - a.x := rfl
  have e2 : (b.sub a).y = b.y - a.y := rfl
  have e3 : (p.sub a).x = p.x - a.x := rfl
  have e4 : (p.sub a).y = p.y - a.y := rfl
  rw [← e1] at hbx; rw [← e2] at hby; rw [← e3] at hpx; rw [← e4] at hpy
  rw [← e1, ← e2, ← e3, ← e4] at hdot
  generalize b.sub a = u at *
  generalize p.sub a = v at *
  have k1 := size2M_eq u hbx hby
  have k2 := size2M_eq v hpx hpy
  have s1 := mul_self_bounds hpx.le
  have s2 := mul_self_bounds hpy.le
  have k3 := dotProductM_eq u v hbx hby hpx hpy
  have hd : dotProduct u v * dotProduct u v < 2 ^ 63 := by unfold dotProduct; rw [← pow_two]; exact hdot
  have hd0 := mul_self_nonneg (dotProduct u v)
  have hdd2 : wrap (dotProduct u v * dotProduct u v) = dotProduct u v * dotProduct u v := wrap_of_lt (by omega) (by omega)
  have hu := size2_nonneg u
  have hv : 0 ≤ v.size2 ∧ v.size2 ≤ 2 ^ 61 := by unfold Pt.size2; omega
  have hq : 0 ≤ (dotProduct u v * dotProduct u v).tdiv u.size2 ∧
      (dotProduct u v * dotProduct u v).tdiv u.size2 ≤ dotProduct u v * dotProduct u v := by
    constructor
    · exact Int.tdiv_nonneg hd0 hu
    · rw [Int.tdiv_eq_ediv_of_nonneg hd0]; exact Int.ediv_le_self _ hd0
  simp only [k1, k2, k3, hdd2]
  rw [wrap_of_lt (n := (dotProduct u v * dotProduct u v).tdiv u.size2), wrap_of_lt] <;> omega

/-- The square of the dot product of two vectors of a small path fits. -/
theorem dot_fits {a b c d : Int} (h1 : a ^ 2 + b ^ 2 ≤ safe) (h2 : c ^ 2 + d ^ 2 ≤ safe) : (a * c + b * d) ^ 2 < 2 ^ 63 := by
  have h3 : (a * c + b * d) ^ 2 ≤ (a ^ 2 + b ^ 2) * (c ^ 2 + d ^ 2) := by nlinarith [sq_nonneg (a * d - b * c)]
  have h4 : (a ^ 2 + b ^ 2) * (c ^ 2 + d ^ 2) ≤ safe * safe := mul_le_mul h1 h2 (by positivity) (by unfold safe; norm_num)
  have h5 : safe * safe < 2 ^ 63 := by unfold safe; norm_num
  omega

theorem safe_coords {x y : Int} (h : x ^ 2 + y ^ 2 ≤ safe) : |x| < 2 ^ 30 ∧ |y| < 2 ^ 30 :=
  coords_of_size2 h (by unfold safe; norm_num) (by norm_num)

theorem perpendicularDistance2M_safe (a b p : Pt) (hb : (b.x - a.x) ^ 2 + (b.y - a.y) ^ 2 ≤ safe)
    (hp : (p.x - a.x) ^ 2 + (p.y - a.y) ^ 2 ≤ safe) : perpendicularDistance2M a b p = perpendicularDistance2 a b p :=
  perpendicularDistance2M_eq a b p (safe_coords hb).1 (safe_coords hb).2 (safe_coords hp).1 (safe_coords hp).2 (dot_fits hb hp)

theorem seekLoopM_eq (p1 p2 : Pt) (h2 : (p2.x - p1.x) ^ 2 + (p2.y - p1.y) ^ 2 ≤ safe) (l : List Pt)
    (hl : ∀ p ∈ l, (p.x - p1.x) ^ 2 + (p.y - p1.y) ^ 2 ≤ safe) (i : Nat) (r : Nat × Micrometer)
    (h0 : 0 ≤ r.2) (h1 : r.2 ≤ safe) : seekLoopM p1 p2 l i r = seekLoop p1 p2 l i r := by
  induction l generalizing i r with
  | nil => rfl
  | cons p l ih =>
    obtain ⟨idx, m⟩ := r
    have hp := hl p (by simp)
    have hd := perpendicularDistance2M_safe p1 p2 p h2 hp
    simp only at h0 h1
    have hm := mul_self_bounds (a := m) (b := safe) (by rw [abs_le]; constructor <;> omega)
    have hss : safe * safe < 2 ^ 63 := by unfold safe; norm_num
    have hw : wrap (m * m) = m * m := wrap_of_lt (by omega) (by omega)
    have hs : (p.sub p1).size2 ≤ safe := by
      unfold Pt.size2 Pt.sub; simp only; nlinarith
    have hle := perpendicularDistance2_le p1 p2 p
    have hnn := C04_nonneg p1 p2 p
    simp only [seekLoopM, seekLoop, hd, hw]
    split
    · exact ih (fun q hq => hl q (List.mem_cons_of_mem _ hq)) _ _ hnn (hle.trans hs)
    · exact ih (fun q hq => hl q (List.mem_cons_of_mem _ hq)) _ _ h0 h1

theorem SmallPath.sub {l m : Path} (h : SmallPath l) (hm : ∀ p ∈ m, p ∈ l) : SmallPath m :=
  fun p hp q hq => h p (hm p hp) q (hm q hq)

theorem douglasPeuckerAuxM_eq (ep : Micrometer) (fuel : Nat) (l : Path) (h : SmallPath l) :
    douglasPeuckerAuxM ep fuel l = douglasPeuckerAux ep fuel l := by
  induction fuel generalizing l with
  | zero => rfl
  | succ n ih =>
    rcases l with _ | ⟨p0, _ | ⟨p1, _ | ⟨p2, rest⟩⟩⟩
    · rfl
    · rfl
    · rfl
    have hl : ∃ last, last = (p2 :: rest).getLast (by simp) := ⟨_, rfl⟩
    obtain ⟨last, hl⟩ := hl
    have hlast : last ∈ p0 :: p1 :: p2 :: rest := by
      rw [hl]
      exact List.mem_cons_of_mem _ (List.mem_cons_of_mem _ (List.getLast_mem _))
    have h2 := h last hlast p0 (List.mem_cons_self ..)
    have hseek := seekLoopM_eq p0 last h2
      (p0 :: p1 :: p2 :: rest) (fun p hp => h p hp p0 (List.mem_cons_self ..)) 0 (0, 0) (le_refl _) (by unfold safe; norm_num)
    have ihl := fun k => ih ((p0 :: p1 :: p2 :: rest).take k) (h.sub fun p hp => List.mem_of_mem_take hp)
    have ihr := fun k => ih ((p0 :: p1 :: p2 :: rest).drop k) (h.sub fun p hp => List.mem_of_mem_drop hp)
    simp only [douglasPeuckerAuxM, douglasPeuckerAux, ← hl, seekMostDistantPoint, seekMostDistantPointM]
    rw [hseek]
    simp only [ihl, ihr]

/-- **C74** For a path with a diameter of at most 55.1089 mm the int64 computation never overflows: it is the unbounded one, so that
the error bound of C06 holds. -/
theorem C74_small (l : Path) (ep : Micrometer) (h : SmallPath l) : douglasPeuckerM l ep = douglasPeucker l ep :=
  douglasPeuckerAuxM_eq _ _ l h

/-- **C06** The error bound with int64 arithmetic, for paths with a diameter of at most 55.1089 mm. -/
theorem C06_int64 (path : Path) (eps : Int) (h : path ≠ []) (hs : SmallPath path) :
    Thinned (fun a b p => 1 ≤ (if eps = -1 then 70 else eps) ∧
        lineDist2 a b p ≤ (((if eps = -1 then 70 else eps) - 1 : Int) : ℚ) ^ 2)
      path (douglasPeuckerM path eps) := by
  rw [C74_small path eps hs]; exact C06_error_bound path eps h

/-! Structure for all paths, whatever overflows. -/

theorem seekLoopM_index (p1 p2 : Pt) (ps : List Pt) (i idx : Nat) (M : Micrometer) :
    (seekLoopM p1 p2 ps i (idx, M)).1 = idx ∨
      (i ≤ (seekLoopM p1 p2 ps i (idx, M)).1 ∧ (seekLoopM p1 p2 ps i (idx, M)).1 < i + ps.length) := by
  induction ps generalizing i idx M with
  | nil => left; rfl
  | cons p ps ih =>
    simp only [seekLoopM]
    split
    · have := ih (i + 1) i (perpendicularDistance2M p1 p2 p)
      right; simp only [List.length_cons]; omega
    · have := ih (i + 1) idx M
      simp only [List.length_cons]; omega

theorem douglasPeuckerAuxM_thinned (ep : Int) (fuel : Nat) (points : Path) (h : points ≠ []) :
    Thinned (fun _ _ _ => True) points (douglasPeuckerAuxM ep fuel points) := by
  induction fuel generalizing points with
  | zero => exact Thinned.refl h
  | succ fuel ih =>
    unfold douglasPeuckerAuxM
    split
    · rename_i p0 p1 p2 rest
      simp only []
      set last := (p2 :: rest).getLast (by simp) with hlast
      set pts := p0 :: p1 :: p2 :: rest with hpts
      have hidx := seekLoopM_index p0 last pts 0 0 0
      have hs : seekMostDistantPointM p0 last pts = seekLoopM p0 last pts 0 (0, 0) := rfl
      rw [hs]
      set idx := (seekLoopM p0 last pts 0 (0, 0)).1 with hi
      have hlt : idx < pts.length := by
        rcases hidx with h | h
        · rw [h]; simp [hpts]
        · omega
      split
      · have h1 : pts.take (idx + 1) ≠ [] := by simp [hpts]
        have h2 : pts.drop idx = pts[idx] :: pts.drop (idx + 1) := List.drop_eq_getElem_cons hlt
        have hl := getLast?_take_succ hlt
        have t1 := ih (pts.take (idx + 1)) h1
        have t2 := ih (pts.drop idx) (by rw [h2]; exact List.cons_ne_nil _ _)
        rw [h2] at t2 ⊢
        have := Thinned.join t1 hl t2
        have e := dropLast_take_succ_append hlt
        rw [e] at this
        exact this
      · have hsplit : pts = p0 :: ((p1 :: (p2 :: rest).dropLast) ++ [last]) := by
          rw [hpts, hlast, List.cons_append, List.dropLast_append_getLast]
        rw [hsplit]
        exact Thinned.step p0 last _ [] [] (fun _ _ => trivial) (.single last)
    · exact Thinned.refl h

/-- **C05** With int64 arithmetic the result is a subsequence of the path, whatever overflows ... -/
theorem C05_int64_subsequence (path : Path) (eps : Int) : (douglasPeuckerM path eps).Sublist path := by
  rcases eq_or_ne path [] with rfl | h
  · simp [douglasPeuckerM, douglasPeuckerAuxM]
  · exact (douglasPeuckerAuxM_thinned _ 200 path h).sublist

/-- **C05** ... with the same first and last point ... -/
theorem C05_int64_ends (path : Path) (eps : Int) :
    (douglasPeuckerM path eps).head? = path.head? ∧ (douglasPeuckerM path eps).getLast? = path.getLast? := by
  rcases eq_or_ne path [] with rfl | h
  · simp [douglasPeuckerM, douglasPeuckerAuxM]
  · exact (douglasPeuckerAuxM_thinned _ 200 path h).ends

/-- **C05** ... and paths of at most two points are returned unchanged. -/
theorem C05_int64_short (path : Path) (eps : Int) (h : path.length ≤ 2) : douglasPeuckerM path eps = path := by
  unfold douglasPeuckerM douglasPeuckerAuxM
  match path, h with
  | [], _ => rfl
  | [_], _ => rfl
  | [_, _], _ => rfl

/-- **C05** No part of the recursion returns an empty path. -/
theorem C05_int64_left_nonempty (ep : Int) (fuel : Nat) (points : Path) (h : points ≠ []) :
    douglasPeuckerAuxM ep fuel points ≠ [] := by
  have := (douglasPeuckerAuxM_thinned ep fuel points h).ends.1
  intro h0
  rw [h0] at this
  cases points with
  | nil => exact h rfl
  | cons => simp at this

/-! ## C99: large outlines collapse -/

/-- `wrap` of a value in the upper half of the 64 bit range is negative. -/
theorem wrap_neg {n : Int} (h1 : 2 ^ 63 ≤ n) (h2 : n < 2 ^ 64) : wrap n < 0 := by
  unfold wrap Int.bmod
  rw [Int.emod_eq_of_lt (by omega) (by omega), if_neg (by omega)]; omega

theorem seekLoopM_collapse (f l : Pt) (hl : perpendicularDistance2M f l l = 0) (ps : List Pt)
    (hp : ∀ p ∈ ps, 0 < perpendicularDistance2M f l p ∧
      wrap (perpendicularDistance2M f l p * perpendicularDistance2M f l p) < 0) (i idx : Nat) (m : Micrometer)
    (hm : ps ≠ [] ∧ m = 0 ∨ wrap (m * m) < 0) : (seekLoopM f l (ps ++ [l]) i (idx, m)).2 = 0 := by
  induction ps generalizing i idx m with
  | nil =>
    simp only [ne_eq, not_true_eq_false, false_and, false_or] at hm
    simp only [List.nil_append, seekLoopM, hl]
    rw [if_pos hm]
  | cons p ps ih =>
    obtain ⟨h1, h2⟩ := hp p (by simp)
    simp only [List.cons_append, seekLoopM]
    have hw : wrap (0 * 0) = 0 := by decide +kernel
    rw [if_pos (by rcases hm with ⟨-, rfl⟩ | h <;> omega)]
    exact ih (fun q hq => hp q (List.mem_cons_of_mem _ hq)) _ _ _ (Or.inr h2)

/-- **C99** A path whose inner points all have a distance between 55.109 mm and 65.535 mm from the line through its ends is reduced to the
two ends, whatever the threshold. (The ends must be at most 55.1089 mm apart, and the dot products must not overflow as well.) -/
theorem C99_collapse (f l : Pt) (ps : List Pt) (hps : ps ≠ []) (eps : Int) (heps : eps = -1 ∨ 1 ≤ eps)
    (hfl : (l.x - f.x) ^ 2 + (l.y - f.y) ^ 2 ≤ safe)
    (hfar : ∀ p ∈ ps, 55109 ^ 2 ≤ lineDist2 f l p ∧ lineDist2 f l p ≤ 65535 ^ 2)
    (hdot : ∀ p ∈ ps, |p.x - f.x| < 2 ^ 30 ∧ |p.y - f.y| < 2 ^ 30 ∧
      ((l.x - f.x) * (p.x - f.x) + (l.y - f.y) * (p.y - f.y)) ^ 2 < 2 ^ 63) :
    douglasPeuckerM (f :: ps ++ [l]) eps = [f, l] := by
  have hz : ∀ q : Pt, perpendicularDistance2 f q q = 0 := by
    intro q
    have h1 := (C04_tight f q q).2
    have h2 := C04_nonneg f q q
    have h3 : lineDist2 f q q = 0 := by
      unfold lineDist2; split
      · rename_i h; subst h; simp
      · rw [mul_comm (q.x - f.x)]; simp
    rw [h3] at h1
    have : perpendicularDistance2 f q q < 1 := by exact_mod_cast (by linarith : (perpendicularDistance2 f q q : ℚ) < 1)
    omega
  have hff : perpendicularDistance2M f l f = 0 := by
    rw [perpendicularDistance2M_safe f l f hfl (by simp [safe])]
    have h1 := perpendicularDistance2_le f l f
    have h2 := C04_nonneg f l f
    have h3 : (f.sub f).size2 = 0 := by simp [Pt.sub, Pt.size2]
    omega
  have hll : perpendicularDistance2M f l l = 0 := by rw [perpendicularDistance2M_safe f l l hfl hfl, hz]
  have hp : ∀ p ∈ ps, 0 < perpendicularDistance2M f l p ∧
      wrap (perpendicularDistance2M f l p * perpendicularDistance2M f l p) < 0 := by
    intro p hp
    obtain ⟨h1, h2⟩ := hfar p hp
    obtain ⟨h3, h4, h5⟩ := hdot p hp
    rw [perpendicularDistance2M_eq f l p (safe_coords hfl).1 (safe_coords hfl).2 h3 h4 h5]
    have t := C04_tight f l p
    have b1 : (55109 ^ 2 : Int) ≤ perpendicularDistance2 f l p := by exact_mod_cast h1.trans t.1
    have b2 : perpendicularDistance2 f l p < 65535 ^ 2 + 1 := by
      exact_mod_cast (by linarith [t.2] : (perpendicularDistance2 f l p : ℚ) < 65535 ^ 2 + 1)
    generalize perpendicularDistance2 f l p = d at *
    refine ⟨by omega, wrap_neg ?_ ?_⟩ <;> nlinarith
  obtain ⟨p, ps', rfl⟩ := List.exists_cons_of_ne_nil hps
  obtain ⟨q, qs, hq⟩ := List.exists_cons_of_ne_nil (l := ps' ++ [l]) (by simp)
  have hlast : (q :: qs).getLast (by simp) = l := by simp [← hq]
  have hw : wrap (0 * 0) = 0 := by decide +kernel
  have hs := seekLoopM_collapse f l hll (p :: ps') hp 1 0 0 (Or.inl ⟨by simp, rfl⟩)
  rw [List.cons_append, List.cons_append, hq]
  rw [List.cons_append, hq] at hs
  have key : ∀ n, douglasPeuckerAuxM (if eps = -1 then 70 else eps) (n + 1) (f :: p :: q :: qs) = [f, l] := ?_
  · exact key 199
  intro n
  simp only [douglasPeuckerAuxM, hlast, seekMostDistantPointM]
  rw [if_neg]
  have e : seekLoopM f l (f :: p :: q :: qs) 0 (0, 0) = seekLoopM f l (p :: q :: qs) 1 (0, 0) := by
    rw [seekLoopM]; simp only [hff, hw]; simp
  rw [e, hs]
  split <;> omega

/-- **C99** So every axis-parallel rectangle of a width from 55.109 mm to 65.535 mm and a height of at most 55.108 mm, wherever it lies,
is reduced to one of its short sides if its points are listed beginning with a long side. -/
theorem C99_rectangle (x y w h : Int) (hw1 : 55109 ≤ w) (hw2 : w ≤ 65535) (hh1 : 1 ≤ h) (hh2 : h ≤ 55108) :
    douglasPeuckerM [⟨x, y⟩, ⟨x + w, y⟩, ⟨x + w, y + h⟩, ⟨x, y + h⟩] (-1) = [⟨x, y⟩, ⟨x, y + h⟩] := by
  have hn : (⟨x, y⟩ : Pt) ≠ ⟨x, y + h⟩ := by simp; omega
  have hq : (h : ℚ) ≠ 0 := by exact_mod_cast (by omega : h ≠ 0)
  have d1 : lineDist2 ⟨x, y⟩ ⟨x, y + h⟩ ⟨x + w, y⟩ = (w : ℚ) ^ 2 := by
    unfold lineDist2; rw [if_neg hn]; push_cast; ring_nf; field_simp
  have d2 : lineDist2 ⟨x, y⟩ ⟨x, y + h⟩ ⟨x + w, y + h⟩ = (w : ℚ) ^ 2 := by
    unfold lineDist2; rw [if_neg hn]; push_cast; ring_nf; field_simp
  have w1 : (55109 : ℚ) ≤ w := by exact_mod_cast hw1
  have w2 : (w : ℚ) ≤ 65535 := by exact_mod_cast hw2
  have hd : (55109 : ℚ) ^ 2 ≤ (w : ℚ) ^ 2 ∧ (w : ℚ) ^ 2 ≤ 65535 ^ 2 := by constructor <;> nlinarith
  have a1 : |w| < 2 ^ 30 := by rw [abs_lt]; omega
  have a2 : |h| < 2 ^ 30 := by rw [abs_lt]; omega
  have h2 : h ^ 2 ≤ 3036891664 := by nlinarith
  have h3 : 0 ≤ h ^ 2 := sq_nonneg h
  have h4 : (h ^ 2) ^ 2 < 2 ^ 63 := by nlinarith
  refine C99_collapse ⟨x, y⟩ ⟨x, y + h⟩ [⟨x + w, y⟩, ⟨x + w, y + h⟩] (by simp) (-1) (Or.inl rfl) ?_ ?_ ?_
  · simp [safe]; omega
  · intro p hp
    simp only [List.mem_cons, List.not_mem_nil, or_false] at hp
    rcases hp with rfl | rfl
    · rw [d1]; exact hd
    · rw [d2]; exact hd
  · intro p hp
    simp only [List.mem_cons, List.not_mem_nil, or_false] at hp
    rcases hp with rfl | rfl
    · norm_num at a1 ⊢; exact a1
    · norm_num at a1 a2 ⊢; exact ⟨a1, a2, by linarith⟩

/-- The limit of C74 is sharp: one micrometre more and the rectangle collapses. -/
theorem C99_sharp :
    SmallPath [⟨0, 0⟩, ⟨55108, 0⟩, ⟨55108, 1⟩, ⟨0, 1⟩] ∧
    douglasPeuckerM [⟨0, 0⟩, ⟨55108, 0⟩, ⟨55108, 1000⟩, ⟨0, 1000⟩] (-1) = [⟨0, 0⟩, ⟨55108, 0⟩, ⟨55108, 1000⟩, ⟨0, 1000⟩] ∧
    douglasPeuckerM [⟨0, 0⟩, ⟨55109, 0⟩, ⟨55109, 1000⟩, ⟨0, 1000⟩] (-1) = [⟨0, 0⟩, ⟨0, 1000⟩] := by
  refine ⟨?_, by decide +kernel, by decide +kernel⟩
  intro p hp q hq; simp at hp hq
  rcases hp with rfl|rfl|rfl|rfl <;> rcases hq with rfl|rfl|rfl|rfl <;> norm_num [safe]

/-- A rectangle of 60 mm × 40 mm is affected, one of 30 mm × 40 mm is not. -/
example : douglasPeuckerM [⟨0, 0⟩, ⟨60000, 0⟩, ⟨60000, 40000⟩, ⟨0, 40000⟩] (-1) = [⟨0, 0⟩, ⟨0, 40000⟩] ∧
    douglasPeuckerM [⟨0, 0⟩, ⟨30000, 0⟩, ⟨30000, 40000⟩, ⟨0, 40000⟩] (-1) =
      [⟨0, 0⟩, ⟨30000, 0⟩, ⟨30000, 40000⟩, ⟨0, 40000⟩] := ⟨C99_rectangle 0 0 60000 40000 (by norm_num) (by norm_num) (by norm_num) (by norm_num), by decide +kernel⟩

end Verif
