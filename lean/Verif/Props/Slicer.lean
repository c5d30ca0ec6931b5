import Verif.Spec.Slice
import Verif.Model.Slicer
import Verif.Props.Optimizer
import Verif.Lemmas.Res
import Mathlib.Tactic.Linarith
import Mathlib.Tactic.FieldSimp
import Mathlib.Tactic.Ring
import Mathlib.Tactic.IntervalCases
import Mathlib.Tactic.Positivity

/-! # Slicing of faces (C52–C55, C60, C88) -/
namespace Verif
open Verif.Go Verif.Model Verif.Spec

/-! ## One coordinate -/

theorem tdiv_near {a b : Int} (hb : b ≠ 0) : |((a.tdiv b : Int) : ℚ) - (a : ℚ) / b| < 1 := by
  have h := Int.mul_tdiv_add_tmod a b
  have hb' : (b : ℚ) ≠ 0 := by exact_mod_cast hb
  have e : ((a.tdiv b : Int) : ℚ) - (a : ℚ) / b = -((a.tmod b : Int) : ℚ) / b := by
    have h' : (a : ℚ) = b * (a.tdiv b : Int) + (a.tmod b : Int) := by exact_mod_cast h.symm
    rw [eq_div_iff hb', sub_mul, div_mul_cancel₀ _ hb']
    linarith
  rw [e, abs_div, abs_neg, div_lt_one (abs_pos.2 hb')]
  have : |a.tmod b| < |b| := by
    have := Int.natAbs_tmod a b
    rw [Int.abs_eq_natAbs, Int.abs_eq_natAbs, this]
    exact_mod_cast Nat.mod_lt _ (Int.natAbs_pos.2 hb)
  exact_mod_cast this

theorem tdiv_between_pos {d k n : Int} (hn : 0 < n) (h1 : 0 ≤ k) (h2 : k ≤ n) : min 0 d ≤ (d * k).tdiv n ∧ (d * k).tdiv n ≤ max 0 d := by
  have key : ∀ d : Int, 0 ≤ d → 0 ≤ (d * k).tdiv n ∧ (d * k).tdiv n ≤ d := by
    intro d hd
    rw [Int.tdiv_eq_ediv_of_nonneg (mul_nonneg hd h1)]
    exact ⟨Int.ediv_nonneg (mul_nonneg hd h1) hn.le, Int.ediv_le_of_le_mul hn (mul_le_mul_of_nonneg_left h2 hd)⟩
  rcases le_total 0 d with hd | hd
  · have := key d hd
    omega
  · have := key (-d) (by omega)
    rw [neg_mul, Int.neg_tdiv] at this
    omega

/-- A truncated quotient stays between 0 and the factor. -/
theorem tdiv_between {d k n : Int} (hn : n ≠ 0) (h : (0 ≤ k ∧ k ≤ n) ∨ (n ≤ k ∧ k ≤ 0)) :
    min 0 d ≤ (d * k).tdiv n ∧ (d * k).tdiv n ≤ max 0 d := by
  rcases h with ⟨h1, h2⟩ | ⟨h1, h2⟩
  · exact tdiv_between_pos (by omega) h1 h2
  · have := tdiv_between_pos (d := d) (k := -k) (n := -n) (by omega) (by omega) (by omega)
    rwa [mul_neg, Int.neg_tdiv_neg] at this

theorem interpolate_near {z a0 z0 a1 z1 : Int} (h : (z0 ≤ z ∧ z ≤ z1 ∧ z0 < z1) ∨ (z1 ≤ z ∧ z ≤ z0 ∧ z1 < z0)) :
    ∃ r, interpolate z a0 z0 a1 z1 = .ok r ∧ NearMeet z a0 z0 a1 z1 r := by
  have hne : z1 - z0 ≠ 0 := by omega
  refine ⟨a0 + ((a1 - a0) * (z - z0)).tdiv (z1 - z0), ?_, ?_, ?_⟩
  · simp only [interpolate, quo, if_neg hne, bind, Except.bind, pure, Except.pure]
  · have := tdiv_near (a := (a1 - a0) * (z - z0)) hne
    unfold meet
    push_cast at this ⊢
    rwa [add_sub_add_left_eq_sub]
  · have := tdiv_between (d := a1 - a0) (k := z - z0) hne (by omega)
    omega

theorem meet_symm {z a0 z0 a1 z1 : Int} (h : z0 ≠ z1) : meet z a0 z0 a1 z1 = meet z a1 z1 a0 z0 := by
  unfold meet
  have h1 : (z1 : ℚ) - z0 ≠ 0 := sub_ne_zero.2 (by exact_mod_cast h.symm)
  have h2 : (z0 : ℚ) - z1 ≠ 0 := sub_ne_zero.2 (by exact_mod_cast h)
  field_simp
  ring

theorem nearMeet_symm {z a0 z0 a1 z1 r : Int} (h : z0 ≠ z1) : NearMeet z a0 z0 a1 z1 r ↔ NearMeet z a1 z1 a0 z0 r := by
  unfold NearMeet
  rw [meet_symm h, min_comm, max_comm]

theorem onSide_swap {z : Int} {s : Vec3 × Vec3} {p : Pt} (h : s.1.z ≠ s.2.z) : OnSide z s p ↔ OnSide z s.swap p := by
  unfold OnSide
  rw [nearMeet_symm h, nearMeet_symm (a0 := s.1.y) h]
  rfl

/-! ## One face -/

theorem sliceCase_some {z : Int} {f t : Tri Vec3} (h : sliceCase z f = some t) :
    Crosses z f ∧ ∃ d u, IsSide f d ∧ Down z d ∧ IsSide f u ∧ Up z u ∧ (d = (t.a, t.b) ∨ d = (t.b, t.a)) ∧ (u = (t.a, t.c) ∨ u = (t.c, t.a)) := by
  unfold sliceCase at h
  unfold Crosses belowCount IsSide Down Up Tri.corners
  simp only [List.countP_cons, List.countP_nil, decide_eq_true_eq]
  split_ifs at h with h1 h2 h3 h4 h5 h6 <;> cases h
  · refine ⟨.inl ?_, (f.c, f.a), (f.a, f.b), by simp, ⟨h1.1, h1.2.2⟩, by simp, ⟨h1.1, h1.2.1⟩, by simp, by simp⟩
    rw [if_pos h1.1, if_neg (by omega), if_neg (by omega)]
  · refine ⟨.inr ⟨?_, ?_⟩, (f.a, f.b), (f.c, f.a), by simp, ⟨h2.2.1, h2.1.le⟩, by simp, ⟨h2.2.2, h2.1.le⟩, by simp, by simp⟩
    · rw [if_neg (show ¬ f.a.z < z by omega), if_pos h2.2.1, if_pos h2.2.2]
    · intro p hp
      simp only [List.mem_cons, List.not_mem_nil, or_false] at hp
      rcases hp with rfl | rfl | rfl <;> omega
  · refine ⟨.inl ?_, (f.a, f.b), (f.b, f.c), by simp, ⟨h3.1, h3.2.1⟩, by simp, ⟨h3.1, h3.2.2⟩, by simp, by simp⟩
    rw [if_pos h3.1, if_neg (by omega), if_neg (by omega)]
  · refine ⟨.inr ⟨?_, ?_⟩, (f.b, f.c), (f.a, f.b), by simp, ⟨h4.2.2, h4.1.le⟩, by simp, ⟨h4.2.1, h4.1.le⟩, by simp, by simp⟩
    · rw [if_neg (show ¬ f.b.z < z by omega), if_pos h4.2.1, if_pos h4.2.2]
    · intro p hp
      simp only [List.mem_cons, List.not_mem_nil, or_false] at hp
      rcases hp with rfl | rfl | rfl <;> omega
  · refine ⟨.inl ?_, (f.b, f.c), (f.c, f.a), by simp, ⟨h5.1, h5.2.1⟩, by simp, ⟨h5.1, h5.2.2⟩, by simp, by simp⟩
    rw [if_pos h5.1, if_neg (by omega), if_neg (by omega)]
  · refine ⟨.inr ⟨?_, ?_⟩, (f.c, f.a), (f.b, f.c), by simp, ⟨h6.2.2, h6.1.le⟩, by simp, ⟨h6.2.1, h6.1.le⟩, by simp, by simp⟩
    · rw [if_neg (show ¬ f.c.z < z by omega), if_pos h6.2.1, if_pos h6.2.2]
    · intro p hp
      simp only [List.mem_cons, List.not_mem_nil, or_false] at hp
      rcases hp with rfl | rfl | rfl <;> omega

theorem sliceCase_none {z : Int} {f : Tri Vec3} (h : sliceCase z f = none) : ¬ Crosses z f := by
  unfold sliceCase at h
  unfold Crosses belowCount Tri.corners
  simp only [List.countP_cons, List.countP_nil, decide_eq_true_eq, List.mem_cons, List.not_mem_nil, or_false, forall_eq_or_imp, forall_eq]
  split_ifs at h
  split_ifs <;> simp <;> omega

theorem sliceCase_isSome (z : Int) (f : Tri Vec3) : (sliceCase z f).isSome = decide (Crosses z f) := by
  cases h : sliceCase z f with
  | none => simp [sliceCase_none h]
  | some t => simp [(sliceCase_some h).1]

/-- **C52** For a face which is cut by the plane the slicer computes a segment without dividing by zero. It starts on the side of the face which goes
down through the plane and ends on the side which goes up (**C54**); both ends are less than 1 µm away from the exact points, in each coordinate, and not
outside of the ends of the side. -/
theorem C52_segment (z : Int) (f : Tri Vec3) (h : Crosses z f) : ∃ t p q, sliceCase z f = some t ∧ sliceFace z t.a t.b t.c = .ok (p, q) ∧
    ∃ d u, IsSide f d ∧ Down z d ∧ OnSide z d p ∧ IsSide f u ∧ Up z u ∧ OnSide z u q := by
  cases ht : sliceCase z f with
  | none => exact absurd h (sliceCase_none ht)
  | some t =>
    obtain ⟨_, d, u, hd, hdd, hu, huu, ed, eu⟩ := sliceCase_some ht
    have zd : (t.a.z ≤ z ∧ z ≤ t.b.z ∧ t.a.z < t.b.z) ∨ (t.b.z ≤ z ∧ z ≤ t.a.z ∧ t.b.z < t.a.z) := by
      unfold Down at hdd
      rcases ed with rfl | rfl <;> simp only at hdd <;> omega
    have zu : (t.a.z ≤ z ∧ z ≤ t.c.z ∧ t.a.z < t.c.z) ∨ (t.c.z ≤ z ∧ z ≤ t.a.z ∧ t.c.z < t.a.z) := by
      unfold Up at huu
      rcases eu with rfl | rfl <;> simp only at huu <;> omega
    obtain ⟨sx, e1, n1⟩ := interpolate_near (a0 := t.a.x) (a1 := t.b.x) zd
    obtain ⟨sy, e2, n2⟩ := interpolate_near (a0 := t.a.y) (a1 := t.b.y) zd
    obtain ⟨ex, e3, n3⟩ := interpolate_near (a0 := t.a.x) (a1 := t.c.x) zu
    obtain ⟨ey, e4, n4⟩ := interpolate_near (a0 := t.a.y) (a1 := t.c.y) zu
    refine ⟨t, ⟨sx, sy⟩, ⟨ex, ey⟩, rfl, ?_, d, u, hd, hdd, ?_, hu, huu, ?_⟩
    · simp only [sliceFace, e1, e2, e3, e4, bind, Except.bind, pure, Except.pure]
    · rcases ed with rfl | rfl
      · exact ⟨n1, n2⟩
      · rw [onSide_swap (by show t.b.z ≠ t.a.z; omega)]
        exact ⟨n1, n2⟩
    · rcases eu with rfl | rfl
      · exact ⟨n3, n4⟩
      · rw [onSide_swap (by show t.c.z ≠ t.a.z; omega)]
        exact ⟨n3, n4⟩

theorem up_unique {z : Int} {f : Tri Vec3} {s s' : Vec3 × Vec3} (h : IsSide f s) (h' : IsSide f s') (hu : Up z s) (hu' : Up z s') : s = s' := by
  unfold Up at hu hu'
  rcases h with rfl | rfl | rfl <;> rcases h' with rfl | rfl | rfl <;> simp only at hu hu' <;> first | rfl | omega

theorem down_unique {z : Int} {f : Tri Vec3} {s s' : Vec3 × Vec3} (h : IsSide f s) (h' : IsSide f s') (hu : Down z s) (hu' : Down z s') : s = s' := by
  unfold Down at hu hu'
  rcases h with rfl | rfl | rfl <;> rcases h' with rfl | rfl | rfl <;> simp only at hu hu' <;> first | rfl | omega

theorem near_near {z a0 z0 a1 z1 r r' : Int} (h : NearMeet z a0 z0 a1 z1 r) (h' : NearMeet z a0 z0 a1 z1 r') : |r - r'| ≤ 1 := by
  have h1 := abs_lt.1 h.1
  have h2 := abs_lt.1 h'.1
  have h3 : |(r : ℚ) - r'| < 2 := by rw [abs_lt]; constructor <;> linarith
  have h4 : |r - r'| < 2 := by exact_mod_cast h3
  omega

/-- **C54** If a side of one face goes up through the plane and a neighbouring face has the same side in the opposite direction, the end of the
segment of the first face and the start of the segment of the second one are at most 1 µm apart in X and in Y. -/
theorem C54_neighbours (z : Int) (f g : Tri Vec3) (s : Vec3 × Vec3) (hf : IsSide f s) (hs : Up z s) (hg : IsSide g s.swap)
    (t t' : Tri Vec3) (p q p' q' : Pt) (h1 : sliceCase z f = some t) (h2 : sliceFace z t.a t.b t.c = .ok (p, q))
    (h3 : sliceCase z g = some t') (h4 : sliceFace z t'.a t'.b t'.c = .ok (p', q')) : |q.x - p'.x| ≤ 1 ∧ |q.y - p'.y| ≤ 1 := by
  obtain ⟨u, P, Q, e1, e2, _, us, _, _, _, hus, huu, hon⟩ := C52_segment z f (sliceCase_some h1).1
  rw [h1] at e1; cases e1
  rw [h2] at e2; cases e2
  obtain ⟨u', P', Q', e1, e2, ds, _, hds, hdd, hon', _⟩ := C52_segment z g (sliceCase_some h3).1
  rw [h3] at e1; cases e1
  rw [h4] at e2; cases e2
  have e := up_unique hf hus hs huu
  subst e
  have e := down_unique hg hds ⟨hs.1, hs.2⟩ hdd
  subst e
  have hne : s.1.z ≠ s.2.z := by unfold Up at hs; omega
  rw [onSide_swap (by simpa using Ne.symm hne)] at hon'
  exact ⟨near_near hon.1 hon'.1, near_near hon.2 hon'.2⟩

/-! ## Direction -/

theorem direction_below {z : Int} (A B C : Vec3) (h1 : A.z < z) (h2 : z ≤ B.z) (h3 : z ≤ C.z) :
    ∃ k : ℚ, 0 < k ∧ (meetPoint z (A, B)).1 - (meetPoint z (C, A)).1 = k * -(normalY ⟨A, B, C⟩) ∧
      (meetPoint z (A, B)).2 - (meetPoint z (C, A)).2 = k * normalX ⟨A, B, C⟩ := by
  have a : (0 : ℚ) < (z : ℚ) - A.z := by exact_mod_cast (by omega)
  have b : (0 : ℚ) < (B.z : ℚ) - A.z := by exact_mod_cast (by omega)
  have c : (0 : ℚ) < (C.z : ℚ) - A.z := by exact_mod_cast (by omega)
  refine ⟨((z : ℚ) - A.z) / (((B.z : ℚ) - A.z) * ((C.z : ℚ) - A.z)), by positivity, ?_, ?_⟩
  · simp only [meetPoint, normalY]
    rw [meet_symm (z0 := C.z) (z1 := A.z) (by omega)]
    unfold meet
    push_cast
    field_simp
    ring
  · simp only [meetPoint, normalX]
    rw [meet_symm (z0 := C.z) (z1 := A.z) (by omega)]
    unfold meet
    push_cast
    field_simp
    ring

theorem direction_above {z : Int} (A B C : Vec3) (h1 : z < A.z) (h2 : B.z < z) (h3 : C.z < z) :
    ∃ k : ℚ, 0 < k ∧ (meetPoint z (C, A)).1 - (meetPoint z (A, B)).1 = k * -(normalY ⟨A, B, C⟩) ∧
      (meetPoint z (C, A)).2 - (meetPoint z (A, B)).2 = k * normalX ⟨A, B, C⟩ := by
  have a : (z : ℚ) - A.z < 0 := by exact_mod_cast (by omega)
  have b : (B.z : ℚ) - A.z < 0 := by exact_mod_cast (by omega)
  have c : (C.z : ℚ) - A.z < 0 := by exact_mod_cast (by omega)
  have b' := b.ne
  have c' := c.ne
  refine ⟨-((z : ℚ) - A.z) / (((B.z : ℚ) - A.z) * ((C.z : ℚ) - A.z)), div_pos (by linarith) (mul_pos_of_neg_of_neg b c), ?_, ?_⟩
  · simp only [meetPoint, normalY]
    rw [meet_symm (z0 := C.z) (z1 := A.z) (by omega)]
    unfold meet
    push_cast
    field_simp
    ring
  · simp only [meetPoint, normalX]
    rw [meet_symm (z0 := C.z) (z1 := A.z) (by omega)]
    unfold meet
    push_cast
    field_simp
    ring

theorem normal_rotate (A B C : Vec3) : normalX ⟨B, C, A⟩ = normalX ⟨A, B, C⟩ ∧ normalY ⟨B, C, A⟩ = normalY ⟨A, B, C⟩ := by
  simp only [normalX, normalY]
  constructor <;> ring

/-- **C88** The exact segment from the side going down to the side going up is a positive multiple of the horizontal part of the normal vector, turned
by 90 degrees counterclockwise; so for outward normals the material is on the left of each segment. -/
theorem C88_direction (z : Int) (f : Tri Vec3) (d u : Vec3 × Vec3) (h : Crosses z f) (hd : IsSide f d) (hdd : Down z d) (hu : IsSide f u) (huu : Up z u) :
    ∃ k : ℚ, 0 < k ∧ (meetPoint z u).1 - (meetPoint z d).1 = k * -(normalY f) ∧ (meetPoint z u).2 - (meetPoint z d).2 = k * normalX f := by
  obtain ⟨a, b, c⟩ := f
  unfold Down at hdd
  unfold Up at huu
  have hab : ∀ A B C : Vec3, (⟨A, B, C⟩ : Tri Vec3).corners.Perm [a, b, c] → B.z < z → C.z < z → z ≤ A.z → z < A.z := by
    intro A B C hp hB hC hA
    have hcount : belowCount z ⟨a, b, c⟩ = 2 := by
      unfold belowCount
      rw [show (⟨a, b, c⟩ : Tri Vec3).corners = [a, b, c] from rfl, ← hp.countP_eq]
      simp only [Tri.corners, List.countP_cons, List.countP_nil, decide_eq_true_eq]
      rw [if_neg (show ¬ A.z < z by omega), if_pos hB, if_pos hC]
    rcases h with h | ⟨_, h⟩
    · omega
    · have := h A (hp.subset (by simp [Tri.corners]))
      omega
  obtain ⟨r1, r2⟩ := normal_rotate a b c
  obtain ⟨r3, r4⟩ := normal_rotate b c a
  rcases hd with rfl | rfl | rfl <;> rcases hu with rfl | rfl | rfl <;> simp only at hdd huu
  · omega
  · rw [← r1, ← r2]; exact direction_below b c a (by omega) (by omega) (by omega)
  · exact direction_above a b c (hab a b c (.refl _) (by omega) (by omega) (by omega)) (by omega) (by omega)
  · rw [← r1, ← r2]; exact direction_above b c a (hab b c a (by simpa [Tri.corners] using (List.perm_append_comm (l₁ := [b, c]) (l₂ := [a]))) (by omega) (by omega) (by omega)) (by omega) (by omega)
  · omega
  · rw [← r1, ← r2, ← r3, ← r4]; exact direction_below c a b (by omega) (by omega) (by omega)
  · exact direction_below a b c (by omega) (by omega) (by omega)
  · rw [← r1, ← r2, ← r3, ← r4]; exact direction_above c a b (hab c a b (by simpa [Tri.corners] using (List.perm_append_comm (l₁ := [c]) (l₂ := [a, b]))) (by omega) (by omega) (by omega)) (by omega) (by omega)
  · omega

/-! ## All faces -/

/-- The face is processed for layer number `n`. -/
def Reaches (o : Options) (f : Tri Vec3) (n : Nat) : Prop :=
  faceMinZ f ≤ layerZ o n ∧ (faceMinZ f - o.print.initialLayerThickness).tdiv o.print.layerThickness ≤ n ∧
    (n : Int) ≤ (faceMaxZ f - o.print.initialLayerThickness).tdiv o.print.layerThickness

instance (o : Options) (f : Tri Vec3) (n : Nat) : Decidable (Reaches o f n) := by unfold Reaches; infer_instance

theorem sliceAt_ok {o : Options} {i : Nat} {f : Tri Vec3} {layers layers' : List (Option SliceLayer)} {k : Int}
    (h : sliceAt o i f layers k = .ok layers') :
    layers'.length = layers.length ∧ ∀ n : Nat, if (n : Int) = k ∧ faceMinZ f ≤ layerZ o n then
      ∃ L L', layers[n]? = some L ∧ sliceInto (layerZ o n) i f (L.getD {}) = .ok L' ∧ layers'[n]? = some (some L') else layers'[n]? = layers[n]? := by
  unfold sliceAt at h
  split at h
  · next hz =>
    cases h
    refine ⟨rfl, fun n => ?_⟩
    rw [if_neg]
    rintro ⟨rfl, h⟩
    omega
  · next hz =>
    split at h
    · next hk =>
      cases h
      refine ⟨rfl, fun n => ?_⟩
      rw [if_neg]
      rintro ⟨rfl, h⟩
      omega
    · next hk =>
      simp only [bind_ok, pure, Except.pure, Except.ok.injEq] at h
      obtain ⟨L, hL, L', hL', rfl⟩ := h
      obtain ⟨m, rfl⟩ := Int.eq_ofNat_of_zero_le (not_lt.1 hk)
      have hL := index_nat.1 hL
      have hlt := (List.getElem?_eq_some_iff.1 hL).1
      refine ⟨by simp, fun n => ?_⟩
      split
      · next hn =>
        have hnm : n = m := by omega
        subst hnm
        exact ⟨L, L', hL, hL', by simp [hlt]⟩
      · next hn =>
        have hnm : m ≠ n := by
          rintro rfl
          exact hn ⟨rfl, not_lt.1 hz⟩
        simp [hnm]

theorem sliceLayers_ok {o : Options} {i : Nat} {f : Tri Vec3} (cnt : Nat) {first : Int} {layers layers' : List (Option SliceLayer)}
    (h : sliceLayers o i f cnt first layers = .ok layers') :
    layers'.length = layers.length ∧ ∀ n : Nat, if (first ≤ n ∧ (n : Int) < first + cnt) ∧ faceMinZ f ≤ layerZ o n then
      ∃ L L', layers[n]? = some L ∧ sliceInto (layerZ o n) i f (L.getD {}) = .ok L' ∧ layers'[n]? = some (some L') else layers'[n]? = layers[n]? := by
  induction cnt generalizing first layers with
  | zero =>
    cases h
    refine ⟨rfl, fun n => ?_⟩
    rw [if_neg]
    rintro ⟨⟨_, _⟩, _⟩
    simp at *
    omega
  | succ cnt ih =>
    simp only [sliceLayers, bind_ok] at h
    obtain ⟨l1, h1, h⟩ := h
    obtain ⟨len1, get1⟩ := sliceAt_ok h1
    obtain ⟨len2, get2⟩ := ih h
    refine ⟨len2.trans len1, fun n => ?_⟩
    have g1 := get1 n
    have g2 := get2 n
    by_cases hz : faceMinZ f ≤ layerZ o n
    · by_cases hn : (n : Int) = first
      · rw [if_pos ⟨hn, hz⟩] at g1
        rw [if_neg (by omega)] at g2
        rw [if_pos (by omega), g2]
        exact g1
      · rw [if_neg (by omega)] at g1
        rw [g1] at g2
        split
        · next hc => rw [if_pos (by omega)] at g2; exact g2
        · next hc => rw [if_neg (by omega)] at g2; exact g2
    · rw [if_neg (by omega)] at g1 g2 ⊢
      rw [g2, g1]

theorem sliceOneFace_ok {o : Options} {i : Nat} {f : Tri Vec3} {layers layers' : List (Option SliceLayer)} (h : sliceOneFace o i f layers = .ok layers') :
    layers'.length = layers.length ∧ ∀ n : Nat, if Reaches o f n then
      ∃ L L', layers[n]? = some L ∧ sliceInto (layerZ o n) i f (L.getD {}) = .ok L' ∧ layers'[n]? = some (some L') else layers'[n]? = layers[n]? := by
  simp only [sliceOneFace, quo, bind_ok] at h
  obtain ⟨first, h1, last, h2, h⟩ := h
  split at h1
  · cases h1
  split at h2
  · cases h2
  cases h1
  cases h2
  obtain ⟨len, get⟩ := sliceLayers_ok _ h
  refine ⟨len, fun n => ?_⟩
  have g := get n
  by_cases hc : Reaches o f n
  · rw [if_pos hc]
    unfold Reaches at hc
    rw [if_pos (by omega)] at g
    exact g
  · rw [if_neg hc]
    unfold Reaches at hc
    rw [if_neg (by omega)] at g
    exact g

/-- What is known of a layer after the faces `done`. -/
def LayerInv (o : Options) (done : List (Tri Vec3)) (n : Nat) : Option SliceLayer → Prop
  | none => ∀ f ∈ done, ¬ Reaches o f n
  | some layer => (∃ f ∈ done, Reaches o f n) ∧
      layer.segments.map SliceSegment.faceIndex =
        (List.range done.length).filter (fun i => (done[i]?).any fun f => decide (Reaches o f n ∧ Crosses (layerZ o n) f)) ∧
      (∀ seg ∈ layer.segments, ∃ f t, done[seg.faceIndex]? = some f ∧ sliceCase (layerZ o n) f = some t ∧
        sliceFace (layerZ o n) t.a t.b t.c = .ok (seg.start, seg.finish)) ∧
      ∀ i k, layer.faceToSegmentIndex i = some k ↔ (layer.segments[k]?).map SliceSegment.faceIndex = some i

theorem filter_range_append {α : Type} (q : α → Bool) (l : List α) (a : α) :
    (List.range (l ++ [a]).length).filter (fun i => ((l ++ [a])[i]?).any q) =
      (List.range l.length).filter (fun i => (l[i]?).any q) ++ if q a then [l.length] else [] := by
  rw [List.length_append, List.length_singleton, List.range_succ, List.filter_append, List.filter_singleton, List.getElem?_append_right (le_refl _)]
  congr 1
  · apply List.filter_congr
    intro i hi
    rw [List.getElem?_append_left (by simpa using hi)]
  · simp only [Nat.sub_self, List.getElem?_cons_zero, Option.any_some]
    cases q a <;> rfl

theorem sliceInto_inv {o : Options} {done : List (Tri Vec3)} {n : Nat} {L : Option SliceLayer} {L' : SliceLayer} {f : Tri Vec3}
    (hi : LayerInv o done n L) (hr : Reaches o f n) (h : sliceInto (layerZ o n) done.length f (L.getD {}) = .ok L') :
    LayerInv o (done ++ [f]) n (some L') := by
  have base : (L.getD {}).segments.map SliceSegment.faceIndex =
        (List.range done.length).filter (fun i => (done[i]?).any fun f => decide (Reaches o f n ∧ Crosses (layerZ o n) f)) ∧
      (∀ seg ∈ (L.getD {}).segments, ∃ f t, done[seg.faceIndex]? = some f ∧ sliceCase (layerZ o n) f = some t ∧
        sliceFace (layerZ o n) t.a t.b t.c = .ok (seg.start, seg.finish)) ∧
      ∀ i k, (L.getD {}).faceToSegmentIndex i = some k ↔ ((L.getD {}).segments[k]?).map SliceSegment.faceIndex = some i := by
    cases L with
    | none =>
      refine ⟨?_, by simp, by simp⟩
      simp only [Option.getD_none, List.map_nil]
      symm
      rw [List.filter_eq_nil_iff]
      intro k hk hh
      rw [Option.any_eq_true] at hh
      obtain ⟨g, hg, hh⟩ := hh
      exact hi g (List.mem_of_getElem? hg) (of_decide_eq_true hh).1
    | some l => exact hi.2
  generalize L.getD {} = l at base h
  obtain ⟨b1, b2, b3⟩ := base
  refine ⟨⟨f, by simp, hr⟩, ?_⟩
  rw [filter_range_append]
  have hlt : ∀ seg ∈ l.segments, seg.faceIndex < done.length := by
    intro seg hs
    obtain ⟨g, _, hg, _⟩ := b2 seg hs
    exact (List.getElem?_eq_some_iff.1 hg).1
  unfold sliceInto at h
  split at h
  · next hc =>
    cases h
    rw [if_neg (by simp [sliceCase_none hc]), List.append_nil]
    refine ⟨b1, ?_, b3⟩
    intro seg hs
    obtain ⟨g, t, hg, rest⟩ := b2 seg hs
    exact ⟨g, t, by rw [List.getElem?_append_left (hlt seg hs)]; exact hg, rest⟩
  · next t hc =>
    simp only [bind_ok, pure, Except.pure, Except.ok.injEq] at h
    obtain ⟨seg, hseg, rfl⟩ := h
    rw [if_pos (by simp [hr, (sliceCase_some hc).1])]
    refine ⟨by simp [SliceLayer.add, b1], ?_, ?_⟩
    · intro s hs
      simp only [SliceLayer.add, List.mem_append, List.mem_singleton] at hs
      rcases hs with hs | rfl
      · obtain ⟨g, t, hg, rest⟩ := b2 s hs
        exact ⟨g, t, by rw [List.getElem?_append_left (hlt s hs)]; exact hg, rest⟩
      · exact ⟨f, t, by simp, hc, hseg⟩
    · intro i k
      simp only [SliceLayer.add]
      rcases Nat.lt_trichotomy k l.segments.length with hk | hk | hk
      · rw [List.getElem?_append_left hk, List.getElem?_eq_getElem hk, Option.map_some]
        have hl := hlt _ (List.getElem_mem hk)
        split
        · next hi =>
          subst hi
          simp only [Option.some.injEq]
          constructor
          · intro e; omega
          · intro e; omega
        · rw [b3, List.getElem?_eq_getElem hk, Option.map_some]
      · subst hk
        rw [List.getElem?_append_right (le_refl _), Nat.sub_self, List.getElem?_cons_zero, Option.map_some, Option.some.injEq]
        split
        · next hi => simp [hi]
        · next hi =>
          constructor
          · intro e
            rw [b3, List.getElem?_eq_none_iff.2 (le_refl _)] at e
            cases e
          · intro e; exact absurd e.symm hi
      · rw [List.getElem?_eq_none_iff.2 (by simp; omega), Option.map_none]
        split
        · simp; omega
        · rw [b3, List.getElem?_eq_none_iff.2 (by omega), Option.map_none]

theorem layerInv_skip {o : Options} {done : List (Tri Vec3)} {n : Nat} {L : Option SliceLayer} {f : Tri Vec3}
    (hi : LayerInv o done n L) (hr : ¬ Reaches o f n) : LayerInv o (done ++ [f]) n L := by
  cases L with
  | none =>
    intro g hg
    rcases List.mem_append.1 hg with hg | hg
    · exact hi g hg
    · rw [List.mem_singleton.1 hg]; exact hr
  | some l =>
    obtain ⟨⟨g, hg, hgr⟩, b1, b2, b3⟩ := hi
    refine ⟨⟨g, by simp [hg], hgr⟩, ?_, ?_, b3⟩
    · rw [filter_range_append, if_neg (by simp [hr]), List.append_nil]
      exact b1
    · intro seg hs
      obtain ⟨g, t, hg, rest⟩ := b2 seg hs
      exact ⟨g, t, by rw [List.getElem?_append_left (List.getElem?_eq_some_iff.1 hg).1]; exact hg, rest⟩

theorem sliceFaces_inv {o : Options} (fs done : List (Tri Vec3)) {layers layers' : List (Option SliceLayer)}
    (hi : ∀ (n : Nat) L, layers[n]? = some L → LayerInv o done n L) (h : sliceFaces o done.length fs layers = .ok layers') :
    layers'.length = layers.length ∧ ∀ (n : Nat) L, layers'[n]? = some L → LayerInv o (done ++ fs) n L := by
  induction fs generalizing done layers with
  | nil => cases h; simpa using hi
  | cons f fs ih =>
    simp only [sliceFaces, bind_ok] at h
    obtain ⟨l1, h1, h⟩ := h
    obtain ⟨len1, get1⟩ := sliceOneFace_ok h1
    have := ih (done ++ [f]) (layers := l1) (by
      intro n L hL
      have g := get1 n
      split at g
      · next hr =>
        obtain ⟨L0, L1, e0, e1, e2⟩ := g
        rw [hL] at e2
        cases e2
        exact sliceInto_inv (hi n L0 e0) hr e1
      · next hr =>
        rw [hL] at g
        exact layerInv_skip (hi n L g.symm) hr) (by simpa using h)
    rw [len1, List.append_assoc] at this
    exact this

theorem sliceSegments_inv {o : Options} {om : OptModel} {layers : List (Option SliceLayer)} (h : sliceSegments o om = .ok layers) :
    ∃ fs cnt, om.faces.mapM om.facePoints = .ok fs ∧ layerCount o om = .ok cnt ∧ 0 ≤ cnt ∧ layers.length = cnt.toNat ∧ o.print.layerThickness ≠ 0 ∧
      ∀ (n : Nat) L, layers[n]? = some L → LayerInv o fs n L := by
  simp only [sliceSegments, bind_ok, makeLayers] at h
  obtain ⟨cnt, hcnt, l0, hl0, fs, hfs, h⟩ := h
  split at hl0
  · cases hl0
  · next hc =>
    cases hl0
    have := sliceFaces_inv fs [] (layers := List.replicate cnt.toNat none) (by
      intro n L hL
      rw [List.getElem?_replicate] at hL
      split at hL
      · cases hL; intro f hf; cases hf
      · cases hL) h
    refine ⟨fs, cnt, hfs, hcnt, not_lt.1 hc, by simpa using this.1, ?_, by simpa using this.2⟩
    intro e
    simp [layerCount, quo, e, bind, Except.bind] at hcnt

theorem le_tdiv {a t : Int} {n : Nat} (ht : 0 < t) : (n : Int) ≤ a.tdiv t ↔ n * t ≤ a ∨ n = 0 ∧ -t < a := by
  have h := Int.mul_tdiv_add_tmod a t
  have h1 := Int.tmod_lt_of_pos a ht
  have h2 := Int.lt_tmod_of_pos a ht
  have h3 : 0 ≤ a → 0 ≤ a.tmod t := fun h => Int.tmod_nonneg t h
  constructor
  · intro hn
    by_cases hn0 : n = 0
    · subst hn0
      right
      refine ⟨rfl, ?_⟩
      have : 0 ≤ t * a.tdiv t := Int.mul_nonneg ht.le (by simpa using hn)
      omega
    · left
      have e : (n : Int) * t ≤ t * a.tdiv t := by rw [Int.mul_comm t]; exact Int.mul_le_mul_of_nonneg_right hn ht.le
      have : 0 ≤ a := by
        by_contra hneg
        have h4 := Int.tdiv_nonneg (a := -a) (b := t) (by omega) ht.le
        rw [Int.neg_tdiv] at h4
        omega
      have := h3 this
      omega
  · rintro (hn | ⟨rfl, hn⟩)
    · have h0 : 0 ≤ a := by
        have : 0 ≤ (n : Int) * t := Int.mul_nonneg (Int.natCast_nonneg n) ht.le
        omega
      have := (Int.le_ediv_iff_mul_le ht).2 hn
      rwa [Int.tdiv_eq_ediv_of_nonneg h0]
    · by_cases h0 : 0 ≤ a
      · exact Int.tdiv_nonneg h0 ht.le
      · have : t * a.tdiv t > -t - t := by omega
        by_contra hc
        have h5 : a.tdiv t ≤ -1 := by simp at hc; omega
        have : a.tmod t ≤ 0 := by
          have := Int.tmod_nonneg t (a := -a) (by omega)
          rw [Int.neg_tmod] at this
          omega
        have h6 : t * a.tdiv t ≤ t * (-1) := Int.mul_le_mul_of_nonneg_left h5 ht.le
        omega

theorem tdiv_le {a t : Int} {n : Nat} (ht : 0 < t) (h : a ≤ n * t) : a.tdiv t ≤ n := by
  by_contra hc
  have : ((n + 1 : Nat) : Int) ≤ a.tdiv t := by push_cast; omega
  rw [le_tdiv ht] at this
  rcases this with this | ⟨h0, _⟩
  · push_cast at this
    rw [Int.add_mul] at this
    omega
  · omega

theorem faceMinZ_le {f : Tri Vec3} {z : Int} : faceMinZ f ≤ z ↔ ∃ p ∈ f.corners, p.z ≤ z := by
  simp only [faceMinZ, Tri.corners, List.mem_cons, List.not_mem_nil, or_false, exists_eq_or_imp, exists_eq_left]
  split <;> split <;> omega

theorem le_faceMaxZ {f : Tri Vec3} {z : Int} : z ≤ faceMaxZ f ↔ ∃ p ∈ f.corners, z ≤ p.z := by
  simp only [faceMaxZ, Tri.corners, List.mem_cons, List.not_mem_nil, or_false, exists_eq_or_imp, exists_eq_left]
  split <;> split <;> omega

theorem layerZ_eq (o : Options) (n : Nat) : layerZ o n = heightOf o.print.initialLayerThickness o.print.layerThickness n := by
  unfold layerZ heightOf; omega

theorem reaches_iff {o : Options} {f : Tri Vec3} {n : Nat} (ht : 0 < o.print.layerThickness) :
    Reaches o f n ↔ ReachesLayer o.print.initialLayerThickness o.print.layerThickness n f := by
  unfold Reaches ReachesLayer
  rw [layerZ_eq, faceMinZ_le, le_tdiv ht]
  have e1 : (n : Int) * o.print.layerThickness ≤ faceMaxZ f - o.print.initialLayerThickness ↔
      ∃ p ∈ f.corners, heightOf o.print.initialLayerThickness o.print.layerThickness n ≤ p.z := by
    rw [← le_faceMaxZ, heightOf]; omega
  have e2 : -o.print.layerThickness < faceMaxZ f - o.print.initialLayerThickness ↔
      ∃ p ∈ f.corners, o.print.initialLayerThickness - o.print.layerThickness < p.z := by
    have := @le_faceMaxZ f (o.print.initialLayerThickness - o.print.layerThickness + 1)
    simp only [Int.add_one_le_iff] at this
    rw [← this]; omega
  rw [e1, e2]
  refine ⟨fun h => ⟨h.1, h.2.2⟩, fun h => ⟨h.1, ?_, h.2⟩⟩
  apply tdiv_le ht
  have := faceMinZ_le.2 h.1
  unfold heightOf at this
  omega

theorem crosses_corners {z : Int} {f : Tri Vec3} (h : Crosses z f) : (∃ p ∈ f.corners, p.z ≤ z) ∧ ∃ p ∈ f.corners, z ≤ p.z := by
  unfold Crosses belowCount at h
  simp only [Tri.corners, List.countP_cons, List.countP_nil, decide_eq_true_eq, List.mem_cons, List.not_mem_nil, or_false, exists_eq_or_imp, exists_eq_left] at h ⊢
  split at h <;> split at h <;> split at h <;> omega

theorem crosses_reaches {o : Options} {f : Tri Vec3} {n : Nat} (ht : 0 < o.print.layerThickness)
    (h : Crosses (layerZ o n) f) : Reaches o f n := by
  rw [reaches_iff ht]
  rw [layerZ_eq] at h
  exact ⟨(crosses_corners h).1, .inl (crosses_corners h).2⟩

/-- **C53** The segments of layer `n` belong exactly to the faces which the plane of the layer cuts, one segment for each, in the order of the faces.
Each segment starts on the side of its face which goes down through the plane and ends on the one which goes up. The map from faces to segments gives for each face
its segment. -/
theorem C53_segments (o : Options) (om : OptModel) (layers : List (Option SliceLayer)) (h : sliceSegments o om = .ok layers)
    (ht : 0 < o.print.layerThickness) (fs : List (Tri Vec3)) (hfs : om.faces.mapM om.facePoints = .ok fs) (n : Nat) (layer : SliceLayer)
    (hn : layers[n]? = some (some layer)) :
    layer.segments.map SliceSegment.faceIndex = (List.range fs.length).filter (fun i =>
      (fs[i]?).any fun f => decide (Crosses (heightOf o.print.initialLayerThickness o.print.layerThickness n) f)) ∧
    (∀ seg ∈ layer.segments, ∃ f d u, fs[seg.faceIndex]? = some f ∧ IsSide f d ∧ IsSide f u ∧
      Down (heightOf o.print.initialLayerThickness o.print.layerThickness n) d ∧
      Up (heightOf o.print.initialLayerThickness o.print.layerThickness n) u ∧
      OnSide (heightOf o.print.initialLayerThickness o.print.layerThickness n) d seg.start ∧
      OnSide (heightOf o.print.initialLayerThickness o.print.layerThickness n) u seg.finish) ∧
    ∀ i k, layer.faceToSegmentIndex i = some k ↔ (layer.segments[k]?).map SliceSegment.faceIndex = some i := by
  obtain ⟨fs', cnt, hfs', -, -, -, -, hinv⟩ := sliceSegments_inv h
  rw [hfs] at hfs'
  cases hfs'
  obtain ⟨-, b1, b2, b3⟩ := hinv n _ hn
  rw [← layerZ_eq]
  refine ⟨?_, ?_, b3⟩
  · rw [b1]
    apply List.filter_congr
    intro i hi
    congr 1
    funext f
    by_cases hc : Crosses (layerZ o n) f
    · simp [hc, crosses_reaches ht hc]
    · simp [hc]
  · intro seg hs
    obtain ⟨f, t, hf, hc, hseg⟩ := b2 seg hs
    obtain ⟨t', p, q, e1, e2, d, u, rest⟩ := C52_segment (layerZ o n) f (sliceCase_some hc).1
    rw [hc] at e1
    cases e1
    rw [hseg] at e2
    cases e2
    exact ⟨f, d, u, hf, by tauto⟩

/-- **C53** A layer is created exactly if a face reaches its height. -/
theorem C53_layers (o : Options) (om : OptModel) (layers : List (Option SliceLayer)) (h : sliceSegments o om = .ok layers)
    (ht : 0 < o.print.layerThickness) (fs : List (Tri Vec3)) (hfs : om.faces.mapM om.facePoints = .ok fs) (n : Nat) (hn : n < layers.length) :
    layers[n]? = some none ↔ ∀ f ∈ fs, ¬ ReachesLayer o.print.initialLayerThickness o.print.layerThickness n f := by
  obtain ⟨fs', cnt, hfs', -, -, -, -, hinv⟩ := sliceSegments_inv h
  rw [hfs] at hfs'
  cases hfs'
  have hi := hinv n layers[n] (List.getElem?_eq_getElem hn)
  rw [List.getElem?_eq_getElem hn, Option.some.injEq]
  cases hl : layers[n] with
  | none =>
    rw [hl] at hi
    simp only [true_iff]
    intro f hf hr
    exact hi f hf ((reaches_iff ht).2 hr)
  | some l =>
    rw [hl] at hi
    obtain ⟨⟨f, hf, hr⟩, -⟩ := hi
    simp only [reduceCtorEq, false_iff]
    intro hh
    exact hh f hf ((reaches_iff ht).1 hr)

/-! ## Range of the layer numbers -/

theorem sliceInto_succeeds (z : Int) (i : Nat) (f : Tri Vec3) (l : SliceLayer) : ∃ l', sliceInto z i f l = .ok l' := by
  unfold sliceInto
  split
  · exact ⟨_, rfl⟩
  · next t hc =>
    obtain ⟨t', p, q, e1, e2, -⟩ := C52_segment z f (sliceCase_some hc).1
    rw [hc] at e1
    cases e1
    rw [e2]
    exact ⟨_, rfl⟩

theorem sliceAt_succeeds {o : Options} {i : Nat} {f : Tri Vec3} {layers : List (Option SliceLayer)} {k : Int}
    (h : k < layers.length) : ∃ layers', sliceAt o i f layers k = .ok layers' := by
  unfold sliceAt
  split
  · exact ⟨_, rfl⟩
  split
  · exact ⟨_, rfl⟩
  · next hk =>
    obtain ⟨m, rfl⟩ := Int.eq_ofNat_of_zero_le (not_lt.1 hk)
    have hm : m < layers.length := by omega
    rw [index_of (List.getElem?_eq_getElem hm)]
    obtain ⟨l, hl⟩ := sliceInto_succeeds (layerZ o (m : Int)) i f (layers[m].getD {})
    refine ⟨layers.set m (some l), ?_⟩
    simp only [bind, Except.bind, hl, pure, Except.pure, Int.toNat_natCast]

theorem sliceLayers_succeeds {o : Options} {i : Nat} {f : Tri Vec3} (cnt : Nat) {first : Int} {layers : List (Option SliceLayer)}
    (h : first + cnt ≤ layers.length) : ∃ layers', sliceLayers o i f cnt first layers = .ok layers' := by
  induction cnt generalizing first layers with
  | zero => exact ⟨_, rfl⟩
  | succ cnt ih =>
    obtain ⟨l1, h1⟩ := @sliceAt_succeeds o i f layers first (by omega)
    have := (sliceAt_ok h1).1
    obtain ⟨l2, h2⟩ := @ih (first + 1) l1 (by omega)
    refine ⟨l2, ?_⟩
    simp only [sliceLayers, h1, bind, Except.bind]
    exact h2

theorem sliceFaces_succeeds {o : Options} (fs : List (Tri Vec3)) (i : Nat) {layers : List (Option SliceLayer)} (ht : 0 < o.print.layerThickness)
    (h : ∀ f ∈ fs, (faceMaxZ f - o.print.initialLayerThickness).tdiv o.print.layerThickness < layers.length) :
    ∃ layers', sliceFaces o i fs layers = .ok layers' := by
  induction fs generalizing i layers with
  | nil => exact ⟨_, rfl⟩
  | cons f fs ih =>
    have ho : ∃ l1, sliceOneFace o i f layers = .ok l1 := by
      simp only [sliceOneFace, quo, if_neg ht.ne', bind, Except.bind]
      by_cases hle : (faceMinZ f - o.print.initialLayerThickness).tdiv o.print.layerThickness ≤
          (faceMaxZ f - o.print.initialLayerThickness).tdiv o.print.layerThickness
      · apply sliceLayers_succeeds
        have := h f (by simp)
        omega
      · rw [show ((faceMaxZ f - o.print.initialLayerThickness).tdiv o.print.layerThickness -
            (faceMinZ f - o.print.initialLayerThickness).tdiv o.print.layerThickness + 1).toNat = 0 by omega]
        exact ⟨_, rfl⟩
    obtain ⟨l1, h1⟩ := ho
    have len := (sliceOneFace_ok h1).1
    obtain ⟨l2, h2⟩ := @ih (i + 1) l1 (fun g hg => by rw [len]; exact h g (by simp [hg]))
    refine ⟨l2, ?_⟩
    simp only [sliceFaces, h1, bind, Except.bind]
    exact h2

theorem tdiv_mono {a b t : Int} (ht : 0 < t) (h : a ≤ b) : a.tdiv t ≤ b.tdiv t := by
  by_cases ha : 0 ≤ a
  · obtain ⟨n, hn⟩ := Int.eq_ofNat_of_zero_le (Int.tdiv_nonneg ha ht.le)
    rw [hn]
    have := (le_tdiv (n := n) ht).1 (by rw [hn])
    exact (le_tdiv ht).2 (by omega)
  · by_cases hb : 0 ≤ b
    · have h1 := Int.tdiv_nonneg hb ht.le
      have h2 := Int.tdiv_nonneg (a := -a) (b := t) (by omega) ht.le
      rw [Int.neg_tdiv] at h2
      omega
    · obtain ⟨n, hn⟩ := Int.eq_ofNat_of_zero_le (Int.tdiv_nonneg (a := -b) (b := t) (by omega) ht.le)
      have := (le_tdiv (n := n) ht).1 (by rw [hn])
      have h3 := (le_tdiv (a := -a) (n := n) ht).2 (by omega)
      rw [Int.neg_tdiv] at hn h3
      omega

/-- **C55** If no corner is higher than the size of the model (so if it stands at height 0 or below), and the model is not more than two layer thicknesses below the first
layer, all layer numbers are in the range of the layers, and nothing else goes wrong. There is a layer for each height up to the size, and a first layer
also for models which end less than one layer thickness below it. -/
theorem C55_succeeds (o : Options) (om : OptModel) (fs : List (Tri Vec3)) (hfs : om.faces.mapM om.facePoints = .ok fs)
    (ht : 0 < o.print.layerThickness) (hz : ∀ f ∈ fs, ∀ p ∈ f.corners, p.z ≤ om.size.z)
    (hsize : o.print.initialLayerThickness - 2 * o.print.layerThickness < om.size.z) :
    ∃ layers, sliceSegments o om = .ok layers ∧ ∀ n : Nat, n < layers.length ↔
      heightOf o.print.initialLayerThickness o.print.layerThickness n ≤ om.size.z ∨ n = 0 ∧ o.print.initialLayerThickness - o.print.layerThickness < om.size.z := by
  have hcnt : layerCount o om = .ok ((om.size.z - o.print.initialLayerThickness).tdiv o.print.layerThickness + 1) := by
    simp only [layerCount, quo, if_neg ht.ne', bind, Except.bind, pure, Except.pure]
  have hpos : 0 ≤ (om.size.z - o.print.initialLayerThickness).tdiv o.print.layerThickness + 1 := by
    have h := Int.mul_tdiv_add_tmod (om.size.z - o.print.initialLayerThickness) o.print.layerThickness
    have h1 := Int.tmod_lt_of_pos (om.size.z - o.print.initialLayerThickness) ht
    have h2 : om.size.z - o.print.initialLayerThickness ≤ 0 → (om.size.z - o.print.initialLayerThickness).tmod o.print.layerThickness ≤ 0 := by
      intro hle
      have := Int.tmod_nonneg o.print.layerThickness (a := -(om.size.z - o.print.initialLayerThickness)) (by omega)
      rw [Int.neg_tmod] at this
      omega
    by_cases hle : om.size.z - o.print.initialLayerThickness ≤ 0
    · have := h2 hle
      by_contra hc
      have h5 : (om.size.z - o.print.initialLayerThickness).tdiv o.print.layerThickness ≤ -2 := by omega
      have h6 := Int.mul_le_mul_of_nonneg_left h5 ht.le
      omega
    · have := Int.tdiv_nonneg (a := om.size.z - o.print.initialLayerThickness) (by omega) ht.le
      omega
  obtain ⟨layers, hl⟩ := sliceFaces_succeeds (o := o) fs 0
    (layers := List.replicate ((om.size.z - o.print.initialLayerThickness).tdiv o.print.layerThickness + 1).toNat none) ht (by
      intro f hf
      have hle : faceMaxZ f ≤ om.size.z := by
        obtain ⟨p, hp, hh⟩ := le_faceMaxZ.1 (le_refl (faceMaxZ f))
        exact hh.trans (hz f hf p hp)
      have := tdiv_mono ht (a := faceMaxZ f - o.print.initialLayerThickness) (b := om.size.z - o.print.initialLayerThickness) (by omega)
      simp only [List.length_replicate]
      omega)
  have hs : sliceSegments o om = .ok layers := by
    simp only [sliceSegments, hcnt, hfs, makeLayers, if_neg (not_lt.2 hpos), bind, Except.bind]
    exact hl
  refine ⟨layers, hs, fun n => ?_⟩
  obtain ⟨_, cnt, -, h2, -, h4, -, -⟩ := sliceSegments_inv hs
  rw [hcnt] at h2
  cases h2
  have h5 := le_tdiv (a := om.size.z - o.print.initialLayerThickness) (n := n) ht
  unfold heightOf
  omega

/-- **C55** (limit) If a face reaches the height of a layer which is not in the range of the layers, slicing fails. -/
theorem C55_outside (o : Options) (om : OptModel) (fs : List (Tri Vec3)) (hfs : om.faces.mapM om.facePoints = .ok fs)
    (ht : 0 < o.print.layerThickness) (n : Nat) (hn : om.size.z < heightOf o.print.initialLayerThickness o.print.layerThickness n) (h0 : 0 < n)
    (f : Tri Vec3) (hf : f ∈ fs) (hr : ReachesLayer o.print.initialLayerThickness o.print.layerThickness n f) (layers : List (Option SliceLayer)) :
    sliceSegments o om ≠ .ok layers := by
  intro hs
  have key : ∀ (gs : List (Tri Vec3)) (i : Nat) (l l' : List (Option SliceLayer)), sliceFaces o i gs l = .ok l' → f ∈ gs → n < l.length := by
    intro gs
    induction gs with
    | nil => intro _ _ _ _ h; cases h
    | cons g gs ih =>
      intro i l l' h hm
      simp only [sliceFaces, bind_ok] at h
      obtain ⟨l1, h1, h⟩ := h
      obtain ⟨len, get⟩ := sliceOneFace_ok h1
      rcases List.mem_cons.1 hm with rfl | hm
      · have g1 := get n
        rw [if_pos ((reaches_iff ht).2 hr)] at g1
        obtain ⟨L, _, hL, _⟩ := g1
        exact (List.getElem?_eq_some_iff.1 hL).1
      · rw [← len]
        exact ih _ _ _ h hm
  simp only [sliceSegments, bind_ok, layerCount, quo, if_neg ht.ne', makeLayers, pure, Except.pure, Except.ok.injEq, exists_eq_left'] at hs
  obtain ⟨l0, hl0, fs', hfs', h⟩ := hs
  split at hl0
  · cases hl0
  · cases hl0
    rw [hfs] at hfs'
    cases hfs'
    have := key _ _ _ _ h hf
    rw [List.length_replicate] at this
    have h5 := le_tdiv (a := om.size.z - o.print.initialLayerThickness) (n := n) ht
    unfold heightOf at hn
    omega

/-- **C55** Each optimized model which stands at height 0 (or below) can be sliced, if the layer thickness is positive and the first layer is less than twice as thick as
the others. -/
theorem C55_model (o : Options) (m : Mesh) (om : OptModel) (h : optimize o m = .ok om) (hc : o.printer.center.z ≤ 0)
    (ht : 0 < o.print.layerThickness) (hi : o.print.initialLayerThickness < 2 * o.print.layerThickness) :
    ∃ layers, sliceSegments o om = .ok layers ∧ ∀ n : Nat, n < layers.length ↔
      heightOf o.print.initialLayerThickness o.print.layerThickness n ≤ om.size.z ∨ n = 0 ∧ o.print.initialLayerThickness - o.print.layerThickness < om.size.z := by
  obtain ⟨fs, _, _, _, hfs, -, -, -⟩ := C48_faces o m om h
  obtain ⟨⟨lo, hi', hbox, hsize⟩, hp⟩ := C51_place o m om h fs hfs
  have hpos : 0 ≤ om.size.z := by
    obtain ⟨_, _, _, _, ⟨p, hp, e⟩, _⟩ := hbox.reached
    have := (hbox.inside p hp).2.2.2.2
    rw [hsize]
    show 0 ≤ hi'.z - lo.z
    omega
  exact C55_succeeds o om fs hfs ht (fun f hf p hpc => by have := (hp f hf p hpc).2.1; omega) (by omega)

/-- **C55** (limit) A layer thickness of 0 panics, and so does a model which ends two layer thicknesses or more below the first layer. -/
theorem C55_panics (o : Options) (om : OptModel) :
    (o.print.layerThickness = 0 → sliceSegments o om = .error (.panic "integer divide by zero")) ∧
    (0 < o.print.layerThickness → om.size.z ≤ o.print.initialLayerThickness - 2 * o.print.layerThickness →
      sliceSegments o om = .error (.panic "makeslice: len out of range")) := by
  constructor
  · intro h
    simp only [sliceSegments, layerCount, quo, if_pos h, bind, Except.bind]
  · intro ht h
    have hneg : (om.size.z - o.print.initialLayerThickness).tdiv o.print.layerThickness + 1 < 0 := by
      have h1 := tdiv_mono ht (a := om.size.z - o.print.initialLayerThickness) (b := (-2) * o.print.layerThickness) (by omega)
      rw [Int.mul_tdiv_cancel _ ht.ne'] at h1
      omega
    simp only [sliceSegments, layerCount, quo, if_neg ht.ne', bind, Except.bind, pure, Except.pure, makeLayers, if_pos hneg]

/-! ## Examples -/

/-- A face with one corner below the height 200, and the face next to it. -/
example : Crosses 200 ⟨⟨0, 0, 0⟩, ⟨1000, 0, 1000⟩, ⟨0, 1000, 500⟩⟩ := by decide
example := C52_segment 200 ⟨⟨0, 0, 0⟩, ⟨1000, 0, 1000⟩, ⟨0, 1000, 500⟩⟩ (by decide)
example := C54_neighbours 200 ⟨⟨0, 0, 0⟩, ⟨1000, 0, 1000⟩, ⟨0, 1000, 500⟩⟩ ⟨⟨1000, 0, 1000⟩, ⟨0, 0, 0⟩, ⟨0, -1000, 500⟩⟩ (⟨0, 0, 0⟩, ⟨1000, 0, 1000⟩)
  (.inl rfl) (by constructor <;> decide) (.inl rfl)
example := C88_direction 200 ⟨⟨0, 0, 0⟩, ⟨1000, 0, 1000⟩, ⟨0, 1000, 500⟩⟩ (⟨0, 1000, 500⟩, ⟨0, 0, 0⟩) (⟨0, 0, 0⟩, ⟨1000, 0, 1000⟩) (by decide) (.inr (.inr rfl))
  (by constructor <;> decide) (.inl rfl) (by constructor <;> decide)

/-- The tetrahedron of C47–C51 gives 5 layers with the default options. -/
theorem tetra_sliced : ∃ layers, sliceSegments {} tetraOpt = .ok layers ∧ ∀ n : Nat, n < layers.length ↔
    heightOf 200 200 n ≤ 1000 ∨ n = 0 ∧ (200 : Int) - 200 < 1000 :=
  C55_model {} tetra tetraOpt tetra_ok (by decide) (by decide) (by decide)

example : ∃ layers layer, sliceSegments {} tetraOpt = .ok layers ∧ layers[1]? = some (some layer) ∧
    layer.segments.map SliceSegment.faceIndex = [1, 2, 3] := by
  obtain ⟨layers, h, hlen⟩ := tetra_sliced
  have h1 : 1 < layers.length := (hlen 1).2 (by decide)
  have hr : layers[1]? ≠ some none := by
    rw [Ne, C53_layers {} tetraOpt layers h (by decide) tetraFaces tetraFaces_ok 1 h1]
    intro hh
    exact hh ⟨⟨99500, 99500, 0⟩, ⟨100500, 99500, 0⟩, ⟨99500, 99500, 1000⟩⟩ (by decide) ⟨⟨⟨99500, 99500, 0⟩, by decide, by decide⟩,
      .inl ⟨⟨99500, 99500, 1000⟩, by decide, by decide⟩⟩
  rw [List.getElem?_eq_getElem h1] at hr
  cases hl : layers[1] with
  | none => rw [hl] at hr; exact absurd rfl hr
  | some layer =>
    have hl' : layers[1]? = some (some layer) := by rw [List.getElem?_eq_getElem h1, hl]
    exact ⟨layers, layer, h, hl', (C53_segments {} tetraOpt layers h (by decide) tetraFaces tetraFaces_ok 1 layer hl').1.trans (by decide +kernel)⟩

/-- The same tetrahedron placed 1 mm higher has faces above the last layer. -/
example : ∀ layers, sliceSegments { printer := { center := ⟨100000, 100000, 1000⟩ } }
    { tetraOpt with points := tetraOpt.points.map fun p => { p with pos := p.pos.add ⟨0, 0, 1000⟩ } } ≠ .ok layers :=
  C55_outside _ _ (tetraFaces.map (Tri.map fun p => p.add ⟨0, 0, 1000⟩)) (by decide +kernel) (by decide) 5 (by decide) (by decide)
    ⟨⟨99500, 99500, 1000⟩, ⟨100500, 99500, 1000⟩, ⟨99500, 99500, 2000⟩⟩ (by decide)
    ⟨⟨⟨99500, 99500, 1000⟩, by decide, by decide⟩, .inl ⟨⟨99500, 99500, 2000⟩, by decide, by decide⟩⟩
example : optimize { printer := { center := ⟨100000, 100000, 1000⟩ } } tetra =
    .ok { tetraOpt with points := tetraOpt.points.map fun p => { p with pos := p.pos.add ⟨0, 0, 1000⟩ } } := by decide +kernel
example : sliceSegments { print := { layerThickness := 0 } } tetraOpt = .error (.panic "integer divide by zero") := (C55_panics _ _).1 rfl
example : sliceSegments { print := { initialLayerThickness := 1400 } } tetraOpt = .error (.panic "makeslice: len out of range") :=
  (C55_panics _ _).2 (by decide) (by decide)

end Verif
