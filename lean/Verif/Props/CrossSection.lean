import Verif.Props.Inside
import Verif.Props.Region
import Mathlib.Algebra.BigOperators.Fin

/-! # The outlines of a layer enclose the cross-section of the solid -/
namespace Verif
open Verif.Model Verif.Go Verif.Spec

/-! ## Sums along paths -/

/-- The sum over the lines of an open path. -/
def walkSum {α : Type} (g : α → α → ZMod 2) : List α → ZMod 2
  | a :: b :: l => g a b + walkSum g (b :: l)
  | _ => 0

theorem zip_walk {α : Type} (g : α → α → ZMod 2) (x : α) : ∀ (l : List α) (a : α),
    (((a :: l).zip (l ++ [x])).map fun s => g s.1 s.2).sum = walkSum g (a :: l) + g ((a :: l).getLast (List.cons_ne_nil _ _)) x
  | [], a => by simp [walkSum]
  | b :: l, a => by
    have := zip_walk g x l b
    simp only [List.cons_append, List.zip_cons_cons, List.map_cons, List.sum_cons, this, walkSum, List.getLast_cons (List.cons_ne_nil b l)]
    ring

theorem closed_walk {α : Type} (g : α → α → ZMod 2) (l : List α) (a : α) :
    (((a :: l).zip ((a :: l).rotate 1)).map fun s => g s.1 s.2).sum = walkSum g (a :: l) + g ((a :: l).getLast (List.cons_ne_nil _ _)) a := by
  rw [← zip_walk]
  simp

theorem countP_mod2 {α : Type} (p : α → Bool) (l : List α) : ((l.countP p : Nat) : ZMod 2) = (l.map fun x => if p x then (1 : ZMod 2) else 0).sum := by
  induction l with
  | nil => simp
  | cons a l ih =>
    rw [List.countP_cons, List.map_cons, List.sum_cons, ← ih]
    split <;> push_cast <;> ring

theorem odd_countP {α : Type} (p : α → Bool) (l : List α) : Odd (l.countP p) ↔ (l.map fun x => if p x then (1 : ZMod 2) else 0).sum = 1 := by
  rw [← countP_mod2, ZMod.natCast_eq_one_iff_odd]

/-- The number of crossings of a closed path, modulo 2. -/
def pathCross (q : ℚ × ℚ) (p : Path) : ZMod 2 := ((sidesOf p).map fun s => cross2 q (exactPt s.1) (exactPt s.2)).sum

theorem encloses_iff (p : Path) (q : ℚ × ℚ) : Encloses p q ↔ pathCross q p = 1 := by
  unfold Encloses pathCross cross2
  rw [odd_countP]
  simp only [decide_eq_true_eq]

theorem zmod2_ite (x : ZMod 2) : (if x = 1 then (1 : ZMod 2) else 0) = x := by
  revert x; decide

theorem insidePaths_iff (ps : Paths) (q : ℚ × ℚ) : InsidePaths ps q ↔ (ps.map (pathCross q)).sum = 1 := by
  unfold InsidePaths
  rw [odd_countP]
  simp only [decide_eq_true_eq, encloses_iff, zmod2_ite]

theorem pathCross_cons (q : ℚ × ℚ) (a : Pt) (l : Path) : pathCross q (a :: l) = walkSum (fun s t => cross2 q (exactPt s) (exactPt t)) (a :: l) +
    cross2 q (exactPt ((a :: l).getLast (List.cons_ne_nil _ _))) (exactPt a) :=
  closed_walk (fun s t => cross2 q (exactPt s) (exactPt t)) l a

theorem walkSum_map {α β : Type} (g : β → β → ZMod 2) (f : α → β) (l : List α) : walkSum g (l.map f) = walkSum (fun a b => g (f a) (f b)) l := by
  induction l with
  | nil => rfl
  | cons a l ih =>
    cases l with
    | nil => rfl
    | cons b l => simp only [List.map_cons, walkSum] at *; rw [ih]

/-- A path on one side of a point is crossed an even number of times. -/
theorem walk_side {u v : ℚ} {q : ℚ × ℚ} : ∀ (l : Path) (a : Pt), (∀ p ∈ a :: l, Side u v q (exactPt p)) →
    walkSum (fun s t => cross2 q (exactPt s) (exactPt t)) (a :: l) = cross2 q (exactPt a) (exactPt ((a :: l).getLast (List.cons_ne_nil _ _)))
  | [], a, _ => by simp [walkSum, cross2_self]
  | b :: l, a, h => by
    rw [walkSum, walk_side l b (fun p hp => h p (List.mem_cons_of_mem _ hp)), List.getLast_cons (List.cons_ne_nil b l)]
    exact cross2_tri (h a (by simp)) (h b (by simp)) (h _ (List.mem_cons_of_mem _ (List.getLast_mem _)))

theorem pathCross_side {u v : ℚ} {q : ℚ × ℚ} {p : Path} (h : ∀ x ∈ p, Side u v q (exactPt x)) : pathCross q p = 0 := by
  cases p with
  | nil => rfl
  | cons a l =>
    rw [pathCross_cons, walk_side l a h, cross2_symm q _ (exactPt a)]
    exact CharTwo.add_self_eq_zero _

/-- The sum along a cycle. -/
theorem cycle_sum (G : Nat → Nat → ZMod 2) (next : Nat → Nat) : ∀ (c : List Nat) (hc : c ≠ []), c.IsChain (fun i j => j = next i) →
    walkSum G c + G (c.getLast hc) (next (c.getLast hc)) = (c.map fun i => G i (next i)).sum
  | [], hc, _ => absurd rfl hc
  | [i], _, _ => by simp [walkSum]
  | i :: j :: l, _, h => by
    rw [List.isChain_cons_cons] at h
    have ih := cycle_sum G next (j :: l) (List.cons_ne_nil _ _) h.2
    rw [List.getLast_cons (List.cons_ne_nil j l), List.map_cons, List.sum_cons, ← ih, walkSum, h.1]
    ring

theorem sum_filter {α : Type} (p : α → Bool) (g : α → ZMod 2) (l : List α) (h : ∀ x ∈ l, p x = false → g x = 0) : ((l.filter p).map g).sum = (l.map g).sum := by
  induction l with
  | nil => rfl
  | cons a l ih =>
    have ih := ih fun x hx => h x (List.mem_cons_of_mem _ hx)
    rw [List.map_cons, List.sum_cons, ← ih]
    by_cases ha : p a = true
    · rw [List.filter_cons_of_pos ha, List.map_cons, List.sum_cons]
    · rw [List.filter_cons_of_neg ha, h a (by simp) (by simpa using ha), zero_add]

/-! ## Lengths -/

theorem size_mono {p q : Pt} (h : p.size2 ≤ q.size2) : p.size ≤ q.size := by
  have h1 : fsqrt64 (r64 (p.size2 : ℚ)) ≤ fsqrt64 (r64 (q.size2 : ℚ)) := by
    rw [fsqrt64_eq, fsqrt64_eq]
    have h2 : r64 (p.size2 : ℚ) ≤ r64 (q.size2 : ℚ) := r64_mono (by exact_mod_cast h)
    have := rnd_mono (K := ℝ) 53 (by norm_num) (-1074) (Real.sqrt_le_sqrt (show ((r64 (p.size2 : ℚ) : ℚ) : ℝ) ≤ ((r64 (q.size2 : ℚ) : ℚ) : ℝ) by exact_mod_cast h2))
    exact this
  have h0 : (0 : ℚ) ≤ fsqrt64 (r64 (p.size2 : ℚ)) := by
    rw [fsqrt64_eq]
    have := rnd_mono (K := ℝ) 53 (by norm_num) (-1074) (Real.sqrt_nonneg ((r64 (p.size2 : ℚ) : ℚ) : ℝ))
    simpa [r64] using this
  unfold Pt.size truncZ
  rw [if_pos h0, if_pos (h0.trans h1)]
  exact Int.floor_le_floor h1

theorem size2_le_of_size {v : Pt} {d : Int} (h : v.size ≤ d) (hd : d < 2 ^ 26 - 1) : v.size2 ≤ (2 * v.size) ^ 2 := by
  have hlt : v.size2 < (2 ^ 26 - 1) ^ 2 := by
    by_contra hc
    have h1 : (⟨2 ^ 26 - 1, 0⟩ : Pt).size ≤ v.size := size_mono (by
      have := not_lt.1 hc
      rw [show (⟨2 ^ 26 - 1, 0⟩ : Pt).size2 = (2 ^ 26 - 1) ^ 2 by unfold Pt.size2; norm_num]
      exact this)
    have h2 : (⟨2 ^ 26 - 1, 0⟩ : Pt).size = 2 ^ 26 - 1 := by
      have e : ((⟨2 ^ 26 - 1, 0⟩ : Pt).size2 : ℚ) = (((2 ^ 26 - 1) * (2 ^ 26 - 1) : Nat) : ℚ) := by unfold Pt.size2; norm_num
      unfold Pt.size
      rw [e, floor_r64_sqrt _ (by norm_num), Nat.sqrt_eq]
      norm_num
    omega
  have h0 := size2_nonneg v
  obtain ⟨n, hn⟩ := Int.eq_ofNat_of_zero_le h0
  have hs : v.size = Nat.sqrt n := by
    unfold Pt.size
    rw [hn]
    exact_mod_cast floor_r64_sqrt n (by rw [hn] at hlt; norm_num at hlt ⊢; omega)
  have hlt2 := Nat.lt_succ_sqrt n
  rw [hs, hn]
  generalize Nat.sqrt n = s at *
  have : n ≤ 4 * (s * s) := by
    rcases Nat.eq_zero_or_pos s with rfl | hpos
    · omega
    · simp only [Nat.succ_eq_add_one] at hlt2
      nlinarith
  have : (n : Int) ≤ 4 * ((s : Int) * s) := by exact_mod_cast this
  have e : (2 * (s : Int)) ^ 2 = 4 * ((s : Int) * s) := by ring
  rw [e]
  exact this

/-- All points of a short path are near its first one. -/
theorem pathLength_near {d : Int} (hd : d < 2 ^ 26 - 1) : ∀ (l : Path) (a : Pt), pathLength (a :: l) ≤ d → ∀ p ∈ a :: l, NearPt (2 * d) (exactPt p) (exactPt a)
  | [], a, h, p, hp => by
    obtain rfl : p = a := by simpa using hp
    have h : 0 ≤ d := h
    exact NearPt.refl (by exact_mod_cast (by omega : 0 ≤ 2 * d)) _
  | b :: l, a, h, p, hp => by
    rw [pathLength] at h
    have h1 := pathLength_nonneg (b :: l)
    have h2 := size_nonneg (b.sub a)
    have h3 := size2_le_of_size (v := b.sub a) (d := d) (by omega) hd
    rcases List.mem_cons.1 hp with rfl | hp
    · exact NearPt.refl (by exact_mod_cast (by omega : 0 ≤ 2 * d)) _
    · have ih := pathLength_near (d := d - (b.sub a).size) (by omega) l b (by omega) p hp
      have hba : NearPt (2 * (b.sub a).size : Int) (exactPt b) (exactPt a) := by
        refine ⟨by exact_mod_cast (by omega), ?_⟩
        have : (b.sub a).size2 = (b.x - a.x) ^ 2 + (b.y - a.y) ^ 2 := by unfold Pt.size2 Pt.sub; ring
        rw [this] at h3
        have h3 : ((b.x : ℚ) - a.x) ^ 2 + ((b.y : ℚ) - a.y) ^ 2 ≤ (2 * ((b.sub a).size : ℚ)) ^ 2 := by exact_mod_cast h3
        push_cast
        exact h3
      exact (ih.trans hba).mono (by push_cast; linarith)

/-! ## One layer -/

theorem near_of_onSide {z : Int} {s : Vec3 × Vec3} {p : Pt} (h : OnSide z s p) : NearPt 2 (exactPt p) (meetPoint z s) := by
  refine ⟨by norm_num, ?_⟩
  have h1 := abs_lt.1 h.1.1
  have h2 := abs_lt.1 h.2.1
  unfold exactPt meetPoint
  simp only
  nlinarith

theorem meetPoint_swap {z : Int} {s : Vec3 × Vec3} (h : s.1.z ≠ s.2.z) : meetPoint z s.swap = meetPoint z s := by
  unfold meetPoint
  rw [Prod.fst_swap, Prod.snd_swap, meet_symm h.symm, meet_symm (a0 := s.2.y) h.symm]

theorem lineAt_zero (a b : ℚ × ℚ) : lineAt a b 0 = a := by unfold lineAt; simp
theorem lineAt_one (a b : ℚ × ℚ) : lineAt a b 1 = b := by unfold lineAt; simp

/-- The lines between the ends of the segments have the same crossings as the exact lines. -/
theorem cycle_crossings {N : Nat} (q : ℚ × ℚ) (A B F : Fin N → ℚ × ℚ) (σ : Equiv.Perm (Fin N)) (hAB : ∀ i, A (σ i) = B i) (hF : ∀ i, NearPt 2 (F i) (B i))
    (hfar : ∀ i, FarFrom 2 (A i) (B i) q) : ∑ i, cross2 q (F i) (F (σ i)) = ∑ i, cross2 q (A i) (B i) := by
  have step : ∀ i, cross2 q (F i) (F (σ i)) = cross2 q (F i) (B i) + cross2 q (A (σ i)) (B (σ i)) + cross2 q (F (σ i)) (B (σ i)) := by
    intro i
    obtain ⟨u, v, hside⟩ := separated (hfar (σ i))
    have s1 : Side u v q (F i) := hside _ 0 le_rfl zero_le_one (by rw [lineAt_zero, hAB]; exact hF i)
    have s2 : Side u v q (A (σ i)) := hside _ 0 le_rfl zero_le_one (by rw [lineAt_zero]; exact NearPt.refl (by norm_num) _)
    have s3 : Side u v q (B (σ i)) := hside _ 1 zero_le_one le_rfl (by rw [lineAt_one]; exact NearPt.refl (by norm_num) _)
    have s4 : Side u v q (F (σ i)) := hside _ 1 zero_le_one le_rfl (by rw [lineAt_one]; exact hF _)
    rw [← hAB i, cross2_tri s1 s2 s3, cross2_symm q (F (σ i)), cross2_tri s1 s3 s4]
  have h2 : ∑ i, cross2 q (A (σ i)) (B (σ i)) = ∑ i, cross2 q (A i) (B i) := Equiv.sum_comp σ fun i => cross2 q (A i) (B i)
  have h3 : ∑ i, cross2 q (F (σ i)) (B (σ i)) = ∑ i, cross2 q (F i) (B i) := Equiv.sum_comp σ fun i => cross2 q (F i) (B i)
  simp only [step, Finset.sum_add_distrib, h2, h3]
  have : (∑ i, cross2 q (F i) (B i)) + ∑ i, cross2 q (F i) (B i) = 0 := CharTwo.add_self_eq_zero _
  linear_combination this

/-- The segment with the given number. -/
def segAt (layer : SliceLayer) (i : Nat) : SliceSegment := layer.segments.getD i ⟨⟨0, 0⟩, ⟨0, 0⟩, 0⟩

theorem segmentsOf_map {layer : SliceLayer} {c : List Nat} (h : ∀ i ∈ c, i < layer.segments.length) : segmentsOf layer c = c.map (segAt layer) := by
  unfold segmentsOf segAt
  induction c with
  | nil => rfl
  | cons i c ih =>
    have hi := h i (by simp)
    rw [List.filterMap_cons_some (List.getElem?_eq_getElem hi), List.map_cons, ih fun j hj => h j (List.mem_cons_of_mem _ hj)]
    simp [List.getD_eq_getElem?_getD, List.getElem?_eq_getElem hi]

/-- The crossings of an outline along a cycle of segments. -/
theorem outline_crossings {layer : SliceLayer} {q : ℚ × ℚ} {A B : Nat → ℚ × ℚ} {next : Nat → Nat}
    (hS : ∀ i < layer.segments.length, NearPt 2 (exactPt (segAt layer i).start) (A i)) (hF : ∀ i < layer.segments.length, NearPt 2 (exactPt (segAt layer i).finish) (B i))
    (hAB : ∀ i < layer.segments.length, A (next i) = B i) (hfar : ∀ i < layer.segments.length, FarFrom 2 (A i) (B i) q)
    {c : List Nat} (hlt : ∀ i ∈ c, i < layer.segments.length) (hc : c ≠ []) (hchain : c.IsChain fun i j => j = next i) (hclose : next (c.getLast hc) = c.head hc) :
    pathCross q (pathOf (segmentsOf layer c)) =
      (c.map fun i => cross2 q (exactPt (segAt layer i).finish) (exactPt (segAt layer (next i)).finish)).sum := by
  have e := cycle_sum (fun i j => cross2 q (exactPt (segAt layer i).finish) (exactPt (segAt layer j).finish)) next c hc hchain
  rw [← e, hclose, segmentsOf_map hlt]
  cases c with
  | nil => exact absurd rfl hc
  | cons i c =>
    have hi := hlt i (by simp)
    have hl := hlt _ (List.getLast_mem hc)
    obtain ⟨u, v, hside⟩ := separated (hfar i hi)
    have s1 : Side u v q (exactPt (segAt layer i).start) := hside _ 0 le_rfl zero_le_one (by rw [lineAt_zero]; exact hS i hi)
    have s2 : Side u v q (exactPt (segAt layer i).finish) := hside _ 1 zero_le_one le_rfl (by rw [lineAt_one]; exact hF i hi)
    have s3 : Side u v q (exactPt (segAt layer ((i :: c).getLast hc)).finish) := hside _ 0 le_rfl zero_le_one (by
      rw [lineAt_zero]
      have := hF _ hl
      rwa [← hAB _ hl, hclose] at this)
    have ew := walkSum_map (fun s t => cross2 q (exactPt s) (exactPt t)) (fun i => (segAt layer i).finish) (i :: c)
    rw [List.map_cons, pathOf, pathCross_cons]
    have e2 : List.map SliceSegment.finish (segAt layer i :: List.map (segAt layer) c) = (i :: c).map fun i => (segAt layer i).finish := by simp
    have e3 : ((segAt layer i).start :: (i :: c).map fun i => (segAt layer i).finish).getLast (List.cons_ne_nil _ _) = (segAt layer ((i :: c).getLast hc)).finish := by
      rw [List.getLast_cons (by simp), List.getLast_map]
    simp only [e2, e3]
    rw [← ew, List.map_cons, walkSum, List.head_cons]
    have := cross2_tri s3 s1 s2
    linear_combination this

theorem isSide_iff {f : Tri Vec3} {s : Vec3 × Vec3} : s ∈ faceSides f ↔ IsSide f s := by
  unfold faceSides IsSide
  simp

/-- The faces hit by a ray are counted by the exact segments. -/
theorem insideSolid_iff {fs : List (Tri Vec3)} {z : Int} {q : ℚ × ℚ} (htip : NoTip z fs) {N : Nat} {idx : Fin N → Nat} {d u : Fin N → Vec3 × Vec3}
    (hidx : List.ofFn idx = (List.range fs.length).filter fun i => (fs[i]?).any fun f => decide (Crosses z f))
    (hs : ∀ i, ∃ f, fs[idx i]? = some f ∧ IsSide f (d i) ∧ IsSide f (u i) ∧ Down z (d i) ∧ Up z (u i)) :
    InsideSolid fs z q ↔ ∑ i, cross2 q (meetPoint z (d i)) (meetPoint z (u i)) = 1 := by
  unfold InsideSolid
  rw [odd_countP]
  let H : Nat → ZMod 2 := fun k => match fs[k]? with
    | some f => if RayHits z q f then 1 else 0
    | none => 0
  have e1 : (fs.map fun f => if decide (RayHits z q f) then (1 : ZMod 2) else 0) = (List.range fs.length).map H := by
    apply List.ext_getElem?
    intro k
    rw [List.getElem?_map, List.getElem?_map]
    by_cases hk : k < fs.length
    · simp [H, List.getElem?_range hk, List.getElem?_eq_getElem hk]
    · rw [List.getElem?_eq_none (by omega), List.getElem?_eq_none (by simpa using hk)]; rfl
  rw [e1, ← sum_filter (fun i => (fs[i]?).any fun f => decide (Crosses z f)), ← hidx, List.map_ofFn, List.sum_ofFn]
  · have : ∀ i, (H ∘ idx) i = cross2 q (meetPoint z (d i)) (meetPoint z (u i)) := by
      intro i
      obtain ⟨f, hf, hd, hu, hdd, huu⟩ := hs i
      simp only [Function.comp, H, hf]
      unfold cross2
      have : RayHits z q f ↔ RayCrosses q (meetPoint z (d i)) (meetPoint z (u i)) := by
        constructor
        · rintro ⟨d', hd', u', hu', h1, h2, h3⟩
          rw [isSide_iff] at hd' hu'
          rwa [down_unique hd' hd h1 hdd, up_unique hu' hu h2 huu] at h3
        · exact fun h => ⟨_, isSide_iff.2 hd, _, isSide_iff.2 hu, hdd, huu, h⟩
      simp only [this]
    simp only [this]
  · intro k hk hn
    simp only [H]
    cases hf : fs[k]? with
    | none => rfl
    | some f =>
      rw [hf] at hn
      simp only
      rw [if_neg]
      rintro ⟨d', hd', u', hu', h1, h2, h3⟩
      rw [isSide_iff] at hd'
      have := crosses_of_down hd' h1 (htip f (List.mem_of_getElem? hf))
      simp [this] at hn

theorem nearPt_lineAt {d : ℚ} {a b a' b' : ℚ × ℚ} (ha : NearPt d a a') (hb : NearPt d b b') {t : ℚ} (h0 : 0 ≤ t) (h1 : t ≤ 1) : NearPt d (lineAt a b t) (lineAt a' b' t) := by
  refine ⟨ha.1, ?_⟩
  have hin := (abs_le.1 (inner_le ha.1 hb.1 ha.2 hb.2)).2
  have e : ((lineAt a b t).1 - (lineAt a' b' t).1) ^ 2 + ((lineAt a b t).2 - (lineAt a' b' t).2) ^ 2 =
      (1 - t) ^ 2 * ((a.1 - a'.1) ^ 2 + (a.2 - a'.2) ^ 2) + t ^ 2 * ((b.1 - b'.1) ^ 2 + (b.2 - b'.2) ^ 2) +
        2 * ((1 - t) * t) * ((a.1 - a'.1) * (b.1 - b'.1) + (a.2 - a'.2) * (b.2 - b'.2)) := by unfold lineAt; ring
  rw [e]
  have k1 := mul_le_mul_of_nonneg_left ha.2 (sq_nonneg (1 - t))
  have k2 := mul_le_mul_of_nonneg_left hb.2 (sq_nonneg t)
  have k3 := mul_le_mul_of_nonneg_left hin (show 0 ≤ 2 * ((1 - t) * t) by nlinarith)
  nlinarith

/-- A line whose ends are near those of another one. -/
theorem farFrom_near {d D : ℚ} {a b a' b' q : ℚ × ℚ} (hD : 0 ≤ D) (ha : NearPt d a a') (hb : NearPt d b b') (h : FarFrom (D + d) a' b' q) : FarFrom D a b q := by
  intro t h0 h1
  have key : D ^ 2 < ((lineAt a b t).1 - q.1) ^ 2 + ((lineAt a b t).2 - q.2) ^ 2 := by
    by_contra hc
    have hq : NearPt D q (lineAt a b t) := ⟨hD, by have := not_lt.1 hc; nlinarith⟩
    have h2 := (hq.trans (nearPt_lineAt ha hb h0 h1)).2
    have h3 := h t h0 h1
    generalize hw : lineAt a' b' t = w at h2
    have e1 : a'.1 + t * (b'.1 - a'.1) = w.1 := by rw [← hw]; rfl
    have e2 : a'.2 + t * (b'.2 - a'.2) = w.2 := by rw [← hw]; rfl
    rw [e1, e2] at h3
    have e3 : (w.1 - q.1) ^ 2 + (w.2 - q.2) ^ 2 = (q.1 - w.1) ^ 2 + (q.2 - w.2) ^ 2 := by ring
    linarith
  exact key

/-- The sides of an outline along a cycle of segments are near the exact lines. -/
theorem outline_sides {layer : SliceLayer} {A B : Nat → ℚ × ℚ} {next : Nat → Nat}
    (hS : ∀ i < layer.segments.length, NearPt 2 (exactPt (segAt layer i).start) (A i)) (hF : ∀ i < layer.segments.length, NearPt 2 (exactPt (segAt layer i).finish) (B i))
    (hAB : ∀ i < layer.segments.length, A (next i) = B i) {c : List Nat} (hlt : ∀ i ∈ c, i < layer.segments.length) (hc : c ≠ []) (hchain : c.IsChain fun i j => j = next i)
    (hclose : next (c.getLast hc) = c.head hc) :
    ∀ s ∈ sidesOf (pathOf (segmentsOf layer c)), ∃ i < layer.segments.length, ∃ p ∈ [A i, B i], NearPt 2 (exactPt s.1) (A i) ∧ NearPt 2 (exactPt s.2) p := by
  rw [segmentsOf_map hlt]
  -- the lines between the ends
  have walk : ∀ (c : List Nat) (i : Nat) (x : Pt), (∀ k ∈ i :: c, k < layer.segments.length) → (i :: c).IsChain (fun i j => j = next i) →
      ∀ s ∈ ((i :: c).map fun k => (segAt layer k).finish).zip ((c.map fun k => (segAt layer k).finish) ++ [x]),
        (∃ i < layer.segments.length, NearPt 2 (exactPt s.1) (A i) ∧ NearPt 2 (exactPt s.2) (B i)) ∨ s = ((segAt layer ((i :: c).getLast (List.cons_ne_nil _ _))).finish, x) := by
    intro c
    induction c with
    | nil =>
      intro i x _ _ s hs
      right
      simpa using hs
    | cons j c ih =>
      intro i x hlt hch s hs
      rw [List.isChain_cons_cons] at hch
      simp only [List.map_cons, List.cons_append, List.zip_cons_cons, List.mem_cons] at hs
      rcases hs with rfl | hs
      · left
        have hj := hlt j (by simp)
        refine ⟨j, hj, ?_, hF j hj⟩
        rw [hch.1, hAB i (hlt i (by simp))]
        exact hF i (hlt i (by simp))
      · have := ih j x (fun k hk => hlt k (List.mem_cons_of_mem _ hk)) hch.2 s (by simpa using hs)
        simpa [List.getLast_cons] using this
  cases c with
  | nil => exact absurd rfl hc
  | cons i c =>
    intro s hs
    have hi := hlt i (by simp)
    have e : sidesOf (pathOf ((i :: c).map (segAt layer))) = ((segAt layer i).start, (segAt layer i).finish) ::
        ((i :: c).map fun k => (segAt layer k).finish).zip ((c.map fun k => (segAt layer k).finish) ++ [(segAt layer i).start]) := by
      unfold sidesOf
      rw [List.map_cons, pathOf, List.rotate_cons_succ, List.rotate_zero]
      simp
      rfl
    rw [e, List.mem_cons] at hs
    rcases hs with rfl | hs
    · exact ⟨i, hi, B i, by simp, hS i hi, hF i hi⟩
    · rcases walk c i _ hlt hchain s hs with ⟨k, hk, h1, h2⟩ | rfl
      · exact ⟨k, hk, B k, by simp, h1, h2⟩
      · have hl := hlt _ (List.getLast_mem hc)
        refine ⟨i, hi, A i, by simp, ?_, hS i hi⟩
        have := hF _ hl
        rw [← hAB _ hl, hclose] at this
        exact this

/-- **C103** The outlines of a layer enclose the cross-section of the solid: for a closed surface, a point of the plane of the layer which is not within 2 µm of the surface is enclosed by an odd number of the
outlines exactly if it is inside of the solid, when the outlines which are left out because they are too short are counted too. The outlines are within 2 µm of the surface. -/
theorem C103_outlines (o : Options) (m : Mesh) (om : OptModel) (hom : optimize o m = .ok om) (fs : List (Tri Vec3)) (hfs : om.faces.mapM om.facePoints = .ok fs)
    (hclosed : ClosedSurface fs) (hmeld : 2 ≤ o.slicing.meldDistance) (ht : 0 < o.print.layerThickness)
    (layers : List (Option SliceLayer)) (h : sliceSegments o om = .ok layers) (n : Nat) (layer : SliceLayer) (hn : layers[n]? = some (some layer))
    (htip : NoTip (heightOf o.print.initialLayerThickness o.print.layerThickness n) fs)
    (hone : ∀ a b b', Follows o.slicing.meldDistance om layer a b → Follows o.slicing.meldDistance om layer a b' → b = b') :
    ∃ paths short, makePolygons o om layer = .ok paths ∧ (∀ p ∈ short, pathLength p ≤ o.slicing.finishPolygonSnapDistance) ∧
      (∀ q, FarFromSurface 2 fs (heightOf o.print.initialLayerThickness o.print.layerThickness n) q →
        (InsidePaths (paths ++ short) q ↔ InsideSolid fs (heightOf o.print.initialLayerThickness o.print.layerThickness n) q)) ∧
      (∀ D q, 0 ≤ D → FarFromSurface (D + 2) fs (heightOf o.print.initialLayerThickness o.print.layerThickness n) q → ∀ p ∈ paths ++ short, FarFromPath D p q) ∧
      (∀ p ∈ paths ++ short, ∀ x ∈ p, ∃ f ∈ fs, ∃ s ∈ faceSides f, (Down (heightOf o.print.initialLayerThickness o.print.layerThickness n) s ∨ Up (heightOf o.print.initialLayerThickness o.print.layerThickness n) s) ∧
        OnSide (heightOf o.print.initialLayerThickness o.print.layerThickness n) s x) := by
  obtain ⟨σ, hσ⟩ := cycles_exact o m om hom fs hfs hclosed hmeld ht layers h n layer hn htip
  have hσ' : ∀ (a : Fin layer.segments.length) (b : Nat), Follows o.slicing.meldDistance om layer a b ↔ b = σ a :=
    fun a b => ⟨fun hf => hone a b (σ a) hf (hσ a).1, by rintro rfl; exact (hσ a).1⟩
  obtain ⟨chains, hperm, hcyc, hpaths⟩ := C56_outlines o om layer (goodLayer_of h ht hn) σ hσ'
  refine ⟨_, (chains.map fun c => pathOf (segmentsOf layer c)).filter fun path => !decide (o.slicing.finishPolygonSnapDistance < pathLength path), hpaths, ?_, ?_⟩
  · intro p hp
    have := (List.mem_filter.1 hp).2
    simpa using this
  obtain ⟨h1, h2, -⟩ := C53_segments o om layers h ht fs hfs n layer hn
  generalize heightOf o.print.initialLayerThickness o.print.layerThickness n = z at *
  -- the exact ends of the segments
  have h2 : ∀ i : Fin layer.segments.length, ∃ d u, ∃ f, fs[layer.segments[i].faceIndex]? = some f ∧ IsSide f d ∧ IsSide f u ∧ Down z d ∧ Up z u ∧
      OnSide z d layer.segments[i].start ∧ OnSide z u layer.segments[i].finish := by
    intro i
    obtain ⟨f, d, u, hh⟩ := h2 _ (List.getElem_mem i.2)
    exact ⟨d, u, f, hh⟩
  choose d u hdu using h2
  have hAB : ∀ i, meetPoint z (d (σ i)) = meetPoint z (u i) := by
    intro i
    obtain ⟨-, f, g, w, hf, hg, hfw, hw, hgw⟩ := hσ i
    obtain ⟨f', hf', -, hu, -, huu, -⟩ := hdu i
    obtain ⟨g', hg', hd, -, hdd, -⟩ := hdu (σ i)
    rw [hf] at hf'
    cases hf'
    rw [hg] at hg'
    cases hg'
    rw [up_unique hu hfw huu hw, down_unique hd hgw hdd (show Down z w.swap from ⟨hw.1, hw.2⟩)]
    exact meetPoint_swap (by unfold Up at hw; omega)
  -- functions on all numbers
  let ext : (Fin layer.segments.length → ℚ × ℚ) → Nat → ℚ × ℚ := fun g i => if hi : i < layer.segments.length then g ⟨i, hi⟩ else 0
  let next : Nat → Nat := fun i => if hi : i < layer.segments.length then σ ⟨i, hi⟩ else 0
  have hnext : ∀ i (hi : i < layer.segments.length), next i = σ ⟨i, hi⟩ := fun i hi => dif_pos hi
  have hA : ∀ i (hi : i < layer.segments.length), ext (fun i => meetPoint z (d i)) i = meetPoint z (d ⟨i, hi⟩) := fun i hi => dif_pos hi
  have hB : ∀ i (hi : i < layer.segments.length), ext (fun i => meetPoint z (u i)) i = meetPoint z (u ⟨i, hi⟩) := fun i hi => dif_pos hi
  have hseg : ∀ i (hi : i < layer.segments.length), segAt layer i = layer.segments[i] := by
    intro i hi
    unfold segAt
    rw [List.getD_eq_getElem?_getD, List.getElem?_eq_getElem hi]; rfl
  have hlt : ∀ c ∈ chains, ∀ x ∈ c, x < layer.segments.length := fun c hc x hx =>
    List.mem_range.1 (hperm.mem_iff.1 (List.mem_flatten.2 ⟨c, hc, hx⟩))
  have hfoll : ∀ a b, Follows o.slicing.meldDistance om layer a b → b = next a := by
    intro a b hf
    have hal : a < layer.segments.length := by
      obtain ⟨s, _, _, hs, _⟩ := hf
      exact (List.getElem?_eq_some_iff.1 hs).1
    rw [hnext a hal]
    exact (hσ' ⟨a, hal⟩ b).1 hf
  have hS : ∀ i < layer.segments.length, NearPt 2 (exactPt (segAt layer i).start) (ext (fun i => meetPoint z (d i)) i) := by
    intro i hi
    obtain ⟨f, -, -, -, -, -, ho, -⟩ := hdu ⟨i, hi⟩
    rw [hA i hi, hseg i hi]
    exact near_of_onSide ho
  have hF : ∀ i < layer.segments.length, NearPt 2 (exactPt (segAt layer i).finish) (ext (fun i => meetPoint z (u i)) i) := by
    intro i hi
    obtain ⟨f, -, -, -, -, -, -, ho⟩ := hdu ⟨i, hi⟩
    rw [hB i hi, hseg i hi]
    exact near_of_onSide ho
  have hABn : ∀ i < layer.segments.length, ext (fun i => meetPoint z (d i)) (next i) = ext (fun i => meetPoint z (u i)) i := by
    intro i hi
    rw [hnext i hi, hA _ (σ ⟨i, hi⟩).2, hB i hi]
    exact hAB ⟨i, hi⟩
  have hch : ∀ c ∈ chains, c.IsChain (fun i j => j = next i) ∧ ∃ hne : c ≠ [], next (c.getLast hne) = c.head hne := by
    intro c hc
    obtain ⟨hch, a, b, ha, hb, hba⟩ := hcyc c hc
    have hne : c ≠ [] := by rintro rfl; cases ha
    refine ⟨hch.imp fun a b hf => hfoll a b hf, hne, ?_⟩
    rw [List.getLast?_eq_some_getLast hne, Option.some.injEq] at hb
    rw [List.head?_eq_some_head hne, Option.some.injEq] at ha
    rw [hb, ha]
    exact (hfoll _ _ hba).symm
  have hfarSeg : ∀ D q, FarFromSurface D fs z q → ∀ i, FarFrom D (meetPoint z (d i)) (meetPoint z (u i)) q := by
    intro D q hq i
    obtain ⟨f, hf, hd, hu, hdd, huu, -⟩ := hdu i
    exact hq f (List.mem_of_getElem? hf) _ (isSide_iff.2 hd) _ (isSide_iff.2 hu) hdd huu
  have hall : ∀ p, p ∈ ((chains.map fun c => pathOf (segmentsOf layer c)).filter fun path => decide (o.slicing.finishPolygonSnapDistance < pathLength path)) ++
      ((chains.map fun c => pathOf (segmentsOf layer c)).filter fun path => !decide (o.slicing.finishPolygonSnapDistance < pathLength path)) →
      ∃ c ∈ chains, p = pathOf (segmentsOf layer c) := by
    intro p hp
    rw [List.mem_append, List.mem_filter, List.mem_filter] at hp
    rcases hp with ⟨hp, -⟩ | ⟨hp, -⟩ <;>
    · obtain ⟨c, hc, rfl⟩ := List.mem_map.1 hp
      exact ⟨c, hc, rfl⟩
  refine ⟨fun q hq => ?_, fun D q hD hq p hp => ?_, fun p hp x hx => ?_⟩
  · have hfar2 := hfarSeg 2 q hq
    have hsumall : ∀ (f : Path → Bool) (g : Path → ZMod 2) (l : Paths), ((l.filter f ++ l.filter fun p => !f p).map g).sum = (l.map g).sum := by
      intro f g l
      induction l with
      | nil => rfl
      | cons a l ih =>
        simp only [List.map_append, List.sum_append, List.map_cons, List.sum_cons] at ih ⊢
        by_cases ha : f a = true
        · rw [List.filter_cons_of_pos ha, List.filter_cons_of_neg (by simp [ha]), List.map_cons, List.sum_cons, ← ih]
          ring
        · rw [List.filter_cons_of_neg ha, List.filter_cons_of_pos (by simp [ha]), List.map_cons, List.sum_cons, ← ih]
          ring
    rw [insideSolid_iff htip (idx := fun i => layer.segments[i].faceIndex) (d := d) (u := u), insidePaths_iff, hsumall]
    · have hpath : ∀ c ∈ chains, pathCross q (pathOf (segmentsOf layer c)) =
          (c.map fun i => cross2 q (exactPt (segAt layer i).finish) (exactPt (segAt layer (next i)).finish)).sum := by
        intro c hc
        obtain ⟨h1, hne, h2⟩ := hch c hc
        apply outline_crossings (next := next) hS hF hABn _ (hlt c hc) hne h1 h2
        intro i hi
        rw [hA i hi, hB i hi]
        exact hfar2 ⟨i, hi⟩
      rw [List.map_map]
      have e1 : chains.map (pathCross q ∘ fun c => pathOf (segmentsOf layer c)) =
          chains.map fun c => (c.map fun i => cross2 q (exactPt (segAt layer i).finish) (exactPt (segAt layer (next i)).finish)).sum :=
        List.map_congr_left fun c hc => hpath c hc
      have e2 : (chains.map fun c => (c.map fun i => cross2 q (exactPt (segAt layer i).finish) (exactPt (segAt layer (next i)).finish)).sum).sum =
          ((List.range layer.segments.length).map fun i => cross2 q (exactPt (segAt layer i).finish) (exactPt (segAt layer (next i)).finish)).sum := by
        rw [← (hperm.map _).sum_eq, List.map_flatten, List.sum_flatten, List.map_map]
        rfl
      rw [e1, e2]
      have := cycle_crossings q (fun i => meetPoint z (d i)) (fun i => meetPoint z (u i)) (fun i => exactPt layer.segments[i].finish) σ hAB
        (fun i => by obtain ⟨f, -, -, -, -, -, -, ho⟩ := hdu i; exact near_of_onSide ho) hfar2
      rw [← this, Fin.sum_univ_def, ← List.map_coe_finRange_eq_range, List.map_map]
      have e3 : ((fun i => cross2 q (exactPt (segAt layer i).finish) (exactPt (segAt layer (next i)).finish)) ∘ Fin.val) =
          fun i : Fin layer.segments.length => cross2 q (exactPt layer.segments[i].finish) (exactPt layer.segments[σ i].finish) := by
        funext i
        simp only [Function.comp, hseg i i.2, hnext i i.2, hseg _ (σ i).2, Fin.eta]
        rfl
      rw [e3]
    · rw [← h1]
      exact List.ext_getElem (by simp) (by simp)
    · intro i
      obtain ⟨f, hf, hd, hu, hdd, huu, -⟩ := hdu i
      exact ⟨f, hf, hd, hu, hdd, huu⟩
  · obtain ⟨c, hc, rfl⟩ := hall p hp
    obtain ⟨h1, hne, h2⟩ := hch c hc
    intro s hs
    obtain ⟨i, hi, p, hp, ha, hb⟩ := outline_sides hS hF hABn (hlt c hc) hne h1 h2 s hs
    have hfar := hfarSeg _ q hq ⟨i, hi⟩
    rw [← hA i hi, ← hB i hi] at hfar
    simp only [List.mem_cons, List.not_mem_nil, or_false] at hp
    rcases hp with rfl | rfl
    · exact farFrom_near hD ha hb (farFrom_left hfar)
    · exact farFrom_near hD ha hb hfar
  · obtain ⟨c, hc, rfl⟩ := hall p hp
    obtain ⟨h1, hne, -⟩ := hch c hc
    rw [segmentsOf_map (hlt c hc)] at hx
    have key : ∃ i < layer.segments.length, x = (segAt layer i).start ∨ x = (segAt layer i).finish := by
      cases c with
      | nil => exact absurd rfl hne
      | cons i c =>
        rw [List.map_cons, pathOf, List.mem_cons] at hx
        rcases hx with rfl | hx
        · exact ⟨i, hlt _ hc i (by simp), .inl rfl⟩
        · rw [← List.map_cons, List.map_map] at hx
          obtain ⟨k, hk, rfl⟩ := List.mem_map.1 hx
          exact ⟨k, hlt _ hc k hk, .inr rfl⟩
    obtain ⟨i, hi, hx⟩ := key
    obtain ⟨f, hf, hd, hu, hdd, huu, ho, ho'⟩ := hdu ⟨i, hi⟩
    rw [hseg i hi] at hx
    rcases hx with rfl | rfl
    · exact ⟨f, List.mem_of_getElem? hf, _, isSide_iff.2 hd, .inl hdd, ho⟩
    · exact ⟨f, List.mem_of_getElem? hf, _, isSide_iff.2 hu, .inr huu, ho'⟩

/-- A short outline encloses no point which is far from it. -/
theorem short_outline {d : Int} (hd : d < 2 ^ 26 - 1) {p : Path} (hp : pathLength p ≤ d) {q : ℚ × ℚ} (hq : FarFromPath (2 * max 0 d) p q) : pathCross q p = 0 := by
  cases p with
  | nil => rfl
  | cons a l =>
    have hfar : FarFrom (2 * max 0 d) (exactPt a) (exactPt a) q := by
      have hmem : ∃ b, (a, b) ∈ sidesOf (a :: l) := by
        unfold sidesOf
        cases l with
        | nil => exact ⟨a, by simp⟩
        | cons b l => exact ⟨b, by simp⟩
      obtain ⟨b, hb⟩ := hmem
      have hab : FarFrom (2 * max 0 d) (exactPt a) (exactPt b) q := hq (a, b) hb
      exact farFrom_left hab
    obtain ⟨u, v, hside⟩ := separated hfar
    apply pathCross_side (u := u) (v := v)
    intro x hx
    apply hside _ 0 le_rfl zero_le_one
    rw [lineAt_zero]
    refine (pathLength_near hd _ _ hp x hx).mono ?_
    have : (d : ℚ) ≤ ((max 0 d : Int) : ℚ) := by exact_mod_cast le_max_right _ _
    linarith

/-- **C103** The same for the outlines which are not left out, for points which are far from the surface. -/
theorem C103_layer (o : Options) (m : Mesh) (om : OptModel) (hom : optimize o m = .ok om) (fs : List (Tri Vec3)) (hfs : om.faces.mapM om.facePoints = .ok fs)
    (hclosed : ClosedSurface fs) (hmeld : 2 ≤ o.slicing.meldDistance) (ht : 0 < o.print.layerThickness) (hfin : o.slicing.finishPolygonSnapDistance < 2 ^ 26 - 1)
    (layers : List (Option SliceLayer)) (h : sliceSegments o om = .ok layers) (n : Nat) (layer : SliceLayer) (hn : layers[n]? = some (some layer))
    (htip : NoTip (heightOf o.print.initialLayerThickness o.print.layerThickness n) fs)
    (hone : ∀ a b b', Follows o.slicing.meldDistance om layer a b → Follows o.slicing.meldDistance om layer a b' → b = b') :
    ∃ paths, makePolygons o om layer = .ok paths ∧ ∀ q,
      FarFromSurface (2 * max 0 o.slicing.finishPolygonSnapDistance + 2) fs (heightOf o.print.initialLayerThickness o.print.layerThickness n) q →
      (InsidePaths paths q ↔ InsideSolid fs (heightOf o.print.initialLayerThickness o.print.layerThickness n) q) := by
  obtain ⟨paths, short, hp, hs, hin, hfar, -⟩ := C103_outlines o m om hom fs hfs hclosed hmeld ht layers h n layer hn htip hone
  refine ⟨paths, hp, fun q hq => ?_⟩
  have hD : (0 : ℚ) ≤ ((max 0 o.slicing.finishPolygonSnapDistance : Int) : ℚ) := by exact_mod_cast le_max_left _ _
  rw [← hin q fun f hf s hs s' hs' h1 h2 => farFrom_mono (hq f hf s hs s' hs' h1 h2) (by norm_num) (by linarith), insidePaths_iff, insidePaths_iff, List.map_append, List.sum_append]
  have hz : (short.map (pathCross q)).sum = 0 := by
    apply List.sum_eq_zero
    intro x hx
    obtain ⟨p, hp, rfl⟩ := List.mem_map.1 hx
    exact short_outline hfin (hs p hp) (hfar _ q (by linarith) hq p (List.mem_append_right _ hp))
  rw [hz, add_zero]

theorem starts_apart {meld : Int} {om : OptModel} {layer : SliceLayer} (hapart : layer.segments.Pairwise fun s s' => ¬ Within s.start s'.start (2 * meld)) (a b b' : Nat)
    (h : Follows meld om layer a b) (h' : Follows meld om layer a b') : b = b' := by
  obtain ⟨s, s', f, e1, e2, -, -, hw⟩ := h
  obtain ⟨s1, s1', f1, e3, e4, -, -, hw1⟩ := h'
  rw [e1] at e3
  cases e3
  obtain ⟨hb, rfl⟩ := List.getElem?_eq_some_iff.1 e2
  obtain ⟨hc, rfl⟩ := List.getElem?_eq_some_iff.1 e4
  rw [List.pairwise_iff_getElem] at hapart
  rcases Nat.lt_trichotomy b b' with hlt | heq | hlt
  · exact absurd (within_twice hw hw1) (hapart _ _ hb hc hlt)
  · exact heq
  · exact absurd (within_twice hw1 hw) (hapart _ _ hc hb hlt)

open Classical in
theorem evenOdd_enclosedBy (ps : Paths) (q : ℚ × ℚ) : q ∈ evenOdd enclosedBy (clipperPaths ps) ↔ InsidePaths ps q := by
  unfold evenOdd crossings InsidePaths clipperPaths
  simp only [Set.mem_ofPred_eq]
  rw [List.countP_map]
  have : (fun p => decide (Encloses p q)) = ((fun c => decide (q ∈ enclosedBy c)) ∘ clipperPath) := by
    funext p
    have : q ∈ enclosedBy (clipperPath p) ↔ Encloses p q := by
      unfold enclosedBy clipperPath
      rw [List.map_map]
      have : ((fun p : IntPoint => (⟨p.x, p.y⟩ : Pt)) ∘ clipperPoint) = id := by funext p; rfl
      rw [this, List.map_id]
      rfl
    simp only [Function.comp, this]
  rw [this]

/-- **C103** The parts of a layer are the cross-section of the solid: a point of the plane of the layer is in the region of the parts exactly if it is inside of the solid, unless it is near the surface, or
`Simplify` or the clipper library change the side it is on. -/
theorem C103_parts (lib : ClipperLib) (o : Options) (m : Mesh) (om : OptModel) (hom : optimize o m = .ok om) (fs : List (Tri Vec3)) (hfs : om.faces.mapM om.facePoints = .ok fs)
    (hclosed : ClosedSurface fs) (hmeld : 2 ≤ o.slicing.meldDistance) (ht : 0 < o.print.layerThickness) (hfin : o.slicing.finishPolygonSnapDistance < 2 ^ 26 - 1)
    (layers : List (Option SliceLayer)) (h : sliceSegments o om = .ok layers) (n : Nat) (layer : SliceLayer) (hn : layers[n]? = some (some layer))
    (htip : NoTip (heightOf o.print.initialLayerThickness o.print.layerThickness n) fs)
    (hone : ∀ a b b', Follows o.slicing.meldDistance om layer a b → Follows o.slicing.meldDistance om layer a b' → b = b')
    (paths simple : Paths) (hpaths : makePolygons o om layer = .ok paths) (hsimple : paths.mapM (fun p => simplifyM p (-1) (-1)) = .ok simple) (q : ℚ × ℚ)
    (hq : FarFromSurface (2 * max 0 o.slicing.finishPolygonSnapDistance + 2) fs (heightOf o.print.initialLayerThickness o.print.layerThickness n) q)
    (hsame : InsidePaths simple q ↔ InsidePaths paths q)
    (hlib : ∀ tree, lib.execute .union (clipperPaths simple) [] = some tree → (q ∈ evenOdd enclosedBy (treesContours tree) ↔ InsidePaths simple q))
    (ls : List Layer) (hls : slice lib o om = .ok ls) (l : Layer) (hl : ls[n]? = some l) :
    q ∈ region enclosedBy l.parts ↔ InsideSolid fs (heightOf o.print.initialLayerThickness o.print.layerThickness n) q := by
  obtain ⟨paths', hp', hin⟩ := C103_layer o m om hom fs hfs hclosed hmeld ht hfin layers h n layer hn htip hone
  rw [hpaths] at hp'
  cases hp'
  rw [← hin q hq, ← hsame]
  simp only [slice, h, bind, Except.bind] at hls
  have hf := mapM_ok.1 hls
  rw [List.forall₂_iff_get] at hf
  obtain ⟨hnl, hne⟩ := List.getElem?_eq_some_iff.1 hn
  obtain ⟨hnl', hne'⟩ := List.getElem?_eq_some_iff.1 hl
  have hfin := hf.2 n hnl hnl'
  simp only [List.get_eq_getElem, hne, hne', finishLayer, hpaths, bind, Except.bind, ClipperLib.generateLayerParts, hsimple] at hfin
  by_cases hz : simple.length = 0
  · rw [if_pos hz] at hfin
    cases hfin
    obtain rfl : simple = [] := List.length_eq_zero_iff.1 hz
    simp [region_nil, InsidePaths]
  · rw [if_neg hz] at hfin
    simp only [pure, Except.pure] at hfin
    cases he : lib.execute .union (clipperPaths simple) [] with
    | none => rw [he] at hfin; cases hfin
    | some tree =>
      rw [he] at hfin
      cases hfin
      rw [region_polyTree]
      exact hlib tree he

/-! ## Examples -/

/-- Options with a short finish distance, for the small example. -/
def fineOptions : Options := { slicing := { finishPolygonSnapDistance := 10 } }

theorem tetra_fine : optimize fineOptions tetra = .ok tetraOpt := by decide +kernel

theorem tetra_fine_segments : (sliceSegments fineOptions tetraOpt).map (fun ls => (ls[1]?).map (Option.map SliceLayer.segments)) = .ok
    (some (some [⟨⟨99500, 99500⟩, ⟨100100, 99500⟩, 1⟩, ⟨⟨99500, 100100⟩, ⟨99500, 99500⟩, 2⟩, ⟨⟨100100, 99500⟩, ⟨99500, 100100⟩, 3⟩])) := by decide +kernel

/-- The lines in which the plane of the second layer meets the tetrahedron. -/
theorem tetra_cuts : ∀ f ∈ tetraFaces, ∀ s ∈ faceSides f, ∀ s' ∈ faceSides f, Down 400 s → Up 400 s' → (meetPoint 400 s, meetPoint 400 s') ∈
    [((99500, 99500), (100100, 99500)), ((99500, 100100), (99500, 99500)), ((100100, 99500), ((99500 : ℚ), (100100 : ℚ)))] := by decide +kernel

/-- A point inside of the tetrahedron and one outside. -/
theorem tetra_far : FarFromSurface 22 tetraFaces 400 (99650, 99650) ∧ FarFromSurface 22 tetraFaces 400 (99350, 99650) := by
  constructor <;>
  · intro f hf s hs s' hs' hd hu t h0 h1
    have := tetra_cuts f hf s hs s' hs' hd hu
    simp only [List.mem_cons, Prod.mk.injEq, List.not_mem_nil, or_false] at this
    rcases this with ⟨e, e'⟩ | ⟨e, e'⟩ | ⟨e, e'⟩ <;> rw [e, e'] <;> norm_num <;> nlinarith

/-- The point (99650, 99650) is inside of the tetrahedron, (99350, 99650) is outside. The same is true for the outlines. -/
example : ∃ layers layer paths, sliceSegments fineOptions tetraOpt = .ok layers ∧ layers[1]? = some (some layer) ∧ makePolygons fineOptions tetraOpt layer = .ok paths ∧
    InsidePaths paths (99650, 99650) ∧ ¬ InsidePaths paths (99350, 99650) := by
  have e := tetra_fine_segments
  cases h : sliceSegments fineOptions tetraOpt with
  | error f => rw [h] at e; cases e
  | ok layers =>
    rw [h] at e
    have e := Except.ok.inj e
    rw [Option.map_eq_some_iff] at e
    obtain ⟨l, hl, e⟩ := e
    rw [Option.map_eq_some_iff] at e
    obtain ⟨layer, rfl, hs⟩ := e
    obtain ⟨paths, hp, hin⟩ := C103_layer fineOptions tetra tetraOpt tetra_fine tetraFaces tetraFaces_ok (by decide +kernel) (by decide) (by decide) (by decide) layers h 1 layer hl
      (by decide +kernel) (starts_apart (by rw [hs]; decide +kernel))
    have hD : (2 * (max 0 fineOptions.slicing.finishPolygonSnapDistance : Int) + 2 : ℚ) = 22 := by decide +kernel
    have hz : heightOf fineOptions.print.initialLayerThickness fineOptions.print.layerThickness 1 = 400 := by decide
    rw [hD, hz] at hin
    exact ⟨layers, layer, paths, rfl, hl, hp, (hin _ tetra_far.1).2 (by decide +kernel), fun hc => absurd ((hin _ tetra_far.2).1 hc) (by decide +kernel)⟩

/-- A library for the example: the union of contours which do not overlap. -/
def keepLib : ClipperLib := { trivialLib with execute := fun _ s _ => some (s.map fun c => .node c []) }

theorem treesContours_keep (cs : List (List IntPoint)) : treesContours (cs.map fun c => .node c []) = cs := by
  induction cs with
  | nil => simp [treesContours]
  | cons c cs ih => simp [treesContours, treeContours, ih]

theorem tetra_keep : (slice keepLib fineOptions tetraOpt).map (fun ls => (ls[1]?).map Layer.parts) =
    .ok (some [⟨[⟨99500, 99500⟩, ⟨100100, 99500⟩, ⟨99500, 100100⟩], []⟩]) := by decide +kernel

theorem tetra_polygons : ((sliceSegments fineOptions tetraOpt).bind fun ls => match ls[1]? with
    | some (some layer) => makePolygons fineOptions tetraOpt layer
    | _ => .error (.panic "")) = .ok [[⟨99500, 99500⟩, ⟨100100, 99500⟩, ⟨99500, 100100⟩, ⟨99500, 99500⟩]] := by decide +kernel

/-- The assumptions of C103 on the parts are met: the point inside of the tetrahedron is in the region of the part. -/
example : ∃ ls l, slice keepLib fineOptions tetraOpt = .ok ls ∧ ls[1]? = some l ∧ ((99650, 99650) : ℚ × ℚ) ∈ region enclosedBy l.parts := by
  have e := tetra_fine_segments
  have ep := tetra_polygons
  have ek := tetra_keep
  cases h : sliceSegments fineOptions tetraOpt with
  | error f => rw [h] at e; cases e
  | ok layers =>
    rw [h] at e ep
    have e := Except.ok.inj e
    rw [Option.map_eq_some_iff] at e
    obtain ⟨l, hl, e⟩ := e
    rw [Option.map_eq_some_iff] at e
    obtain ⟨layer, rfl, hs⟩ := e
    simp only [Except.bind, hl] at ep
    cases hk : slice keepLib fineOptions tetraOpt with
    | error f => rw [hk] at ek; cases ek
    | ok ls =>
      rw [hk] at ek
      have ek := Except.ok.inj ek
      rw [Option.map_eq_some_iff] at ek
      obtain ⟨l, hl', -⟩ := ek
      refine ⟨ls, l, rfl, hl', ?_⟩
      rw [C103_parts keepLib fineOptions tetra tetraOpt tetra_fine tetraFaces tetraFaces_ok (by decide +kernel) (by decide) (by decide) (by decide) layers h 1 layer hl
        (by decide +kernel) (starts_apart (by rw [hs]; decide +kernel)) _ [[⟨99500, 99500⟩, ⟨100100, 99500⟩, ⟨99500, 100100⟩]] ep (by decide +kernel) (99650, 99650)
        (by
          have hD : (2 * (max 0 fineOptions.slicing.finishPolygonSnapDistance : Int) + 2 : ℚ) = 22 := by decide +kernel
          rw [hD]
          exact tetra_far.1)
        (by decide +kernel) (by
          intro tree ht
          cases ht
          rw [treesContours_keep]
          exact evenOdd_enclosedBy _ _) ls hk l hl']
      decide +kernel

end Verif
