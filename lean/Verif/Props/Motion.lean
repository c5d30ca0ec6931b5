import Verif.Spec.Motion
import Verif.Props.MachineSimplify
import Verif.Model.Slicer
import Verif.Lemmas.Res

/-! # C136: movements of the model move the sliced polygons -/
namespace Verif
open Verif.Go Verif.Model Verif.Spec

/-! ## Results of Go functions -/

theorem res_bind {α α' β β' : Type} {x : Res α} {x' : Res α'} (s : α → α') (hx : x' = x.map s) {k : α → Res β} {k' : α' → Res β'} (t : β → β')
    (hk : ∀ a, x = .ok a → k' (s a) = (k a).map t) : (x' >>= k') = (x >>= k).map t := by
  subst hx
  cases x with
  | error e => rfl
  | ok a => exact hk a rfl

theorem res_same {α β β' : Type} {x : Res α} {k : α → Res β} {k' : α → Res β'} (t : β → β') (hk : ∀ a, x = .ok a → k' a = (k a).map t) :
    (x >>= k') = (x >>= k).map t := by
  cases x with
  | error e => rfl
  | ok a => exact hk a rfl

theorem res_mapM {α α' β β' : Type} {f : α → Res β} {f' : α' → Res β'} (s : α → α') (t : β → β') (l : List α) (h : ∀ a ∈ l, f' (s a) = (f a).map t) :
    (l.map s).mapM f' = (l.mapM f).map (List.map t) := by
  induction l with
  | nil => rfl
  | cons a l ih =>
    rw [List.map_cons, List.mapM_cons, List.mapM_cons]
    refine res_bind t (h a (by simp)) _ fun b _ => ?_
    refine res_bind (List.map t) (ih fun c hc => h c (by simp [hc])) _ fun bs _ => rfl

theorem res_foldlM {α α' β β' : Type} {f : β → α → Res β} {f' : β' → α' → Res β'} (s : α → α') (t : β → β')
    (h : ∀ b a, f' (t b) (s a) = (f b a).map t) (l : List α) : ∀ b, (l.map s).foldlM f' (t b) = (l.foldlM f b).map t := by
  induction l with
  | nil => intro b; rfl
  | cons a l ih =>
    intro b
    rw [List.map_cons, List.foldlM_cons, List.foldlM_cons]
    exact res_bind t (h b a) _ fun b' _ => ih b'

theorem res_index {α β : Type} (s : α → β) (l : List α) (i : Int) : index (l.map s) i = (index l i).map s := by
  unfold index
  split
  · rw [List.getElem?_map]
    cases l[i.toNat]? <;> rfl
  · rfl

/-! ## Lengths and products -/

section
variable (m : Motion)

theorem Spec.Motion.sub (p q : Pt) : (m.pt p).sub (m.pt q) = ⟨m.c * (p.sub q).x - m.s * (p.sub q).y, m.s * (p.sub q).x + m.c * (p.sub q).y⟩ := by
  simp only [Motion.pt, Pt.sub, Pt.mk.injEq]
  constructor <;> ring

theorem Spec.Motion.dot (p q a b : Pt) : ((m.pt p).x - (m.pt q).x) * ((m.pt a).x - (m.pt b).x) + ((m.pt p).y - (m.pt q).y) * ((m.pt a).y - (m.pt b).y) =
    (p.x - q.x) * (a.x - b.x) + (p.y - q.y) * (a.y - b.y) := by
  simp only [Motion.pt]
  rcases m.quarter with ⟨h1, h2⟩ | ⟨h1, h2⟩ | ⟨h1, h2⟩ | ⟨h1, h2⟩ <;> rw [h1, h2] <;> ring

theorem Spec.Motion.size2 (p q : Pt) : ((m.pt p).sub (m.pt q)).size2 = (p.sub q).size2 := m.dot p q p q

theorem Spec.Motion.size (p q : Pt) : ((m.pt p).sub (m.pt q)).size = (p.sub q).size := by
  unfold Pt.size
  rw [m.size2]

theorem Spec.Motion.shorter (p q : Pt) (d : Micrometer) : ((m.pt p).sub (m.pt q)).shorterThanOrEqual d = (p.sub q).shorterThanOrEqual d := by
  unfold Pt.shorterThanOrEqual
  rw [m.size2]
  have e : ((m.pt p).sub (m.pt q)).x > d ∨ ((m.pt p).sub (m.pt q)).x < -d ∨ ((m.pt p).sub (m.pt q)).y > d ∨ ((m.pt p).sub (m.pt q)).y < -d ↔
      (p.sub q).x > d ∨ (p.sub q).x < -d ∨ (p.sub q).y > d ∨ (p.sub q).y < -d := by
    rw [m.sub]
    rcases m.quarter with ⟨h1, h2⟩ | ⟨h1, h2⟩ | ⟨h1, h2⟩ | ⟨h1, h2⟩ <;> rw [h1, h2] <;> dsimp only <;> omega
  simp only [e]

end

theorem wrap_congr {a b k : Int} (h : a = b + k * 2 ^ 64) : wrap a = wrap b := by
  subst h
  unfold wrap
  rw [mul_comm]
  exact Int.add_mul_bmod_self_left _ _ _

theorem sub_wrapped (a b : Pt) : ∃ i j : Int, subM a b = ⟨a.x - b.x - i * 2 ^ 64, a.y - b.y - j * 2 ^ 64⟩ := by
  obtain ⟨i, hi⟩ := wrap_emod (a.x - b.x)
  obtain ⟨j, hj⟩ := wrap_emod (a.y - b.y)
  exact ⟨i, j, by rw [subM, hi, hj]⟩

theorem dot_wrapped (a b c d : Pt) : dotProductM (subM a b) (subM c d) = wrap ((a.x - b.x) * (c.x - d.x) + (a.y - b.y) * (c.y - d.y)) := by
  obtain ⟨i, j, h⟩ := sub_wrapped a b
  obtain ⟨k, l, h'⟩ := sub_wrapped c d
  rw [h, h', dotProductM]
  dsimp only
  obtain ⟨r, hr⟩ := wrap_emod ((a.x - b.x - i * 2 ^ 64) * (c.x - d.x - k * 2 ^ 64))
  obtain ⟨t, ht⟩ := wrap_emod ((a.y - b.y - j * 2 ^ 64) * (c.y - d.y - l * 2 ^ 64))
  rw [hr, ht]
  refine wrap_congr (k := - r - t - i * (c.x - d.x) - k * (a.x - b.x) + i * k * 2 ^ 64 - j * (c.y - d.y) - l * (a.y - b.y) + j * l * 2 ^ 64) ?_
  ring

theorem size2_wrapped (a b : Pt) : size2M (subM a b) = wrap ((a.x - b.x) * (a.x - b.x) + (a.y - b.y) * (a.y - b.y)) := dot_wrapped a b a b

theorem cross_wrapped (a b : Pt) : crossM a b = wrap (a.x * b.y - a.y * b.x) := by
  obtain ⟨r, hr⟩ := wrap_emod (a.x * b.y)
  obtain ⟨t, ht⟩ := wrap_emod (a.y * b.x)
  rw [crossM, hr, ht]
  exact wrap_congr (k := - r + t) (by ring)

section
variable (m : Motion)

theorem Spec.Motion.size2M (p q : Pt) : Model.size2M (subM (m.pt p) (m.pt q)) = Model.size2M (subM p q) := by
  rw [size2_wrapped, size2_wrapped, m.dot]

theorem Spec.Motion.distance2M (p q r : Pt) : perpendicularDistance2M (m.pt p) (m.pt q) (m.pt r) = perpendicularDistance2M p q r := by
  simp only [perpendicularDistance2M, dot_wrapped, m.dot, m.size2M]

/-! ## Simplify -/

theorem Spec.Motion.simplifyNext (p newPath : Path) (i : Nat) : Model.simplifyNext (m.path p) (m.path newPath) i = (Model.simplifyNext p newPath i).map m.pt := by
  simp only [Model.simplifyNext, Motion.path, List.length_map, res_index]
  split
  · rfl
  · split <;> rfl

/-- The states of the loop for a path and the moved path, before the step with number `i`. -/
def SimplifyMoved (m : Motion) (current : Pt) (st st' : SimplifyState) : Prop :=
  st'.newPath = m.path st.newPath ∧ st'.previous = m.pt st.previous ∧
    ∃ k, st'.areaRemoved = st.areaRemoved + ((m.pt st.previous).x * (m.pt current).y - (m.pt st.previous).y * (m.pt current).x) -
      (st.previous.x * current.y - st.previous.y * current.x) + k * 2 ^ 64

theorem Spec.Motion.cross (a b c : Pt) : ((m.pt a).x * (m.pt b).y - (m.pt a).y * (m.pt b).x) - (a.x * b.y - a.y * b.x) +
    (((m.pt b).x * (m.pt c).y - (m.pt b).y * (m.pt c).x) - (b.x * c.y - b.y * c.x)) =
    ((m.pt a).x * (m.pt c).y - (m.pt a).y * (m.pt c).x) - (a.x * c.y - a.y * c.x) := by
  simp only [Motion.pt]
  rcases m.quarter with ⟨h1, h2⟩ | ⟨h1, h2⟩ | ⟨h1, h2⟩ | ⟨h1, h2⟩ <;> rw [h1, h2] <;> ring

theorem wrap_add_congr {a b c d k : Int} (h : a + c = b + d + k * 2 ^ 64) : wrap (a + wrap c) = wrap (b + wrap d) := by
  obtain ⟨i, hi⟩ := wrap_emod c
  obtain ⟨j, hj⟩ := wrap_emod d
  rw [hi, hj]
  exact wrap_congr (k := k - i + j) (by linarith)

theorem wrap_add_eq (a c : Int) : ∃ k, wrap (a + wrap c) = a + c + k * 2 ^ 64 := by
  obtain ⟨i, hi⟩ := wrap_emod c
  obtain ⟨j, hj⟩ := wrap_emod (a + wrap c)
  exact ⟨- i - j, by rw [hj, hi]; ring⟩

theorem simplifyStep_moved {p : Path} {a b : Micrometer} {st st' : SimplifyState} {i : Nat} {current : Pt} (hc : p[i]? = some current)
    (h : SimplifyMoved m current st st') :
    (∃ e, simplifyStepM p a b st i = .error e ∧ simplifyStepM (m.path p) a b st' i = .error e) ∨
    ∃ next r r', Model.simplifyNext p st.newPath i = .ok next ∧ simplifyStepM p a b st i = .ok r ∧ simplifyStepM (m.path p) a b st' i = .ok r' ∧
      SimplifyMoved m next r r' := by
  obtain ⟨h1, h2, k, h3⟩ := h
  have hi : i < p.length := (List.getElem?_eq_some_iff.1 hc).1
  have e0 : Int.tmod (i : Int) (p.length : Int) = (i : Int) := Int.tmod_eq_of_lt (by omega) (by omega)
  have e1 : index p (Int.tmod i p.length) = .ok current := by rw [e0]; exact index_of hc
  have e2 : index (m.path p) (Int.tmod i (m.path p).length) = .ok (m.pt current) := by
    rw [Motion.path, List.length_map, res_index, e1]; rfl
  have e3 := m.simplifyNext p st.newPath i
  rw [← h1] at e3
  unfold simplifyStepM
  rw [e1, e2, e3]
  cases hn : Model.simplifyNext p st.newPath i with
  | error e => exact .inl ⟨e, rfl, rfl⟩
  | ok next =>
    obtain ⟨i1, hi1⟩ := wrap_add_eq st.areaRemoved (current.x * next.y - current.y * next.x)
    obtain ⟨i2, hi2⟩ := wrap_add_eq st'.areaRemoved ((m.pt current).x * (m.pt next).y - (m.pt current).y * (m.pt next).x)
    have hcr := m.cross st.previous current next
    have harea : ∃ j, wrap (st'.areaRemoved + crossM (m.pt current) (m.pt next)) = wrap (st.areaRemoved + crossM current next) +
        ((m.pt st.previous).x * (m.pt next).y - (m.pt st.previous).y * (m.pt next).x) - (st.previous.x * next.y - st.previous.y * next.x) + j * 2 ^ 64 := by
      rw [cross_wrapped, cross_wrapped, hi1, hi2, h3]
      exact ⟨k - i1 + i2, by linarith⟩
    obtain ⟨j, hj⟩ := harea
    have hsofar : wrap (wrap (st'.areaRemoved + crossM (m.pt current) (m.pt next)) + crossM (m.pt next) (m.pt st.previous)) =
        wrap (wrap (st.areaRemoved + crossM current next) + crossM next st.previous) := by
      rw [hj, cross_wrapped (m.pt next), cross_wrapped next]
      exact wrap_add_congr (k := j) (by ring)
    have hcross : ∃ j, crossM (m.pt current) (m.pt next) = crossM current next +
        ((m.pt current).x * (m.pt next).y - (m.pt current).y * (m.pt next).x) - (current.x * next.y - current.y * next.x) + j * 2 ^ 64 := by
      obtain ⟨r, hr⟩ := wrap_emod ((m.pt current).x * (m.pt next).y - (m.pt current).y * (m.pt next).x)
      obtain ⟨t, ht⟩ := wrap_emod (current.x * next.y - current.y * next.x)
      rw [cross_wrapped, cross_wrapped, hr, ht]
      exact ⟨t - r, by ring⟩
    right
    simp only [Except.map, bind, Except.bind, pure, Except.pure, h2, m.size2M, m.distance2M, hsofar]
    by_cases hb : Model.size2M (subM next st.previous) = 0
    · rw [if_pos hb, if_pos hb]
      exact ⟨next, _, _, rfl, rfl, rfl, h1, rfl, j, hj⟩
    · rw [if_neg hb, if_neg hb]
      simp only [quo, if_neg hb]
      split
      · exact ⟨next, _, _, rfl, rfl, rfl, h1, rfl, j, hj⟩
      · refine ⟨next, _, _, rfl, rfl, rfl, ?_, rfl, hcross⟩
        simp [h1, Motion.path]

theorem simplifySteps_moved (p : Path) (a b : Micrometer) {st st' : SimplifyState} {first : Pt} (hf : p[0]? = some first) (h : SimplifyMoved m first st st') :
    ∀ n ≤ p.length, (∃ e, (List.range n).foldlM (simplifyStepM p a b) st = .error e ∧ (List.range n).foldlM (simplifyStepM (m.path p) a b) st' = .error e) ∨
      ∃ r r', (List.range n).foldlM (simplifyStepM p a b) st = .ok r ∧ (List.range n).foldlM (simplifyStepM (m.path p) a b) st' = .ok r' ∧
        r'.newPath = m.path r.newPath ∧ ∀ current, p[n]? = some current → SimplifyMoved m current r r' := by
  intro n
  induction n with
  | zero =>
    intro _
    refine .inr ⟨st, st', rfl, rfl, h.1, fun current hc => ?_⟩
    rw [hf] at hc
    cases hc
    exact h
  | succ n ih =>
    intro hn
    rw [List.range_succ, List.foldlM_append, List.foldlM_append]
    rcases ih (by omega) with ⟨e, h1, h2⟩ | ⟨r, r', h1, h2, h3, h4⟩
    · rw [h1, h2]
      exact .inl ⟨e, rfl, rfl⟩
    · rw [h1, h2]
      have hc : p[n]? = some p[n] := List.getElem?_eq_getElem (by omega)
      simp only [bind, Except.bind, List.foldlM_cons, List.foldlM_nil]
      rcases simplifyStep_moved m (a := a) (b := b) hc (h4 _ hc) with ⟨e, g1, g2⟩ | ⟨next, q, q', g0, g1, g2, g3⟩
      · rw [g1, g2]
        exact .inl ⟨e, rfl, rfl⟩
      · rw [g1, g2]
        refine .inr ⟨q, q', rfl, rfl, g3.1, fun current hc' => ?_⟩
        have hlt := (List.getElem?_eq_some_iff.1 hc').1
        have : next = current := by
          unfold Model.simplifyNext at g0
          rw [if_pos hlt] at g0
          have := (index_ok g0).2
          rw [show ((n : Int) + 1).toNat = n + 1 by omega, hc'] at this
          exact (Option.some.inj this).symm
        rw [← this]
        exact g3

theorem Spec.Motion.simplifyM (p : Path) (a b : Micrometer) : Model.simplifyM (m.path p) a b = (Model.simplifyM p a b).map m.path := by
  unfold Model.simplifyM
  have hlen : (m.path p).length = p.length := List.length_map _
  simp only [hlen]
  split
  · rfl
  · split
    · rfl
    · have hp : 0 < p.length := by omega
      have h0 : index p 0 = .ok p[0] := index_of (i := 0) (List.getElem?_eq_getElem hp)
      have hl : index p ((p.length : Int) - 1) = .ok p[p.length - 1] := by
        rw [show (p.length : Int) - 1 = ((p.length - 1 : Nat) : Int) by omega]
        exact index_of (List.getElem?_eq_getElem (by omega))
      have hl' : index (m.path p) ((p.length : Int) - 1) = .ok (m.pt p[p.length - 1]) := by rw [Motion.path, res_index, hl]; rfl
      have h0' : index (m.path p) 0 = .ok (m.pt p[0]) := by rw [Motion.path, res_index, h0]; rfl
      rw [hl, h0, hl', h0']
      simp only [bind, Except.bind]
      have hstart : SimplifyMoved m p[0] ⟨[], p[p.length - 1], crossM p[p.length - 1] p[0]⟩ ⟨[], m.pt p[p.length - 1], crossM (m.pt p[p.length - 1]) (m.pt p[0])⟩ := by
        refine ⟨rfl, rfl, ?_⟩
        obtain ⟨r, hr⟩ := wrap_emod ((m.pt p[p.length - 1]).x * (m.pt p[0]).y - (m.pt p[p.length - 1]).y * (m.pt p[0]).x)
        obtain ⟨t, ht⟩ := wrap_emod (p[p.length - 1].x * p[0].y - p[p.length - 1].y * p[0].x)
        rw [cross_wrapped, cross_wrapped, hr, ht]
        exact ⟨t - r, by ring⟩
      rcases simplifySteps_moved m p _ _ (List.getElem?_eq_getElem hp) hstart p.length le_rfl with ⟨e, g1, g2⟩ | ⟨r, r', g1, g2, g3, _⟩
      · rw [g1, g2]; rfl
      · rw [g1, g2]
        simp only [g3]
        rfl

/-! ## Slicing of faces -/

theorem interpolate_neg (z a0 z0 a1 z1 d : Micrometer) : interpolate z (-a0 + d) z0 (-a1 + d) z1 = (interpolate z a0 z0 a1 z1).map fun a => -a + d := by
  unfold interpolate quo
  by_cases h : z1 - z0 = 0
  · rw [if_pos h, if_pos h]; rfl
  · rw [if_neg h, if_neg h]
    simp only [bind, Except.bind, pure, Except.pure, Except.map, Except.ok.injEq]
    have e : (-a1 + d - (-a0 + d)) * (z - z0) = -((a1 - a0) * (z - z0)) := by ring
    rw [e, Int.neg_tdiv]
    ring

theorem interpolate_shift (z a0 z0 a1 z1 d : Micrometer) : interpolate z (a0 + d) z0 (a1 + d) z1 = (interpolate z a0 z0 a1 z1).map fun a => a + d := by
  unfold interpolate quo
  by_cases h : z1 - z0 = 0
  · rw [if_pos h, if_pos h]; rfl
  · rw [if_neg h, if_neg h]
    simp only [bind, Except.bind, pure, Except.pure, Except.map, Except.ok.injEq]
    have e : (a1 + d - (a0 + d)) * (z - z0) = (a1 - a0) * (z - z0) := by ring
    rw [e]
    ring

theorem interpolate_cases (z z0 z1 : Micrometer) : (∀ a0 a1, ∃ a, interpolate z a0 z0 a1 z1 = .ok a) ∨
    ∃ e, ∀ a0 a1, interpolate z a0 z0 a1 z1 = .error e := by
  unfold interpolate quo
  by_cases h : z1 - z0 = 0
  · exact .inr ⟨_, fun a0 a1 => by rw [if_pos h]; rfl⟩
  · exact .inl fun a0 a1 => ⟨_, by rw [if_neg h]; rfl⟩

theorem Spec.Motion.interpolate (z : Micrometer) (p q : Vec3) {x y : Micrometer} (hx : Model.interpolate z p.x p.z q.x q.z = .ok x)
    (hy : Model.interpolate z p.y p.z q.y q.z = .ok y) :
    Model.interpolate z (m.vec p).x p.z (m.vec q).x q.z = .ok (m.pt ⟨x, y⟩).x ∧ Model.interpolate z (m.vec p).y p.z (m.vec q).y q.z = .ok (m.pt ⟨x, y⟩).y := by
  simp only [Motion.vec, Motion.pt]
  rcases m.quarter with ⟨h1, h2⟩ | ⟨h1, h2⟩ | ⟨h1, h2⟩ | ⟨h1, h2⟩ <;> rw [h1, h2] <;>
    simp only [one_mul, zero_mul, neg_mul, sub_zero, zero_sub, neg_neg, zero_add, add_zero] <;>
    first | simp only [interpolate_neg, hx, hy] | skip
  all_goals simp only [interpolate_shift, hx, hy, Except.map, and_self]

theorem Spec.Motion.sliceFace (z : Micrometer) (p q r : Vec3) :
    Model.sliceFace z (m.vec p) (m.vec q) (m.vec r) = (Model.sliceFace z p q r).map fun seg => (m.pt seg.1, m.pt seg.2) := by
  unfold Model.sliceFace
  have ez : ∀ v, (m.vec v).z = v.z := fun _ => rfl
  simp only [ez]
  rcases interpolate_cases z p.z q.z with h | ⟨e, h⟩
  · obtain ⟨x, hx⟩ := h p.x q.x
    obtain ⟨y, hy⟩ := h p.y q.y
    obtain ⟨h1, h2⟩ := m.interpolate z p q hx hy
    rw [h1, h2, hx, hy]
    rcases interpolate_cases z p.z r.z with h | ⟨e, h⟩
    · obtain ⟨x', hx'⟩ := h p.x r.x
      obtain ⟨y', hy'⟩ := h p.y r.y
      obtain ⟨h1', h2'⟩ := m.interpolate z p r hx' hy'
      rw [h1', h2', hx', hy']
      rfl
    · simp only [h]; rfl
  · simp only [h]; rfl

/-- A moved segment. -/
def Spec.Motion.segment (seg : SliceSegment) : SliceSegment := ⟨m.pt seg.start, m.pt seg.finish, seg.faceIndex⟩

/-- A layer of moved segments. -/
def Spec.Motion.slices (l : SliceLayer) : SliceLayer := { segments := l.segments.map m.segment, faceToSegmentIndex := l.faceToSegmentIndex }

theorem Spec.Motion.sliceInto (z : Micrometer) (i : Nat) (f : Tri Vec3) (l : SliceLayer) :
    Model.sliceInto z i (f.map m.vec) (m.slices l) = (Model.sliceInto z i f l).map m.slices := by
  have hc : sliceCase z (f.map m.vec) = (sliceCase z f).map (Tri.map m.vec) := by
    unfold sliceCase
    have ea : (f.map m.vec).a.z = f.a.z := rfl
    have eb : (f.map m.vec).b.z = f.b.z := rfl
    have ec : (f.map m.vec).c.z = f.c.z := rfl
    rw [ea, eb, ec]
    repeat' split
    all_goals rfl
  unfold Model.sliceInto
  rw [hc]
  cases sliceCase z f with
  | none => rfl
  | some t =>
    refine res_bind _ (m.sliceFace z t.a t.b t.c) _ fun seg _ => ?_
    simp only [pure, Except.pure, Except.map, Except.ok.injEq, SliceLayer.add, Motion.slices, List.length_map, List.map_append]
    rfl

theorem Spec.Motion.sliceAt (o : Options) (i : Nat) (f : Tri Vec3) (ls : List (Option SliceLayer)) (n : Int) :
    Model.sliceAt o i (f.map m.vec) (ls.map (Option.map m.slices)) n = (Model.sliceAt o i f ls n).map (List.map (Option.map m.slices)) := by
  unfold Model.sliceAt
  have e : faceMinZ (f.map m.vec) = faceMinZ f := rfl
  rw [e]
  split
  · rfl
  · split
    · rfl
    · refine res_bind _ (res_index _ ls n) _ fun l _ => ?_
      refine res_bind m.slices ?_ _ fun l' _ => ?_
      · rw [← m.sliceInto]
        cases l <;> rfl
      · simp [pure, Except.pure, Except.map, List.map_set]

theorem Spec.Motion.sliceLayers (o : Options) (i : Nat) (f : Tri Vec3) : ∀ (k : Nat) (n : Int) (ls : List (Option SliceLayer)),
    Model.sliceLayers o i (f.map m.vec) k n (ls.map (Option.map m.slices)) = (Model.sliceLayers o i f k n ls).map (List.map (Option.map m.slices)) := by
  intro k
  induction k with
  | zero => intro n ls; rfl
  | succ k ih => intro n ls; exact res_bind _ (m.sliceAt o i f ls n) _ fun ls' _ => ih (n + 1) ls'

theorem Spec.Motion.sliceOneFace (o : Options) (i : Nat) (f : Tri Vec3) (ls : List (Option SliceLayer)) :
    Model.sliceOneFace o i (f.map m.vec) (ls.map (Option.map m.slices)) = (Model.sliceOneFace o i f ls).map (List.map (Option.map m.slices)) := by
  unfold Model.sliceOneFace
  have e : faceMinZ (f.map m.vec) = faceMinZ f := rfl
  have e' : faceMaxZ (f.map m.vec) = faceMaxZ f := rfl
  rw [e, e']
  refine res_same _ fun a _ => res_same _ fun b _ => m.sliceLayers o i f _ _ ls

theorem Spec.Motion.sliceFaces (o : Options) (fs : List (Tri Vec3)) : ∀ (i : Nat) (ls : List (Option SliceLayer)),
    Model.sliceFaces o i (fs.map (Tri.map m.vec)) (ls.map (Option.map m.slices)) = (Model.sliceFaces o i fs ls).map (List.map (Option.map m.slices)) := by
  induction fs with
  | nil => intro i ls; rfl
  | cons f fs ih => intro i ls; exact res_bind _ (m.sliceOneFace o i f ls) _ fun ls' _ => ih (i + 1) ls'

/-- A moved model; a quarter turn exchanges its width and its depth. -/
def Spec.Motion.model (om : OptModel) : OptModel :=
  { points := om.points.map fun p => { p with pos := m.vec p.pos }, faces := om.faces,
    size := if m.c = 0 then ⟨om.size.y, om.size.x, om.size.z⟩ else om.size }

theorem Spec.Motion.facePoints (om : OptModel) (f : OptFace) : (m.model om).facePoints f = (om.facePoints f).map (Tri.map m.vec) := by
  unfold OptModel.facePoints
  simp only [Motion.model]
  refine res_bind _ (res_index _ _ _) _ fun a _ => res_bind _ (res_index _ _ _) _ fun b _ => res_bind _ (res_index _ _ _) _ fun c _ => rfl

theorem Spec.Motion.sliceSegments (o : Options) (om : OptModel) :
    Model.sliceSegments o (m.model om) = (Model.sliceSegments o om).map (List.map (Option.map m.slices)) := by
  unfold Model.sliceSegments
  have hc : layerCount o (m.model om) = layerCount o om := by
    unfold layerCount Motion.model
    dsimp only
    split <;> rfl
  rw [hc]
  refine res_same _ fun n _ => ?_
  refine res_bind (List.map (Option.map m.slices)) ?_ _ fun ls _ => ?_
  · unfold makeLayers
    split
    · rfl
    · simp [Except.map]
  · refine res_bind (List.map (Tri.map m.vec)) ?_ _ fun fs _ => m.sliceFaces o fs 0 ls
    have := res_mapM (f := om.facePoints) (f' := (m.model om).facePoints) id (Tri.map m.vec) om.faces fun f _ => m.facePoints om f
    rw [List.map_id] at this
    exact this

end
end Verif
