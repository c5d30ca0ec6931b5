import Verif.Model.MachineOptimizer
import Verif.Props.Machine
import Verif.Props.Optimizer

/-! # `optimizer` with int64 arithmetic (C126) -/
namespace Verif
open Verif.Go Verif.Model Verif.Spec

/-- All coordinates are at most `b`. -/
def VecIn (b : Int) (v : Vec3) : Prop := |v.x| ≤ b ∧ |v.y| ≤ b ∧ |v.z| ≤ b

theorem VecIn.mono {a b : Int} {v : Vec3} (h : VecIn a v) (hab : a ≤ b) : VecIn b v := ⟨h.1.trans hab, h.2.1.trans hab, h.2.2.trans hab⟩

theorem VecIn.sub {a b : Int} {v w : Vec3} (hv : VecIn a v) (hw : VecIn b w) : VecIn (a + b) (v.sub w) :=
  ⟨(abs_sub _ _).trans (add_le_add hv.1 hw.1), (abs_sub _ _).trans (add_le_add hv.2.1 hw.2.1), (abs_sub _ _).trans (add_le_add hv.2.2 hw.2.2)⟩

theorem subM3_eq {a b : Int} {v w : Vec3} (hv : VecIn a v) (hw : VecIn b w) (h : a + b < 2 ^ 63) : subM3 v w = v.sub w := by
  have k := hv.sub hw
  have k1 : wrap (v.x - w.x) = v.x - w.x := wrap_of_abs k.1 h
  have k2 : wrap (v.y - w.y) = v.y - w.y := wrap_of_abs k.2.1 h
  have k3 : wrap (v.z - w.z) = v.z - w.z := wrap_of_abs k.2.2 h
  unfold subM3 Vec3.sub
  rw [k1, k2, k3]

theorem shorterM3_eq {b : Int} {v : Vec3} (hv : VecIn b v) (hb : b < 2 ^ 30) {l : Int} (hl : |l| < 2 ^ 30) : shorterThanOrEqualM3 v l = v.shorterThanOrEqual l := by
  have h := mul_self_bounds hl.le
  have h1 := mul_self_bounds (hv.1.trans hb.le)
  have h2 := mul_self_bounds (hv.2.1.trans hb.le)
  have h3 := mul_self_bounds (hv.2.2.trans hb.le)
  unfold shorterThanOrEqualM3 Vec3.shorterThanOrEqual size2M3 Vec3.size2
  rw [wrap_of_lt (n := v.x * v.x), wrap_of_lt (n := v.y * v.y), wrap_of_lt (n := v.z * v.z), wrap_of_lt (n := l * l),
    wrap_of_lt (n := v.x * v.x + v.y * v.y), wrap_of_lt] <;> omega

theorem index_mem {α : Type} {l : List α} {i : Int} {a : α} (h : index l i = .ok a) : a ∈ l := by
  unfold index at h
  split at h
  · split at h
    · rename_i b hb
      cases h
      exact List.mem_of_getElem? hb
    · cases h
  · cases h

section
variable {meld : Micrometer} (hm : |meld| < 2 ^ 30)
include hm

theorem findPointM_eq {points : List MPoint} (hp : ∀ p ∈ points, VecIn (2 ^ 26) p.pos) {v : Vec3} (hv : VecIn (2 ^ 26) v) (is : List Nat) :
    findPointM meld points v is = findPoint meld points v is := by
  induction is with
  | nil => rfl
  | cons i is ih =>
    unfold findPointM findPoint
    cases hi : index points (i : Int) with
    | error e => rfl
    | ok p =>
      have hpm : p ∈ points := index_mem hi
      have hs := (hp p hpm).sub hv
      simp only [bind, Except.bind]
      rw [subM3_eq (hp p hpm) hv (by norm_num), shorterM3_eq hs (by norm_num) hm, ih]

theorem addPointM_eq {s : OptState} (hp : ∀ p ∈ s.points, VecIn (2 ^ 26) p.pos) {v : Vec3} (hv : VecIn (2 ^ 26) v) : addPointM meld s v = addPoint meld s v := by
  unfold addPointM addPoint
  cases pointHash meld v with
  | error e => rfl
  | ok h =>
    simp only [bind, Except.bind]
    rw [findPointM_eq hm hp hv]
    rfl

omit hm in
theorem addPoint_in {s : OptState} (hp : ∀ p ∈ s.points, VecIn (2 ^ 26) p.pos) {v : Vec3} (hv : VecIn (2 ^ 26) v) {i : Nat} {s' : OptState}
    (h : addPoint meld s v = .ok (i, s')) : ∀ p ∈ s'.points, VecIn (2 ^ 26) p.pos := by
  unfold addPoint at h
  obtain ⟨hash, -, h⟩ := bind_ok.1 h
  obtain ⟨r, -, h⟩ := bind_ok.1 h
  cases r with
  | some j => cases h; exact hp
  | none =>
    cases h
    intro p hpm
    rcases List.mem_append.1 hpm with hpm | hpm
    · exact hp p hpm
    · rw [List.mem_singleton] at hpm
      subst hpm
      exact hv

omit hm in
theorem addFaceIndex_in {face i : Nat} {points : List MPoint} (hp : ∀ p ∈ points, VecIn (2 ^ 26) p.pos) : ∀ p ∈ addFaceIndex face i points, VecIn (2 ^ 26) p.pos := by
  intro p hpm
  unfold addFaceIndex at hpm
  obtain ⟨j, hj, rfl⟩ := List.getElem_of_mem hpm
  rw [List.getElem_modify]
  split
  · exact hp (points[j]'(by simpa using hj)) (List.getElem_mem _)
  · exact hp _ (List.getElem_mem _)

omit hm in
theorem addIndices_in {s s' : OptState} {t : Tri Nat} (hp : ∀ p ∈ s.points, VecIn (2 ^ 26) p.pos) (h : addIndices s t = .ok s') : ∀ p ∈ s'.points, VecIn (2 ^ 26) p.pos := by
  unfold addIndices at h
  split at h
  · cases h; exact hp
  · obtain ⟨p0, -, h⟩ := bind_ok.1 h
    obtain ⟨p1, -, h⟩ := bind_ok.1 h
    obtain ⟨p2, -, h⟩ := bind_ok.1 h
    split at h
    · cases h; exact hp
    · cases h
      exact addFaceIndex_in (addFaceIndex_in (addFaceIndex_in hp))

theorem addFaceM_eq {s : OptState} (hp : ∀ p ∈ s.points, VecIn (2 ^ 26) p.pos) {f : Tri Vec3} (hf : ∀ v ∈ f.corners, VecIn (2 ^ 26) v) :
    addFaceM meld s f = addFace meld s f ∧ ∀ s', addFace meld s f = .ok s' → ∀ p ∈ s'.points, VecIn (2 ^ 26) p.pos := by
  have ha := hf f.a (by simp [Tri.corners])
  have hb := hf f.b (by simp [Tri.corners])
  have hc := hf f.c (by simp [Tri.corners])
  unfold addFaceM addFace
  rw [addPointM_eq hm hp ha]
  cases h0 : addPoint meld s f.a with
  | error e => exact ⟨rfl, fun s' h => by cases h⟩
  | ok r0 =>
    obtain ⟨i0, s0⟩ := r0
    have p0 := addPoint_in hp ha h0
    simp only [bind, Except.bind]
    rw [addPointM_eq hm p0 hb]
    cases h1 : addPoint meld s0 f.b with
    | error e => exact ⟨rfl, fun s' h => by cases h⟩
    | ok r1 =>
      obtain ⟨i1, s1⟩ := r1
      have p1 := addPoint_in p0 hb h1
      simp only
      rw [addPointM_eq hm p1 hc]
      cases h2 : addPoint meld s1 f.c with
      | error e => exact ⟨rfl, fun s' h => by cases h⟩
      | ok r2 =>
        obtain ⟨i2, s2⟩ := r2
        exact ⟨rfl, fun s' h => addIndices_in (addPoint_in p1 hc h2) h⟩

theorem addFacesM_eq (m : Mesh) {s : OptState} (hp : ∀ p ∈ s.points, VecIn (2 ^ 26) p.pos) (hf : ∀ f ∈ m, ∀ v ∈ f.corners, VecIn (2 ^ 26) v) :
    addFacesM meld s m = addFaces meld s m ∧ ∀ s', addFaces meld s m = .ok s' → ∀ p ∈ s'.points, VecIn (2 ^ 26) p.pos := by
  induction m generalizing s with
  | nil => exact ⟨rfl, fun s' h => by cases h; exact hp⟩
  | cons f fs ih =>
    obtain ⟨e, hin⟩ := addFaceM_eq hm hp (hf f (by simp))
    unfold addFacesM addFaces
    rw [e]
    cases h : addFace meld s f with
    | error e => exact ⟨rfl, fun s' h => by cases h⟩
    | ok s1 => exact ih (hin s1 h) fun g hg => hf g (List.mem_cons_of_mem _ hg)

end

theorem tdiv_two_abs {a b : Int} (h : |a| ≤ 2 * b) : |a.tdiv 2| ≤ b := by
  rw [abs_le] at *
  obtain ⟨h1, h2⟩ := h
  rcases le_or_gt 0 a with h | h
  · rw [Int.tdiv_eq_ediv_of_nonneg h]
    omega
  · rw [show a.tdiv 2 = -((-a) / 2) by rw [← Int.tdiv_eq_ediv_of_nonneg (by omega), Int.neg_tdiv, neg_neg]]
    omega

/-- The mesh and the options are not too large: all coordinates are at most 2^26 µm (67 m). -/
structure MeshFits (o : Options) (m : Mesh) : Prop where
  corners : ∀ f ∈ m, ∀ v ∈ f.corners, VecIn (2 ^ 26) v
  center : VecIn (2 ^ 26) o.printer.center
  meld : |o.slicing.meldDistance| < 2 ^ 30

theorem meshBox_in {m : Mesh} {b : Int} (hc : ∀ f ∈ m, ∀ v ∈ f.corners, VecIn b v) {lo hi : Vec3} (h1 : meshMin m = .ok lo) (h2 : meshMax m = .ok hi) : VecIn b lo ∧ VecIn b hi := by
  obtain ⟨⟨p1, m1, e1⟩, ⟨p2, m2, e2⟩, ⟨p3, m3, e3⟩, ⟨p4, m4, e4⟩, ⟨p5, m5, e5⟩, ⟨p6, m6, e6⟩⟩ := (mesh_box h1 h2).reached
  have hv : ∀ p ∈ vertices m, VecIn b p := fun p hp => by
    obtain ⟨f, hf, hp⟩ := List.mem_flatMap.1 hp
    exact hc f hf p hp
  exact ⟨⟨e1 ▸ (hv p1 m1).1, e3 ▸ (hv p3 m3).2.1, e5 ▸ (hv p5 m5).2.2⟩, ⟨e2 ▸ (hv p2 m2).1, e4 ▸ (hv p4 m4).2.1, e6 ▸ (hv p6 m6).2.2⟩⟩

theorem vectorOffsetM_eq {c lo hi : Vec3} (hc : VecIn (2 ^ 26) c) (hlo : VecIn (2 ^ 26) lo) (hhi : VecIn (2 ^ 26) hi) :
    vectorOffsetM c lo hi = vectorOffset c lo hi ∧ VecIn (2 * 2 ^ 26) (vectorOffset c lo hi) := by
  have hx : |lo.x + hi.x| ≤ 2 * 2 ^ 26 := (abs_add_le _ _).trans (by linarith [hlo.1, hhi.1])
  have hy : |lo.y + hi.y| ≤ 2 * 2 ^ 26 := (abs_add_le _ _).trans (by linarith [hlo.2.1, hhi.2.1])
  have hmid : VecIn (2 ^ 26) ⟨(lo.x + hi.x).tdiv 2, (lo.y + hi.y).tdiv 2, lo.z⟩ := ⟨tdiv_two_abs hx, tdiv_two_abs hy, hlo.2.2⟩
  unfold vectorOffsetM vectorOffset
  rw [wrap_of_abs hx (by norm_num), wrap_of_abs hy (by norm_num), subM3_eq hmid hc (by norm_num)]
  exact ⟨rfl, (hmid.sub hc).mono (by norm_num)⟩

/-- **C126** The optimizer does not overflow. -/
theorem C126_optimize {o : Options} {m : Mesh} (h : MeshFits o m) : optimizeM o m = optimize o m ∧
    ∀ om, optimize o m = .ok om → (∀ p ∈ om.points, VecIn (3 * 2 ^ 26) p.pos) ∧ VecIn (2 * 2 ^ 26) om.size := by
  obtain ⟨e, hin⟩ := addFacesM_eq h.meld m (s := {}) (by simp) h.corners
  unfold optimizeM optimize
  rw [e]
  cases hs : addFaces o.slicing.meldDistance {} m with
  | error e => exact ⟨rfl, fun om h => by cases h⟩
  | ok s =>
    have hp := hin s hs
    simp only [bind, Except.bind]
    cases ht : touchingFaces s.points 0 s.faces with
    | error e => exact ⟨rfl, fun om h => by cases h⟩
    | ok faces =>
      cases h1 : meshMin m with
      | error e => exact ⟨rfl, fun om h => by cases h⟩
      | ok lo =>
        cases h2 : meshMax m with
        | error e => exact ⟨rfl, fun om h => by cases h⟩
        | ok hi =>
          obtain ⟨hlo, hhi⟩ := meshBox_in h.corners h1 h2
          obtain ⟨ev, hv⟩ := vectorOffsetM_eq h.center hlo hhi
          simp only [pure, Except.pure, Except.ok.injEq]
          rw [ev, subM3_eq hhi hlo (by norm_num)]
          refine ⟨?_, ?_⟩
          · congr 1
            refine List.map_congr_left fun p hpm => ?_
            rw [subM3_eq (hp p hpm) hv (by norm_num)]
          · rintro om rfl
            refine ⟨fun p hpm => ?_, (hhi.sub hlo).mono (by norm_num)⟩
            obtain ⟨q, hq, rfl⟩ := List.mem_map.1 hpm
            exact ((hp q hq).sub hv).mono (by norm_num)

end Verif
