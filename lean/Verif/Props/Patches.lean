import Verif.Props.Holes

/-! # Holes which are closed by several triangles (C147) -/
namespace Verif
open Verif.Go Verif.Model Verif.Spec

/-- The sides of the faces which go down through the plane. -/
def downs (z : Int) (P : List (Tri Vec3)) : List (Vec3 × Vec3) := P.flatMap fun f => (faceSides f).filter fun s => decide (Down z s)

/-- The sides of the faces which go up through the plane. -/
def ups (z : Int) (P : List (Tri Vec3)) : List (Vec3 × Vec3) := P.flatMap fun f => (faceSides f).filter fun s => decide (Up z s)

theorem mem_downs {z : Int} {P : List (Tri Vec3)} {s : Vec3 × Vec3} : s ∈ downs z P ↔ ∃ g ∈ P, IsSide g s ∧ Down z s := by
  unfold downs
  simp only [List.mem_flatMap, List.mem_filter, decide_eq_true_eq, isSide_iff]

theorem mem_ups {z : Int} {P : List (Tri Vec3)} {s : Vec3 × Vec3} : s ∈ ups z P ↔ ∃ g ∈ P, IsSide g s ∧ Up z s := by
  unfold ups
  simp only [List.mem_flatMap, List.mem_filter, decide_eq_true_eq, isSide_iff]

/-- The sides going down without the ones which have a face of the patch on the other side. -/
def looseDowns (z : Int) (P : List (Tri Vec3)) : List (Vec3 × Vec3) := (downs z P).filter fun s => decide (s.swap ∉ ups z P)

/-- The sides going up without the ones which have a face of the patch on the other side. -/
def looseUps (z : Int) (P : List (Tri Vec3)) : List (Vec3 × Vec3) := (ups z P).filter fun s => decide (s.swap ∉ downs z P)

/-- The gaps which the patch leaves. -/
def gapsOf (z : Int) (P : List (Tri Vec3)) : List Gap := ((looseDowns z P).map Prod.swap).zip ((looseUps z P).map Prod.swap)

theorem downs_cons (z : Int) (f : Tri Vec3) (P : List (Tri Vec3)) : downs z (f :: P) = (faceSides f).filter (fun s => decide (Down z s)) ++ downs z P := rfl

theorem ups_cons (z : Int) (f : Tri Vec3) (P : List (Tri Vec3)) : ups z (f :: P) = (faceSides f).filter (fun s => decide (Up z s)) ++ ups z P := rfl

theorem downs_length (z : Int) (P : List (Tri Vec3)) : (downs z P).length = (ups z P).length := by
  induction P with
  | nil => rfl
  | cons f P ih =>
    rw [downs_cons, ups_cons, List.length_append, List.length_append, ih]
    rcases face_cuts z f with ⟨h1, h2⟩ | ⟨d, u, h1, h2⟩ <;> simp [h1, h2]

/-- The crossings of the faces of a patch, counted at the ends of the cuts. -/
theorem hits_sum {z : Int} {q c : ℚ × ℚ} {a b : ℚ} (hc : Side a b q c) : ∀ (P : List (Tri Vec3)) (_ : ∀ g ∈ P, ∀ s ∈ faceSides g, Down z s ∨ Up z s → Side a b q (meetPoint z s)),
    ((P.countP fun f => decide (RayHits z q f) : Nat) : ZMod 2) = ((downs z P).map fun s => cross2 q (meetPoint z s) c).sum + ((ups z P).map fun s => cross2 q (meetPoint z s) c).sum
  | [], _ => by simp [downs, ups]
  | f :: P, h => by
    rw [List.countP_cons, Nat.cast_add, hits_sum hc P fun g hg => h g (List.mem_cons_of_mem _ hg), downs_cons, ups_cons, List.map_append, List.map_append, List.sum_append, List.sum_append]
    have hone : ((if decide (RayHits z q f) = true then 1 else 0 : Nat) : ZMod 2) =
        (((faceSides f).filter (fun s => decide (Down z s))).map fun s => cross2 q (meetPoint z s) c).sum +
          (((faceSides f).filter (fun s => decide (Up z s))).map fun s => cross2 q (meetPoint z s) c).sum := by
      rcases face_cuts z f with ⟨h1, h2⟩ | ⟨d, u, h1, h2⟩
      · rw [h1, h2, if_neg]
        · simp
        · intro hr
          rw [decide_eq_true_eq] at hr
          obtain ⟨d, hd, u, -, hdd, -⟩ := hr
          have : d ∈ (faceSides f).filter (fun s => decide (Down z s)) := List.mem_filter.2 ⟨hd, by simpa using hdd⟩
          rw [h1] at this
          cases this
      · have m1 : ∀ s, s ∈ faceSides f ∧ Down z s ↔ s = d := fun s => by
          have : s ∈ (faceSides f).filter (fun s => decide (Down z s)) ↔ s = d := by rw [h1]; simp
          rw [← this, List.mem_filter, decide_eq_true_eq]
        have m2 : ∀ s, s ∈ faceSides f ∧ Up z s ↔ s = u := fun s => by
          have : s ∈ (faceSides f).filter (fun s => decide (Up z s)) ↔ s = u := by rw [h2]; simp
          rw [← this, List.mem_filter, decide_eq_true_eq]
        obtain ⟨d1, d2⟩ := (m1 d).2 rfl
        obtain ⟨u1, u2⟩ := (m2 u).2 rfl
        have e : RayHits z q f ↔ RayCrosses q (meetPoint z d) (meetPoint z u) := by
          constructor
          · rintro ⟨d', a1, u', a2, a3, a4, a5⟩
            rwa [(m1 d').1 ⟨a1, a3⟩, (m2 u').1 ⟨a2, a4⟩] at a5
          · exact fun hr => ⟨d, d1, u, u1, d2, u2, hr⟩
        have hf := h f List.mem_cons_self
        have tri := cross2_tri (hf d d1 (.inl d2)) (hf u u1 (.inr u2)) hc
        rw [h1, h2, List.map_singleton, List.map_singleton, List.sum_singleton, List.sum_singleton, ← tri]
        have two : cross2 q (meetPoint z u) c + cross2 q (meetPoint z u) c = 0 := CharTwo.add_self_eq_zero _
        rw [add_assoc, two, add_zero]
        unfold cross2
        by_cases hr : RayCrosses q (meetPoint z d) (meetPoint z u)
        · rw [if_pos hr, if_pos (by simpa using e.2 hr)]; rfl
        · rw [if_neg hr, if_neg (by simpa using fun h => hr (e.1 h))]; rfl
    rw [hone]
    ring

theorem sum_filter_split {α M : Type} [AddCommMonoid M] (p : α → Bool) (φ : α → M) (l : List α) : (l.map φ).sum = ((l.filter p).map φ).sum + ((l.filter fun a => !p a).map φ).sum := by
  induction l with
  | nil => simp
  | cons a l ih =>
    rw [List.map_cons, List.sum_cons, ih]
    by_cases h : p a = true
    · rw [List.filter_cons_of_pos h, List.filter_cons_of_neg (by simp [h]), List.map_cons, List.sum_cons, add_assoc]
    · rw [List.filter_cons_of_neg h, List.filter_cons_of_pos (by simp [h]), List.map_cons, List.sum_cons]
      rw [add_left_comm]

/-- The sides between two faces of a patch. -/
theorem inner_perm {z : Int} {P : List (Tri Vec3)} (hd : (downs z P).Nodup) (hu : (ups z P).Nodup) :
    (((downs z P).filter fun s => !decide (s.swap ∉ ups z P)).map Prod.swap).Perm ((ups z P).filter fun s => !decide (s.swap ∉ downs z P)) := by
  rw [List.perm_ext_iff_of_nodup ((hd.filter _).map Prod.swap_injective) (hu.filter _)]
  intro s
  simp only [List.mem_map, List.mem_filter, Bool.not_eq_true', decide_eq_false_iff_not, not_not]
  constructor
  · rintro ⟨s', ⟨h1, h2⟩, rfl⟩
    exact ⟨h2, by rwa [Prod.swap_swap]⟩
  · rintro ⟨h1, h2⟩
    exact ⟨s.swap, ⟨h2, by rwa [Prod.swap_swap]⟩, Prod.swap_swap s⟩

theorem loose_length {z : Int} {P : List (Tri Vec3)} (hd : (downs z P).Nodup) (hu : (ups z P).Nodup) : (looseDowns z P).length = (looseUps z P).length := by
  have e1 := sum_filter_split (fun s => decide (s.swap ∉ ups z P)) (fun _ => (1 : Nat)) (downs z P)
  have e2 := sum_filter_split (fun s => decide (s.swap ∉ downs z P)) (fun _ => (1 : Nat)) (ups z P)
  have e3 := (inner_perm hd hu).length_eq
  have e4 := downs_length z P
  simp only [List.map_const', List.sum_replicate, smul_eq_mul, mul_one, List.length_map] at e1 e2 e3
  unfold looseDowns looseUps
  omega

theorem loose_sum {z : Int} {P : List (Tri Vec3)} (hd : (downs z P).Nodup) (hu : (ups z P).Nodup) (φ : Vec3 × Vec3 → ZMod 2) (hφ : ∀ s, Down z s → φ s.swap = φ s) :
    ((downs z P).map φ).sum + ((ups z P).map φ).sum = ((looseDowns z P).map φ).sum + ((looseUps z P).map φ).sum := by
  have e1 := sum_filter_split (fun s => decide (s.swap ∉ ups z P)) φ (downs z P)
  have e2 := sum_filter_split (fun s => decide (s.swap ∉ downs z P)) φ (ups z P)
  have e3 := ((inner_perm hd hu).map φ).sum_eq
  rw [List.map_map, List.map_congr_left (g := φ)] at e3
  swap
  · intro s hs
    obtain ⟨g, -, -, h⟩ := mem_downs.1 (List.mem_filter.1 hs).1
    exact hφ s h
  rw [e1, e2, ← e3]
  unfold looseDowns looseUps
  have two : ∀ x : ZMod 2, x + x = 0 := fun x => CharTwo.add_self_eq_zero _
  linear_combination two (((downs z P).filter fun s => !decide (s.swap ∉ ups z P)).map φ).sum

theorem faceSides_nodup {f : Tri Vec3} (h : Proper f) : (faceSides f).Nodup := by
  obtain ⟨h1, h2, h3⟩ := h
  unfold faceSides
  simp only [List.nodup_cons, List.mem_cons, Prod.mk.injEq, List.not_mem_nil, or_false, not_or, not_and, not_false_eq_true, List.nodup_nil, and_true]
  exact ⟨⟨fun e => absurd e h1, fun e => absurd e h2⟩, fun e => absurd e h3⟩

/-- A property of the sides of different faces of a surface. -/
theorem sides_nodup {F : List (Tri Vec3)} (hclosed : ClosedSurface F) (hprop : ∀ f ∈ F, Proper f) (p : Vec3 × Vec3 → Bool) : (F.flatMap fun f => (faceSides f).filter p).Nodup := by
  rw [List.nodup_flatMap]
  refine ⟨fun f hf => (faceSides_nodup (hprop f hf)).filter _, ?_⟩
  rw [List.pairwise_iff_getElem]
  intro i j hi hj hij s hs hs'
  have := side_owner hclosed hprop (List.getElem?_eq_getElem hi) (List.getElem?_eq_getElem hj) (isSide_iff.1 (List.mem_filter.1 hs).1) (isSide_iff.1 (List.mem_filter.1 hs').1)
  omega

theorem pairwise_mem {α : Type} {R : α → α → Prop} (hsym : ∀ a b, R a b → R b a) {l : List α} (h : l.Pairwise R) {a b : α} (ha : a ∈ l) (hb : b ∈ l) (hne : a ≠ b) : R a b := by
  obtain ⟨k, h1, rfl⟩ := List.mem_iff_getElem.1 ha
  obtain ⟨k', h2, rfl⟩ := List.mem_iff_getElem.1 hb
  rw [List.pairwise_iff_getElem] at h
  rcases lt_trichotomy k k' with hlt | e | hlt
  · exact h k k' h1 h2 hlt
  · subst e; exact absurd rfl hne
  · exact hsym _ _ (h k' k h2 h1 hlt)

/-- What the faces which are there and the patches have to do with each other. -/
structure PatchFacts (z : Int) (patches : List (List (Tri Vec3))) (fs : List (Tri Vec3)) : Prop where
  downs : (downs z patches.flatten).Nodup
  ups : (ups z patches.flatten).Nodup
  looseDown : ∀ P ∈ patches, ∀ s, s ∈ looseDowns z P ↔ Down z s ∧ AtPatch P s.swap ∧ ∃ f ∈ fs, s.swap ∈ faceSides f
  looseUp : ∀ P ∈ patches, ∀ s, s ∈ looseUps z P ↔ Up z s ∧ AtPatch P s.swap ∧ ∃ f ∈ fs, s.swap ∈ faceSides f
  other : ∀ P ∈ patches, ∀ g ∈ P, ∀ s ∈ faceSides g, ∀ f ∈ fs, s ∉ faceSides f

theorem patch_facts {o : Options} {z : Int} {patches : List (List (Tri Vec3))} {fs : List (Tri Vec3)} (hm : PatchesAt o z patches fs) (hproper : ∀ f ∈ fs, Proper f) :
    PatchFacts z patches fs := by
  obtain ⟨hclosed, hgp, -, hapart, -⟩ := hm
  have hprop : ∀ f ∈ patches.flatten ++ fs, Proper f := fun f hf => (List.mem_append.1 hf).elim (hgp f) (hproper f)
  have hR : ∀ (i : Nat), (patches.flatten ++ fs)[patches.flatten.length + i]? = fs[i]? := fun i => by rw [List.getElem?_append_right (by omega)]; congr 1; omega
  have hL : ∀ (i : Nat) g, patches.flatten[i]? = some g → (patches.flatten ++ fs)[i]? = some g := fun i g hi => by
    rw [List.getElem?_append_left (List.getElem?_eq_some_iff.1 hi).1]; exact hi
  have hother : ∀ P ∈ patches, ∀ g ∈ P, ∀ s ∈ faceSides g, ∀ f ∈ fs, s ∉ faceSides f := by
    intro P hP g hg s hs f hf hfs
    obtain ⟨k, hk⟩ := List.getElem?_of_mem (List.mem_flatten.2 ⟨P, hP, hg⟩)
    obtain ⟨j, hj⟩ := List.getElem?_of_mem hf
    rw [← hR] at hj
    have := side_owner hclosed hprop hj (hL k g hk) (isSide_iff.1 hfs) (isSide_iff.1 hs)
    have := (List.getElem?_eq_some_iff.1 hk).1
    omega
  -- the face on the other side
  have hpartner : ∀ P ∈ patches, ∀ g ∈ P, ∀ s ∈ faceSides g, Down z s ∨ Up z s → (∀ g' ∈ P, s.swap ∉ faceSides g') → ∃ f ∈ fs, s.swap ∈ faceSides f := by
    intro P hP g hg s hs hz hno
    obtain ⟨k, hk⟩ := List.getElem?_of_mem (List.mem_flatten.2 ⟨P, hP, hg⟩)
    obtain ⟨j, f, hjk, hfj, hfs', -⟩ := hclosed k g s (hL k g hk) (isSide_iff.1 hs)
    by_cases hj : j < patches.flatten.length
    · exfalso
      rw [List.getElem?_append_left hj] at hfj
      obtain ⟨P', hP', hfP⟩ := List.mem_flatten.1 (List.mem_of_getElem? hfj)
      by_cases e : P = P'
      · subst e
        exact hno f hfP (isSide_iff.2 hfs')
      · refine pairwise_mem (fun A B hAB g hg g' hg' s hs hz hs' => hAB g' hg' g hg s.swap hs' (hz.symm.imp (fun h => ⟨h.1, h.2⟩) fun h => ⟨h.1, h.2⟩) (by rwa [Prod.swap_swap]))
          hapart hP hP' e g hg f hfP s hs hz (isSide_iff.2 hfs')
    · refine ⟨f, List.mem_of_getElem? (i := j - patches.flatten.length) ?_, isSide_iff.2 hfs'⟩
      rw [← hR, ← hfj]
      congr 1
      omega
  refine ⟨?_, ?_, ?_, ?_, hother⟩
  · have := sides_nodup hclosed hprop fun s => decide (Down z s)
    rw [List.flatMap_append] at this
    exact (List.nodup_append.1 this).1
  · have := sides_nodup hclosed hprop fun s => decide (Up z s)
    rw [List.flatMap_append] at this
    exact (List.nodup_append.1 this).1
  · intro P hP s
    unfold looseDowns AtPatch
    rw [List.mem_filter, decide_eq_true_eq, mem_downs, mem_ups, Prod.swap_swap]
    constructor
    · rintro ⟨⟨g, hg, hs, hd⟩, hno⟩
      rw [← isSide_iff] at hs
      exact ⟨hd, ⟨g, hg, hs⟩, hpartner P hP g hg s hs (.inl hd) fun g' hg' hs' => hno ⟨g', hg', isSide_iff.1 hs', hd.1, hd.2⟩⟩
    · rintro ⟨hd, ⟨g, hg, hs⟩, f, hf, hfs⟩
      refine ⟨⟨g, hg, isSide_iff.1 hs, hd⟩, ?_⟩
      rintro ⟨g', hg', hs', -⟩
      exact hother P hP g' hg' _ (isSide_iff.2 hs') f hf hfs
  · intro P hP s
    unfold looseUps AtPatch
    rw [List.mem_filter, decide_eq_true_eq, mem_downs, mem_ups, Prod.swap_swap]
    constructor
    · rintro ⟨⟨g, hg, hs, hd⟩, hno⟩
      rw [← isSide_iff] at hs
      exact ⟨hd, ⟨g, hg, hs⟩, hpartner P hP g hg s hs (.inr hd) fun g' hg' hs' => hno ⟨g', hg', isSide_iff.1 hs', hd.1, hd.2⟩⟩
    · rintro ⟨hd, ⟨g, hg, hs⟩, f, hf, hfs⟩
      refine ⟨⟨g, hg, isSide_iff.1 hs, hd⟩, ?_⟩
      rintro ⟨g', hg', hs', -⟩
      exact hother P hP g' hg' _ (isSide_iff.2 hs') f hf hfs

theorem downs_flatten (z : Int) (patches : List (List (Tri Vec3))) : downs z patches.flatten = patches.flatMap (downs z) := by
  unfold downs
  induction patches with
  | nil => rfl
  | cons P patches ih => rw [List.flatten_cons, List.flatMap_append, ih, List.flatMap_cons]

theorem ups_flatten (z : Int) (patches : List (List (Tri Vec3))) : ups z patches.flatten = patches.flatMap (ups z) := by
  unfold ups
  induction patches with
  | nil => rfl
  | cons P patches ih => rw [List.flatten_cons, List.flatMap_append, ih, List.flatMap_cons]

/-- A patch leaves no gap or one. -/
theorem gaps_one {o : Options} {z : Int} {patches : List (List (Tri Vec3))} {fs : List (Tri Vec3)} (hm : PatchesAt o z patches fs) (hf : PatchFacts z patches fs) {P : List (Tri Vec3)}
    (hP : P ∈ patches) : (looseDowns z P = [] ∧ looseUps z P = []) ∨ ∃ d u, looseDowns z P = [d] ∧ looseUps z P = [u] := by
  have hd : (downs z P).Nodup := by
    have := hf.downs
    rw [downs_flatten, List.nodup_flatMap] at this
    exact this.1 P hP
  have hu : (ups z P).Nodup := by
    have := hf.ups
    rw [ups_flatten, List.nodup_flatMap] at this
    exact this.1 P hP
  have hlen := loose_length hd hu
  have hone : (looseDowns z P).length ≤ 1 := by
    have hnd : (looseDowns z P).Nodup := hd.filter _
    match hl : looseDowns z P with
    | [] => simp
    | [_] => simp
    | a :: b :: l =>
      exfalso
      rw [hl] at hnd
      obtain ⟨a1, a2, f, a3, a4⟩ := (hf.looseDown P hP a).1 (by rw [hl]; simp)
      obtain ⟨b1, b2, f', b3, b4⟩ := (hf.looseDown P hP b).1 (by rw [hl]; simp)
      have := Prod.swap_injective (hm.one P hP f a3 f' b3 _ a4 _ b4 ⟨a1.1, a1.2⟩ ⟨b1.1, b1.2⟩ a2 b2)
      subst this
      simp at hnd
  match hl : looseDowns z P, hl' : looseUps z P with
  | [], [] => exact .inl ⟨rfl, rfl⟩
  | [d], [u] => exact .inr ⟨d, u, rfl, rfl⟩
  | [], _ :: _ => rw [hl, hl'] at hlen; simp at hlen
  | [_], [] => rw [hl, hl'] at hlen; simp at hlen
  | [_], _ :: _ :: _ => rw [hl, hl'] at hlen; simp at hlen
  | _ :: _ :: _, _ => rw [hl] at hone; simp at hone

theorem flatMap_sublist {α β : Type} {f g : α → List β} (h : ∀ a, (f a).Sublist (g a)) : ∀ l : List α, (l.flatMap f).Sublist (l.flatMap g)
  | [] => .slnil
  | a :: l => by
    rw [List.flatMap_cons, List.flatMap_cons]
    exact (h a).append (flatMap_sublist h l)

/-- The gaps which the patches leave in the plane of height `z`. -/
def patchGaps (z : Int) (patches : List (List (Tri Vec3))) : List Gap := patches.flatMap (gapsOf z)

theorem mem_gapsOf {o : Options} {z : Int} {patches : List (List (Tri Vec3))} {fs : List (Tri Vec3)} (hm : PatchesAt o z patches fs) (hf : PatchFacts z patches fs) {P : List (Tri Vec3)}
    (hP : P ∈ patches) {s s' : Vec3 × Vec3} : (s, s') ∈ gapsOf z P ↔ s.swap ∈ looseDowns z P ∧ s'.swap ∈ looseUps z P := by
  unfold gapsOf
  have hsw : ∀ a b : Vec3 × Vec3, a = b.swap ↔ a.swap = b := fun a b => ⟨fun h => by rw [h, Prod.swap_swap], fun h => by rw [← h, Prod.swap_swap]⟩
  rcases gaps_one hm hf hP with ⟨h1, h2⟩ | ⟨d, u, h1, h2⟩
  · simp [h1, h2]
  · simp only [h1, h2, List.map_cons, List.map_nil, List.zip_cons_cons, List.zip_nil_right, List.mem_singleton, Prod.mk.injEq, hsw]

theorem mem_patchGaps {o : Options} {z : Int} {patches : List (List (Tri Vec3))} {fs : List (Tri Vec3)} (hm : PatchesAt o z patches fs) (hf : PatchFacts z patches fs) {s s' : Vec3 × Vec3} :
    (s, s') ∈ patchGaps z patches ↔ ∃ P ∈ patches, Up z s ∧ AtPatch P s ∧ (∃ f ∈ fs, s ∈ faceSides f) ∧ Down z s' ∧ AtPatch P s' ∧ ∃ f ∈ fs, s' ∈ faceSides f := by
  unfold patchGaps
  rw [List.mem_flatMap]
  refine exists_congr fun P => and_congr_right fun hP => ?_
  rw [mem_gapsOf hm hf hP, hf.looseDown P hP, hf.looseUp P hP, Prod.swap_swap, Prod.swap_swap]
  have e1 : Down z s.swap ↔ Up z s := Iff.rfl
  have e2 : Up z s'.swap ↔ Down z s' := Iff.rfl
  rw [e1, e2]
  tauto

/-- The plane meets the patches in the gaps. -/
theorem patches_holes {o : Options} {z : Int} {patches : List (List (Tri Vec3))} {fs : List (Tri Vec3)} (hm : PatchesAt o z patches fs) (hproper : ∀ f ∈ fs, Proper f) :
    HolesAt o z (patchGaps z patches) fs := by
  have hf := patch_facts hm hproper
  have hloose : ∀ P ∈ patches, ∀ s, AtPatch P s → Loose fs s := fun P hP s ⟨g, hg, hs⟩ f hff hfs => hf.other P hP g hg _ hs f hff hfs
  have hR : ∀ (i : Nat), (patches.flatten ++ fs)[patches.flatten.length + i]? = fs[i]? := fun i => by rw [List.getElem?_append_right (by omega)]; congr 1; omega
  have hlen : ∀ P ∈ patches, (looseDowns z P).length = (looseUps z P).length := fun P hP => by
    rcases gaps_one hm hf hP with ⟨h1, h2⟩ | ⟨d, u, h1, h2⟩ <;> simp [h1, h2]
  have hfst : ∀ P ∈ patches, (gapsOf z P).map Prod.fst = (looseDowns z P).map Prod.swap := fun P hP => by
    unfold gapsOf
    exact List.map_fst_zip (by rw [List.length_map, List.length_map, hlen P hP])
  have hsnd : ∀ P ∈ patches, (gapsOf z P).map Prod.snd = (looseUps z P).map Prod.swap := fun P hP => by
    unfold gapsOf
    exact List.map_snd_zip (by rw [List.length_map, List.length_map, hlen P hP])
  refine ⟨⟨?_, ?_, ?_, ?_, ?_, ?_, ?_⟩, ?_⟩
  · intro i f s hi hs
    obtain ⟨j, g, hj, hgj, hgs, honly⟩ := hm.closed _ f s (by rw [hR]; exact hi) hs
    by_cases hjl : j < patches.flatten.length
    · refine .inl fun k h hk hh => ?_
      rw [← hR] at hk
      have := honly _ h hk hh
      omega
    · obtain ⟨j', rfl⟩ : ∃ j', j = patches.flatten.length + j' := ⟨j - patches.flatten.length, by omega⟩
      rw [hR] at hgj
      refine .inr ⟨j', g, by omega, hgj, hgs, fun k h hk hh => ?_⟩
      rw [← hR] at hk
      have := honly _ h hk hh
      omega
  · exact hm.tip
  · rintro ⟨s, s'⟩ hg
    obtain ⟨P, hP, a1, a2, a3, a4, a5, a6⟩ := (mem_patchGaps hm hf).1 hg
    exact ⟨a1, a4, hloose P hP s a2, hloose P hP s' a5, a3, a6⟩
  · intro f hff s hs hup hl
    obtain ⟨i, hi⟩ := List.getElem?_of_mem hff
    obtain ⟨j, g, hj, hgj, hgs, honly⟩ := hm.closed _ f s (by rw [hR]; exact hi) (isSide_iff.1 hs)
    have hjl : j < patches.flatten.length := by
      by_contra hjl
      obtain ⟨j', rfl⟩ : ∃ j', j = patches.flatten.length + j' := ⟨j - patches.flatten.length, by omega⟩
      rw [hR] at hgj
      exact hl g (List.mem_of_getElem? hgj) (isSide_iff.2 hgs)
    rw [List.getElem?_append_left hjl] at hgj
    obtain ⟨P, hP, hgP⟩ := List.mem_flatten.1 (List.mem_of_getElem? hgj)
    unfold patchGaps
    rw [List.map_flatMap, List.mem_flatMap]
    refine ⟨P, hP, ?_⟩
    rw [hfst P hP, List.mem_map]
    refine ⟨s.swap, (hf.looseDown P hP _).2 ⟨⟨hup.1, hup.2⟩, ⟨g, hgP, by rw [Prod.swap_swap]; exact isSide_iff.2 hgs⟩, f, hff, by rwa [Prod.swap_swap]⟩, Prod.swap_swap s⟩
  · unfold patchGaps
    rw [List.map_flatMap, List.map_flatMap]
    constructor
    · rw [List.flatMap_congr hfst, ← List.map_flatMap]
      refine List.Nodup.map Prod.swap_injective ?_
      have := hf.downs
      rw [downs_flatten] at this
      exact List.Nodup.sublist (flatMap_sublist (fun P => List.filter_sublist) _) this
    · rw [List.flatMap_congr hsnd, ← List.map_flatMap]
      refine List.Nodup.map Prod.swap_injective ?_
      have := hf.ups
      rw [ups_flatten] at this
      exact List.Nodup.sublist (flatMap_sublist (fun P => List.filter_sublist) _) this
  · exact hm.meld
  · intro f hff g hgg s hs s' hs' h1 h2 hne hno
    refine hm.join f hff g hgg s hs s' hs' h1 h2 hne fun P hP hat => hno ?_
    exact (mem_patchGaps hm hf).2 ⟨P, hP, h1, hat.1, ⟨f, hff, hs⟩, h2, hat.2, g, hgg, hs'⟩
  · unfold patchGaps
    rw [List.pairwise_flatMap]
    constructor
    · intro P hP
      unfold gapsOf
      rcases gaps_one hm hf hP with ⟨h1, h2⟩ | ⟨d, u, h1, h2⟩ <;> simp [h1, h2]
    · have hw : ∀ P ∈ patches, ∀ g ∈ gapsOf z P, g.Wider (min o.slicing.joinPolygonSnapDistance o.slicing.finishPolygonSnapDistance - 4) z →
          WidePatch (min o.slicing.joinPolygonSnapDistance o.slicing.finishPolygonSnapDistance - 4) z fs P := by
        rintro P hP ⟨s, s'⟩ hg hw
        obtain ⟨g1, g2⟩ := (mem_gapsOf hm hf hP).1 hg
        obtain ⟨a1, a2, f, a3, a4⟩ := (hf.looseDown P hP _).1 g1
        obtain ⟨b1, b2, f', b3, b4⟩ := (hf.looseUp P hP _).1 g2
        rw [Prod.swap_swap] at a2 a4 b2 b4
        exact ⟨f, a3, f', b3, s, a4, s', b4, a1, b1, a2, b2, hw⟩
      refine hm.wide.imp_of_mem fun {P P'} hP hP' hno g hg g' hg' hh => hno ⟨hw P hP g hg hh.1, hw P' hP' g' hg' hh.2⟩

/-- Far from the patches, the cuts which are closed by lines over the gaps enclose the same points as the cuts of the complete surface. -/
theorem patches_inside {o : Options} {z : Int} {patches : List (List (Tri Vec3))} {fs : List (Tri Vec3)} (hm : PatchesAt o z patches fs) (hproper : ∀ f ∈ fs, Proper f) {W : ℚ}
    (hW : PatchesWithin W z patches) {q : ℚ × ℚ} (hq : FarFromSurface W patches.flatten z q) : InsideClosed (patchGaps z patches) fs z q ↔ InsideSolid (patches.flatten ++ fs) z q := by
  have hf := patch_facts hm hproper
  have key : ∀ P ∈ patches, ((P.countP fun f => decide (RayHits z q f) : Nat) : ZMod 2) = ((gapsOf z P).countP fun g => decide (RayCrosses q (meetPoint z g.1) (meetPoint z g.2)) : Nat) := by
    intro P hP
    have hd : (downs z P).Nodup := by
      have := hf.downs
      rw [downs_flatten, List.nodup_flatMap] at this
      exact this.1 P hP
    have hu : (ups z P).Nodup := by
      have := hf.ups
      rw [ups_flatten, List.nodup_flatMap] at this
      exact this.1 P hP
    have hmeet : ∀ s, Down z s → meetPoint z s.swap = meetPoint z s := fun s h => meetPoint_swap (by unfold Down at h; omega)
    have hmeet' : ∀ s, Up z s → meetPoint z s.swap = meetPoint z s := fun s h => meetPoint_swap (by unfold Up at h; omega)
    by_cases hnil : downs z P = []
    · have hnil' : ups z P = [] := by
        have := downs_length z P
        rw [hnil] at this
        exact List.length_eq_zero_iff.1 this.symm
      have h0 : P.countP (fun f => decide (RayHits z q f)) = 0 := by
        rw [List.countP_eq_zero]
        intro g hg hr
        rw [decide_eq_true_eq] at hr
        obtain ⟨d, hd, u, -, hdd, -⟩ := hr
        have : d ∈ downs z P := mem_downs.2 ⟨g, hg, isSide_iff.1 hd, hdd⟩
        rw [hnil] at this
        cases this
      rw [h0]
      unfold gapsOf looseDowns
      rw [hnil]
      rfl
    · obtain ⟨c, hc⟩ := List.exists_mem_of_ne_nil _ hnil
      obtain ⟨g, hg, hcs, hcd⟩ := mem_downs.1 hc
      rw [← isSide_iff] at hcs
      obtain ⟨u, hu1, hu2⟩ := up_of_down hcs hcd
      obtain ⟨a, b, hside⟩ := separated (farFrom_left (hq g (List.mem_flatten.2 ⟨P, hP, hg⟩) c hcs u hu1 hcd hu2))
      have hs : ∀ g' ∈ P, ∀ s ∈ faceSides g', Down z s ∨ Up z s → Side a b q (meetPoint z s) := fun g' hg' s hs hz =>
        hside _ 0 le_rfl zero_le_one (by rw [lineAt_zero]; exact hW P hP g' hg' g hg s hs c hcs hz (.inl hcd))
      have hsc := hs g hg c hcs (.inl hcd)
      rw [hits_sum hsc P hs, loose_sum hd hu (fun s => cross2 q (meetPoint z s) (meetPoint z c)) (fun s h => by simp only [hmeet s h]), countP_cross]
      unfold gapsOf
      rcases gaps_one hm hf hP with ⟨h1, h2⟩ | ⟨d', u', h1, h2⟩
      · simp [h1, h2]
      · obtain ⟨g1, hg1, hd1, hd2⟩ := mem_downs.1 (List.mem_filter.1 (show d' ∈ looseDowns z P by rw [h1]; simp)).1
        obtain ⟨g2, hg2, hu1', hu2'⟩ := mem_ups.1 (List.mem_filter.1 (show u' ∈ looseUps z P by rw [h2]; simp)).1
        have tri := cross2_tri (hs g1 hg1 d' (isSide_iff.2 hd1) (.inl hd2)) hsc (hs g2 hg2 u' (isSide_iff.2 hu1') (.inr hu2'))
        simp only [h1, h2, List.map_cons, List.map_nil, List.zip_cons_cons, List.zip_nil_right, List.sum_cons, List.sum_nil, add_zero, hmeet d' hd2, hmeet' u' hu2']
        rw [← tri, cross2_symm q (meetPoint z c)]
  have sum : ((patches.flatten.countP fun f => decide (RayHits z q f) : Nat) : ZMod 2) =
      ((patchGaps z patches).countP fun g => decide (RayCrosses q (meetPoint z g.1) (meetPoint z g.2)) : Nat) := by
    unfold patchGaps
    clear hm hW hq hf
    induction patches with
    | nil => rfl
    | cons P patches ih =>
      rw [List.flatten_cons, List.countP_append, List.flatMap_cons, List.countP_append, Nat.cast_add, Nat.cast_add, key P List.mem_cons_self, ih fun P hP => key P (List.mem_cons_of_mem _ hP)]
  unfold InsideClosed InsideSolid
  rw [← ZMod.natCast_eq_one_iff_odd, ← ZMod.natCast_eq_one_iff_odd, List.countP_append, Nat.cast_add, Nat.cast_add, sum, add_comm]

/-- A point which is far from the faces is far from the lines over the gaps. -/
theorem patches_far {o : Options} {z : Int} {patches : List (List (Tri Vec3))} {fs : List (Tri Vec3)} (hm : PatchesAt o z patches fs) (hproper : ∀ f ∈ fs, Proper f) {W D : ℚ} (hD : 0 ≤ D)
    (hW : PatchesWithin W z patches) {q : ℚ × ℚ} (hq : FarFromSurface (D + W) fs z q) : FarFromGaps D (patchGaps z patches) z q := by
  rintro ⟨s, s'⟩ hg
  obtain ⟨P, hP, a1, ⟨g, hg, a2⟩, ⟨f, hf, a3⟩, a4, ⟨g', hg', a5⟩, -⟩ := (mem_patchGaps hm (patch_facts hm hproper)).1 hg
  have hn := hW P hP g hg g' hg' _ a2 _ a5 (.inl ⟨a1.1, a1.2⟩) (.inr ⟨a4.1, a4.2⟩)
  rw [meetPoint_swap (by unfold Up at a1; omega), meetPoint_swap (by unfold Down at a4; omega)] at hn
  have hself : NearPt W (meetPoint z s) (meetPoint z s) := ⟨hn.1, by simpa using sq_nonneg W⟩
  obtain ⟨d, hd1, hd2⟩ := down_of_up a3 a1
  exact farFrom_near hD hself hn.symm (farFrom_right (hq f hf d hd1 s a3 hd2 a1))

end Verif
