import Verif.Model.Heap

/-! # C03: vector operations never mutate existing vectors -/
namespace Verif
open Verif.Go Verif.Model Verif.Model.Ptr

/-- Specification: the value which the result of an operation must have, given the objects on the heap
(component-wise arithmetic; `none` if an operand is missing, of the wrong type, or the divisor is zero). -/
def opValue (h : Heap) : Op → Option Obj
  | .addVec a b => match h[a]?, h[b]? with
    | some (.vec v), some (.vec w) => some (.vec ⟨v.x + w.x, v.y + w.y, v.z + w.z⟩)
    | _, _ => none
  | .subVec a b => match h[a]?, h[b]? with
    | some (.vec v), some (.vec w) => some (.vec ⟨v.x - w.x, v.y - w.y, v.z - w.z⟩)
    | _, _ => none
  | .mulVec a k => match h[a]? with
    | some (.vec v) => some (.vec ⟨v.x * k, v.y * k, v.z * k⟩)
    | _ => none
  | .divVec a k => match h[a]? with
    | some (.vec v) => if k = 0 then none else some (.vec ⟨v.x.tdiv k, v.y.tdiv k, v.z.tdiv k⟩)
    | _ => none
  | .pointXY a => match h[a]? with
    | some (.vec v) => some (.pt ⟨v.x, v.y⟩)
    | _ => none
  | .addPt a b => match h[a]?, h[b]? with
    | some (.pt v), some (.pt w) => some (.pt ⟨v.x + w.x, v.y + w.y⟩)
    | _, _ => none
  | .subPt a b => match h[a]?, h[b]? with
    | some (.pt v), some (.pt w) => some (.pt ⟨v.x - w.x, v.y - w.y⟩)
    | _, _ => none
  | .mulPt a k => match h[a]? with
    | some (.pt v) => some (.pt ⟨v.x * k, v.y * k⟩)
    | _ => none
  | .divPt a k => match h[a]? with
    | some (.pt v) => if k = 0 then none else some (.pt ⟨v.x.tdiv k, v.y.tdiv k⟩)
    | _ => none
  | .copy a => h[a]?

theorem getElem?_last (h : Heap) (o : Obj) : (h ++ [o])[h.length]? = some o := by simp

theorem set_last (h : Heap) (o o' : Obj) : (h ++ [o]).set h.length o' = h ++ [o'] := by
  rw [List.set_append_right _ _ (le_refl _)]; simp

/-- **C03** An operation on existing objects of the right type (possibly the same object twice) creates one new object with
the component-wise result; all other objects keep their value. -/
theorem C03_result (h : Heap) (op : Op) (o : Obj) (ho : opValue h op = some o) :
    op.run h = .ok (h.length, h ++ [o]) := by
  cases op with
  | addVec a b =>
    simp only [opValue] at ho
    split at ho <;> try contradiction
    rename_i v w hv hw
    have hb : b < h.length := by rw [List.getElem?_eq_some_iff] at hw; exact hw.1
    simp only [Option.some.injEq] at ho
    subst ho
    simp only [Op.run, copyAndUpdate, copy, hv, bind, Except.bind, List.foldlM, update, List.getElem?_append_left hb, getC, setC,
      getElem?_last, set_last, hw, pure, Except.pure]
  | subVec a b =>
    simp only [opValue] at ho
    split at ho <;> try contradiction
    rename_i v w hv hw
    have hb : b < h.length := by rw [List.getElem?_eq_some_iff] at hw; exact hw.1
    simp only [Option.some.injEq] at ho
    subst ho
    simp only [Op.run, copyAndUpdate, copy, hv, bind, Except.bind, List.foldlM, update, List.getElem?_append_left hb, getC, setC,
      getElem?_last, set_last, hw, pure, Except.pure]
  | mulVec a k =>
    simp only [opValue] at ho
    split at ho <;> try contradiction
    rename_i v hv
    simp only [Option.some.injEq] at ho
    subst ho
    simp only [Op.run, copyAndUpdate, copy, hv, bind, Except.bind, List.foldlM, update, getC, setC,
      getElem?_last, set_last, pure, Except.pure]
  | divVec a k =>
    simp only [opValue] at ho
    split at ho <;> try contradiction
    rename_i v hv
    split at ho <;> try contradiction
    rename_i hk
    simp only [Option.some.injEq] at ho
    subst ho
    simp only [Op.run, copyAndUpdate, copy, hv, bind, Except.bind, List.foldlM, update, getC, setC,
      getElem?_last, set_last, pure, Except.pure, quo, if_neg hk]
  | pointXY a =>
    simp only [opValue] at ho
    split at ho <;> try contradiction
    rename_i v hv
    simp only [Option.some.injEq] at ho
    subst ho
    simp only [Op.run, getC, hv, bind, Except.bind, pure, Except.pure]
  | addPt a b =>
    simp only [opValue] at ho
    split at ho <;> try contradiction
    rename_i v w hv hw
    have hb : b < h.length := by rw [List.getElem?_eq_some_iff] at hw; exact hw.1
    simp only [Option.some.injEq] at ho
    subst ho
    simp only [Op.run, copyAndUpdate, copy, hv, bind, Except.bind, List.foldlM, update, List.getElem?_append_left hb, getC, setC,
      getElem?_last, set_last, hw, pure, Except.pure]
  | subPt a b =>
    simp only [opValue] at ho
    split at ho <;> try contradiction
    rename_i v w hv hw
    have hb : b < h.length := by rw [List.getElem?_eq_some_iff] at hw; exact hw.1
    simp only [Option.some.injEq] at ho
    subst ho
    simp only [Op.run, copyAndUpdate, copy, hv, bind, Except.bind, List.foldlM, update, List.getElem?_append_left hb, getC, setC,
      getElem?_last, set_last, hw, pure, Except.pure]
  | mulPt a k =>
    simp only [opValue] at ho
    split at ho <;> try contradiction
    rename_i v hv
    simp only [Option.some.injEq] at ho
    subst ho
    simp only [Op.run, copyAndUpdate, copy, hv, bind, Except.bind, List.foldlM, update, getC, setC,
      getElem?_last, set_last, pure, Except.pure]
  | divPt a k =>
    simp only [opValue] at ho
    split at ho <;> try contradiction
    rename_i v hv
    split at ho <;> try contradiction
    rename_i hk
    simp only [Option.some.injEq] at ho
    subst ho
    simp only [Op.run, copyAndUpdate, copy, hv, bind, Except.bind, List.foldlM, update, getC, setC,
      getElem?_last, set_last, pure, Except.pure, quo, if_neg hk]
  | copy a =>
    simp only [opValue] at ho
    simp only [Op.run, copy, ho]

theorem set_shape {h : Heap} {o : Obj} {c : Axis} {v : Int} {h' : Heap}
    (hs : setC (h ++ [o]) h.length c v = .ok h') : ∃ o', h' = h ++ [o'] := by
  unfold setC at hs
  split at hs <;> simp only [Except.ok.injEq, reduceCtorEq] at hs <;>
    exact ⟨_, by rw [← hs, set_last]⟩

theorem foldlM_shape {r : Nat} {h : Heap} (hr : r = h.length) (f : Axis → Heap → Int → Res Int) (axes : List Axis) (o : Obj) (h' : Heap)
    (hs : axes.foldlM (fun h c => update h r c (f c)) (h ++ [o]) = .ok h') : ∃ o', h' = h ++ [o'] := by
  subst hr
  induction axes generalizing o with
  | nil => simp only [List.foldlM, pure, Except.pure, Except.ok.injEq] at hs; exact ⟨o, hs.symm⟩
  | cons c axes ih =>
    simp only [List.foldlM, bind, Except.bind] at hs
    split at hs
    · contradiction
    · rename_i h1 hu
      simp only [update, bind, Except.bind] at hu
      split at hu
      · contradiction
      · split at hu
        · contradiction
        · obtain ⟨o', rfl⟩ := set_shape hu
          exact ih o' hs

theorem copyAndUpdate_shape {axes : List Axis} {f : Axis → Heap → Int → Res Int} {h : Heap} {a r : Nat} {h' : Heap}
    (hs : copyAndUpdate axes f h a = .ok (r, h')) : r = h.length ∧ ∃ o, h' = h ++ [o] := by
  simp only [copyAndUpdate, copy, bind, Except.bind] at hs
  split at hs
  · contradiction
  · rename_i x hc
    split at hc
    · simp only [Except.ok.injEq] at hc
      subst hc
      simp only at hs
      split at hs
      · contradiction
      · rename_i h2 hf
        simp only [pure, Except.pure, Except.ok.injEq, Prod.mk.injEq] at hs
        obtain ⟨rfl, rfl⟩ := hs
        exact ⟨rfl, foldlM_shape rfl f axes _ _ hf⟩
    · contradiction

/-- **C03** Whatever the operands are, an operation that returns only adds one object. -/
theorem C03_frame (h : Heap) (op : Op) (r : Nat) (h' : Heap) (hr : op.run h = .ok (r, h')) :
    r = h.length ∧ ∃ o, h' = h ++ [o] := by
  cases op with
  | pointXY a =>
    simp only [Op.run, bind, Except.bind] at hr
    split at hr
    · contradiction
    · split at hr
      · contradiction
      · simp only [pure, Except.pure, Except.ok.injEq, Prod.mk.injEq] at hr
        exact ⟨hr.1.symm, _, hr.2.symm⟩
  | copy a =>
    simp only [Op.run, copy] at hr
    split at hr
    · simp only [Except.ok.injEq, Prod.mk.injEq] at hr
      exact ⟨hr.1.symm, _, hr.2.symm⟩
    · contradiction
  | _ => exact copyAndUpdate_shape hr

/-- **C03** After any sequence of operations every object that existed before still has its value. -/
theorem C03_sequence (h : Heap) (ops : List Op) (h' : Heap) (hr : runAll h ops = .ok h') :
    h'.length = h.length + ops.length ∧ ∀ a < h.length, h'[a]? = h[a]? := by
  induction ops generalizing h with
  | nil =>
    simp only [runAll, List.foldlM, pure, Except.pure, Except.ok.injEq] at hr
    subst hr; simp
  | cons op ops ih =>
    simp only [runAll, List.foldlM, bind, Except.bind] at hr
    split at hr
    · contradiction
    · rename_i h1 h1r
      split at h1r
      · contradiction
      · rename_i x hop
        simp only [pure, Except.pure, Except.ok.injEq] at h1r
        obtain ⟨r, h2⟩ := x
        obtain ⟨_, o, ho⟩ := C03_frame h op r h2 hop
        simp only at h1r
        subst h1r
        subst ho
        have := ih (h ++ [o]) hr
        simp only [List.length_append, List.length_cons, List.length_nil] at this ⊢
        refine ⟨by omega, ?_⟩
        intro a ha
        rw [this.2 a (by omega), List.getElem?_append_left ha]

/-- **C03** The functions on values, which the rest of the model uses, give the value of the new object of the operations on pointers. -/
theorem C03_values (h : Heap) (a b : Nat) (k : Micrometer) :
    (∀ v w, h[a]? = some (.vec v) → h[b]? = some (.vec w) →
      (Op.addVec a b).run h = .ok (h.length, h ++ [.vec (v.add w)]) ∧ (Op.subVec a b).run h = .ok (h.length, h ++ [.vec (v.sub w)]) ∧
      (Op.mulVec a k).run h = .ok (h.length, h ++ [.vec (v.mul k)]) ∧
      (Op.divVec a k).run h = (v.div k).map (fun d => (h.length, h ++ [.vec d])) ∧
      (Op.pointXY a).run h = .ok (h.length, h ++ [.pt v.pointXY])) ∧
    (∀ v w, h[a]? = some (.pt v) → h[b]? = some (.pt w) →
      (Op.addPt a b).run h = .ok (h.length, h ++ [.pt (v.add w)]) ∧ (Op.subPt a b).run h = .ok (h.length, h ++ [.pt (v.sub w)]) ∧
      (Op.mulPt a k).run h = .ok (h.length, h ++ [.pt (v.mul k)]) ∧
      (Op.divPt a k).run h = (v.div k).map (fun d => (h.length, h ++ [.pt d]))) := by
  refine ⟨fun v w hv hw => ⟨?_, ?_, ?_, ?_, ?_⟩, fun v w hv hw => ⟨?_, ?_, ?_, ?_⟩⟩
  · exact C03_result h _ _ (by simp only [opValue, hv, hw, Vec3.add])
  · exact C03_result h _ _ (by simp only [opValue, hv, hw, Vec3.sub])
  · exact C03_result h _ _ (by simp only [opValue, hv, Vec3.mul])
  · by_cases hk : k = 0
    · subst hk
      simp [Op.run, copyAndUpdate, copy, hv, bind, Except.bind, List.foldlM, update, getC, quo, Vec3.div, Except.map]
    · rw [C03_result h _ _ (by simp only [opValue, hv, if_neg hk]; rfl)]
      simp only [Vec3.div, if_neg hk, Except.map]
  · exact C03_result h _ _ (by simp only [opValue, hv, Vec3.pointXY])
  · exact C03_result h _ _ (by simp only [opValue, hv, hw, Pt.add])
  · exact C03_result h _ _ (by simp only [opValue, hv, hw, Pt.sub])
  · exact C03_result h _ _ (by simp only [opValue, hv, Pt.mul])
  · by_cases hk : k = 0
    · subst hk
      simp [Op.run, copyAndUpdate, copy, hv, bind, Except.bind, List.foldlM, update, getC, quo, Pt.div, Except.map]
    · rw [C03_result h _ _ (by simp only [opValue, hv, if_neg hk]; rfl)]
      simp only [Pt.div, if_neg hk, Except.map]

/-- Non-vacuity: adding a vector to itself. -/
example : (Op.addVec 0 0).run [.vec ⟨1, 2, 3⟩] = .ok (1, [.vec ⟨1, 2, 3⟩, .vec ⟨2, 4, 6⟩]) := by decide

example : (Op.mulVec 0 2).run [.vec ⟨1, 2, 3⟩] = .ok (1, [.vec ⟨1, 2, 3⟩, .vec (Vec3.mul ⟨1, 2, 3⟩ 2)]) :=
  ((C03_values _ 0 0 2).1 _ _ rfl rfl).2.2.1

end Verif
