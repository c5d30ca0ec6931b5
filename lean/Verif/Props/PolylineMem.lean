import Verif.Model.DPHeap
import Verif.Props.Machine

/-! # C07: Douglas-Peucker and its argument's memory -/
namespace Verif
open Verif.Go Verif.Model Verif.Spec

/-- A slice header that belongs to the memory. -/
def Slice.WF (m : Mem) (s : Slice) : Prop := s.arr < m.next ∧ s.len ≤ s.cap

@[simp] theorem read_length (m : Mem) (s : Slice) : (m.read s).length = s.len := by simp [Mem.read]

theorem read_getElem? (m : Mem) (s : Slice) (i : Nat) :
    (m.read s)[i]? = if i < s.len then some (m.cell s.arr (s.off + i)) else none := by
  unfold Mem.read
  split
  · rename_i h; simp [h]
  · rename_i h; simp [h]

theorem read_congr {m m' : Mem} {s : Slice} (h : ∀ i < s.len, m'.cell s.arr (s.off + i) = m.cell s.arr (s.off + i)) :
    m'.read s = m.read s := by
  apply List.ext_getElem?
  intro i
  rw [read_getElem?, read_getElem?]
  split
  · rename_i hi; rw [h i hi]
  · rfl

theorem read_take (m : Mem) (s : Slice) (n : Nat) (h : n ≤ s.len) : m.read { s with len := n } = (m.read s).take n := by
  apply List.ext_getElem?
  intro i
  rw [read_getElem?, List.getElem?_take, read_getElem?]
  simp only
  by_cases h1 : i < n
  · rw [if_pos h1, if_pos h1, if_pos (by omega)]
  · rw [if_neg h1, if_neg h1]

theorem read_drop (m : Mem) (s : Slice) (n c : Nat) (h : n ≤ s.len) :
    m.read { s with off := s.off + n, len := s.len - n, cap := c } = (m.read s).drop n := by
  apply List.ext_getElem?
  intro i
  rw [read_getElem?, List.getElem?_drop, read_getElem?]
  simp only
  split <;> split <;> first | omega | (congr 2; omega) | rfl

theorem write_read_append (m : Mem) (s : Slice) (vs : List Pt) :
    (m.write s.arr (s.off + s.len) vs).read { s with len := s.len + vs.length } = m.read s ++ vs := by
  apply List.ext_getElem?
  intro i
  rw [read_getElem?, List.getElem?_append, read_getElem?, read_length]
  simp only [Mem.write]
  by_cases h1 : i < s.len
  · rw [if_pos (by omega), if_pos h1, if_pos h1, if_neg (by omega)]
  · rw [if_neg h1]
    by_cases h2 : i < s.len + vs.length
    · rw [if_pos h2, if_pos ⟨trivial, by omega, by omega⟩, List.getD_eq_getElem?_getD,
        show s.off + i - (s.off + s.len) = i - s.len by omega, List.getElem?_eq_getElem (by omega)]
      rfl
    · rw [if_neg h2, List.getElem?_eq_none (by omega)]

/-- What a call of `douglasPeucker` on the slice `s` may do to memory and what it returns. -/
structure DPPost (m : Mem) (s : Slice) (m' : Mem) (r : Slice) (result : List Pt) : Prop where
  next_le : m.next ≤ m'.next
  /-- other arrays are not touched -/
  other : ∀ a < m.next, a ≠ s.arr → m'.cell a = m.cell a
  /-- in the own array, everything outside of the slice and the last element of the slice are not touched -/
  own : ∀ k, (k < s.off ∨ s.off + s.len ≤ k + 1) → m'.cell s.arr k = m.cell s.arr k
  wf : Slice.WF m' r
  len_le : r.len ≤ s.len
  place : (r.arr = s.arr ∧ r.off = s.off ∧ r.cap = s.cap) ∨ m.next ≤ r.arr
  result_eq : m'.read r = result

theorem dpMem_spec (grow : Nat → Nat) (ep : Int) (fuel : Nat) (m : Mem) (s : Slice) (hs : Slice.WF m s) :
    ∃ m' r, dpMem grow ep fuel m s = .ok (m', r) ∧ DPPost m s m' r (douglasPeuckerAuxM ep fuel (m.read s)) := by
  induction fuel generalizing m s with
  | zero =>
    exact ⟨m, s, rfl, ⟨le_refl _, fun _ _ _ => rfl, fun _ _ => rfl, hs, le_refl _, Or.inl ⟨rfl, rfl, rfl⟩, rfl⟩⟩
  | succ fuel ih =>
    unfold dpMem
    by_cases hshort : s.len ≤ 2
    · rw [if_pos hshort]
      refine ⟨m, s, rfl, ⟨le_refl _, fun _ _ _ => rfl, fun _ _ => rfl, hs, le_refl _, Or.inl ⟨rfl, rfl, rfl⟩, ?_⟩⟩
      have hl : (m.read s).length ≤ 2 := by rw [read_length]; exact hshort
      unfold douglasPeuckerAuxM
      split
      · rename_i h; rw [h] at hl; simp at hl
      · rfl
    rw [if_neg hshort]
    have hlen : 3 ≤ s.len := by omega
    -- shape of the points
    obtain ⟨p0, p1, p2, rest, hpts⟩ : ∃ p0 p1 p2 rest, m.read s = p0 :: p1 :: p2 :: rest := by
      have hl : 3 ≤ (m.read s).length := by rw [read_length]; exact hlen
      match h : m.read s, hl with
      | p0 :: p1 :: p2 :: rest, _ => exact ⟨p0, p1, p2, rest, rfl⟩
    have hfirst : m.cell s.arr s.off = p0 := by
      have := read_getElem? m s 0
      rw [hpts, if_pos (by omega)] at this
      simpa using this.symm
    have hlast : m.cell s.arr (s.off + (s.len - 1)) = (p2 :: rest).getLast (by simp) := by
      have h1 := read_getElem? m s (s.len - 1)
      have h2 : (m.read s).getLast? = (m.read s)[s.len - 1]? := by rw [List.getLast?_eq_getElem?, read_length]
      rw [h1, if_pos (by omega), hpts, List.getLast?_cons_cons, List.getLast?_cons_cons,
        List.getLast?_eq_getLast_of_ne_nil (by simp)] at h2
      exact (Option.some.inj h2).symm
    unfold douglasPeuckerAuxM
    rw [hpts]
    simp only [hfirst, hlast]
    set last := (p2 :: rest).getLast (by simp) with hlastdef
    rw [← hpts]
    have hidx := seekLoopM_index p0 last (m.read s) 0 0 0
    have hsk : seekMostDistantPointM p0 last (m.read s) = seekLoopM p0 last (m.read s) 0 (0, 0) := rfl
    rw [hsk]
    set idx := (seekLoopM p0 last (m.read s) 0 (0, 0)).1 with hi
    set M := (seekLoopM p0 last (m.read s) 0 (0, 0)).2 with hMd
    have hlt : idx < s.len := by
      rw [read_length] at hidx; omega
    by_cases hep : M ≥ ep
    · rw [if_pos hep, if_pos hep]
      obtain ⟨hsa, hsc⟩ := hs
      -- the left call
      have hup : s.upTo (idx + 1) = .ok { s with len := idx + 1 } := by
        unfold Slice.upTo; rw [if_pos (by omega)]
      have hfrom : s.from idx = .ok { s with off := s.off + idx, len := s.len - idx, cap := s.cap - idx } := by
        unfold Slice.from; rw [if_pos (by omega)]
      obtain ⟨m1, l, hl, P1⟩ := ih m { s with len := idx + 1 } ⟨hsa, by simp only; omega⟩
      obtain ⟨m2, r, hr, P2⟩ := ih m1 { s with off := s.off + idx, len := s.len - idx, cap := s.cap - idx }
        ⟨lt_of_lt_of_le hsa P1.next_le, by simp only; omega⟩
      have hread1 : m.read { s with len := idx + 1 } = (m.read s).take (idx + 1) := read_take m s (idx + 1) (by omega)
      have hread2 : m1.read { s with off := s.off + idx, len := s.len - idx, cap := s.cap - idx } =
          (m.read s).drop idx := by
        rw [← read_drop m s idx (s.cap - idx) (by omega)]
        apply read_congr
        intro i hi
        simp only at hi ⊢
        exact P1.own _ (by simp only; omega)
      rw [hread1] at P1
      rw [hread2] at P2
      set L := douglasPeuckerAuxM ep fuel ((m.read s).take (idx + 1)) with hL
      set R := douglasPeuckerAuxM ep fuel ((m.read s).drop idx) with hR
      have hLne : L ≠ [] := C05_int64_left_nonempty ep fuel _ (by rw [hpts]; simp)
      have hlL : l.len = L.length := by rw [← P1.result_eq, read_length]
      have hrR : r.len = R.length := by rw [← P2.result_eq, read_length]
      have hLpos : 0 < l.len := by rw [hlL]; exact List.length_pos_iff.2 hLne
      have hlle : l.len ≤ idx + 1 := P1.len_le
      have hrle : r.len ≤ s.len - idx := P2.len_le
      have hlwf := P1.wf
      have hup2 : l.upTo (l.len - 1) = .ok { l with len := l.len - 1 } := by
        unfold Slice.upTo; rw [if_pos (by have := hlwf.2; omega)]
      -- the left result is intact after the right call
      have hleft : m2.read { l with len := l.len - 1 } = L.dropLast := by
        have e1 : m2.read { l with len := l.len - 1 } = m1.read { l with len := l.len - 1 } := by
          apply read_congr
          intro i hi
          simp only at hi ⊢
          rcases P1.place with ⟨ha, ho, _⟩ | hnew
          · rw [ha, ho]
            exact P2.own _ (by simp only; omega)
          · have : l.arr ≠ s.arr := by omega
            rw [P2.other l.arr hlwf.1 this]
        rw [e1, read_take m1 l _ (by omega), P1.result_eq, List.dropLast_eq_take, hlL]
      have hrun : dpMem grow ep fuel m { s with len := idx + 1 } = .ok (m1, l) := hl
      have hres : (do
          let (m, left) ← dpMem grow ep fuel m (← s.upTo (idx + 1))
          let (m, right) ← dpMem grow ep fuel m (← s.from idx)
          if left.len = 0 then .error (.panic "slice bounds out of range")
          else
            let left' ← left.upTo (left.len - 1)
            .ok (m.append grow left' (m.read right)) : Res (Mem × Slice)) =
          .ok (m2.append grow { l with len := l.len - 1 } (m2.read r)) := by
        rw [hup, hfrom]
        simp only [bind, Except.bind]
        rw [hrun]
        simp only []
        rw [hr]
        simp only []
        rw [if_neg (by omega), hup2]
      refine ⟨(m2.append grow { l with len := l.len - 1 } (m2.read r)).1,
        (m2.append grow { l with len := l.len - 1 } (m2.read r)).2, hres, ?_⟩
      rw [P2.result_eq]
      have hsucc : m2.next ≤ (m2.append grow { l with len := l.len - 1 } R).1.next := by
        unfold Mem.append; split <;> simp [Mem.write, Mem.alloc]
      have hn12 : m.next ≤ m2.next := P1.next_le.trans P2.next_le
      -- preservation through both calls
      have hother : ∀ a < m.next, a ≠ s.arr → m2.cell a = m.cell a := fun a ha hne => by
        rw [P2.other a (lt_of_lt_of_le ha P1.next_le) hne, P1.other a ha hne]
      have hown : ∀ k, (k < s.off ∨ s.off + s.len ≤ k + 1) → m2.cell s.arr k = m.cell s.arr k := fun k hk => by
        have := P2.own k (by simp only; omega)
        simp only at this
        rw [this]
        exact P1.own k (by simp only; omega)
      have hlastR : R.getLast? = (m.read s).getLast? := by
        rw [hR, (douglasPeuckerAuxM_thinned ep fuel _ (by
          intro h0
          have := congrArg List.length h0
          rw [List.length_drop, read_length] at this
          simp at this; omega)).ends.2, List.getLast?_drop, if_neg (by rw [read_length]; omega)]
      unfold Mem.append
      split
      · -- in place
        rename_i hcap
        simp only at hcap
        refine ⟨hn12, ?_, ?_, ?_, ?_, ?_, ?_⟩
        · intro a ha hne
          simp only [Mem.write]
          funext k
          split
          · rename_i hc
            exfalso
            rcases P1.place with ⟨hla, _, _⟩ | hnew
            · exact hne (hc.1.trans hla)
            · have := hc.1; omega
          · rw [hother a ha hne]
        · intro k hk
          simp only [Mem.write]
          split
          · rename_i hc
            obtain ⟨hc1, hc2, hc3⟩ := hc
            rcases P1.place with ⟨hla, hlo, _⟩ | hnew
            · simp only at hlo
              have hk2 : k + 1 = s.off + s.len := by omega
              -- the last element of R, which is the last point
              have hRl : R.length = k - (l.off + (l.len - 1)) + 1 := by omega
              rw [List.getD_eq_getElem?_getD]
              have : R[k - (l.off + (l.len - 1))]? = R.getLast? := by
                rw [List.getLast?_eq_getElem?, hRl]; rfl
              rw [this, hlastR, List.getLast?_eq_getElem?, read_length, read_getElem?, if_pos (by omega)]
              simp only [Option.getD_some]
              congr 1; omega
            · omega
          · exact hown k hk
        · exact ⟨lt_of_lt_of_le hlwf.1 P2.next_le, hcap⟩
        · simp only; omega
        · rcases P1.place with h | h
          · exact Or.inl h
          · exact Or.inr h
        · have := write_read_append m2 { l with len := l.len - 1 } R
          simp only at this
          rw [this, hleft]
      · -- new array
        refine ⟨by simp only [Mem.alloc]; omega, ?_, ?_, ?_, ?_, ?_, ?_⟩
        · intro a ha hne
          simp only [Mem.alloc, Mem.write]
          funext k
          rw [if_neg (by omega), hother a ha hne]
        · intro k hk
          simp only [Mem.alloc, Mem.write]
          rw [if_neg (by omega), hown k hk]
        · refine ⟨by simp [Mem.alloc], ?_⟩
          simp only [Mem.alloc, List.length_append, read_length]; omega
        · simp only [Mem.alloc, List.length_append, read_length]; omega
        · right; simp only [Mem.alloc]; exact hn12
        · have := write_read_append m2 ⟨m2.next, 0, 0, 0⟩ (m2.read { l with len := l.len - 1 } ++ R)
          simp only [Mem.alloc]
          simp only [Nat.zero_add] at this
          rw [← hleft]
          exact this
    · rw [if_neg hep, if_neg hep]
      refine ⟨(m.alloc [p0, last] 2).1, (m.alloc [p0, last] 2).2, rfl, ⟨by simp [Mem.alloc, Mem.write], ?_, ?_, ?_, ?_, ?_, ?_⟩⟩
      · intro a ha hne
        simp only [Mem.alloc, Mem.write]
        funext k
        rw [if_neg (by omega)]
      · intro k hk
        simp only [Mem.alloc, Mem.write]
        have := hs.1
        rw [if_neg (by omega)]
      · exact ⟨by simp [Mem.alloc], by simp [Mem.alloc]⟩
      · simp [Mem.alloc]; omega
      · right; simp [Mem.alloc]
      · have := write_read_append m ⟨m.next, 0, 0, 0⟩ [p0, last]
        simp only [Mem.alloc]
        simp only [Nat.zero_add] at this
        exact this

/-- **C07** The result of the algorithm on shared memory is the one of the side-effect free algorithm (with int64 arithmetic), it never panics,
and no memory outside of the argument's elements is changed. -/
theorem C07_result (grow : Nat → Nat) (m : Mem) (s : Slice) (eps : Int) (h1 : s.arr < m.next) (h2 : s.len ≤ s.cap) :
    ∃ m' r, douglasPeuckerMem grow m s eps = .ok (m', r) ∧ m'.read r = douglasPeuckerM (m.read s) eps ∧
      (∀ a < m.next, a ≠ s.arr → m'.cell a = m.cell a) ∧
      (∀ k, (k < s.off ∨ s.off + s.len ≤ k) → m'.cell s.arr k = m.cell s.arr k) := by
  obtain ⟨m', r, h, P⟩ := dpMem_spec grow (if eps = -1 then 70 else eps) 200 m s ⟨h1, h2⟩
  exact ⟨m', r, h, P.result_eq, P.other, fun k hk => P.own k (by omega)⟩

/-- A memory with one array. -/
def memOf (l : List Pt) : Mem := ⟨1, fun _ k => l.getD k default⟩

/-- **C07** The caller's own slice is not left intact: after the call it shows other points. -/
theorem C07_argument_overwritten :
    ∃ (path : List Pt) (m' : Mem) (r : Slice),
      douglasPeuckerMem id (memOf path) ⟨0, 0, path.length, path.length⟩ (-1) = .ok (m', r) ∧
      m'.read ⟨0, 0, path.length, path.length⟩ ≠ path := by
  have h : (match douglasPeuckerMem id (memOf [⟨0, 0⟩, ⟨0, 10000⟩, ⟨5000, 10000⟩, ⟨10000, 10000⟩]) ⟨0, 0, 4, 4⟩ (-1) with
      | .ok (m', _) => decide (m'.read ⟨0, 0, 4, 4⟩ ≠ [⟨0, 0⟩, ⟨0, 10000⟩, ⟨5000, 10000⟩, ⟨10000, 10000⟩])
      | .error _ => false) = true := by decide +kernel
  refine ⟨[⟨0, 0⟩, ⟨0, 10000⟩, ⟨5000, 10000⟩, ⟨10000, 10000⟩], ?_⟩
  split at h
  · rename_i m' r e
    exact ⟨m', r, e, of_decide_eq_true h⟩
  · cases h

end Verif
