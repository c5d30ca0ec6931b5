import Verif.Props.PrintArea

/-! # C102: infill lines stay inside the area -/
namespace Verif
open Verif.Go Verif.Model Verif.Spec

theorem scanLoop_shape (d top bottom maxX : Int) (fuel : Nat) : ∀ (x : Int) (ls : List (List IntPoint)), Linear.scanLoop d top bottom maxX fuel x = some ls →
    ∀ l ∈ ls, ∃ x, l = [⟨x, top⟩, ⟨x, bottom⟩] := by
  induction fuel with
  | zero =>
    intro x ls h l hl
    rw [Linear.scanLoop] at h
    split at h <;> cases h
    cases hl
  | succ n ih =>
    intro x ls h l hl
    rw [Linear.scanLoop] at h
    split at h
    · obtain ⟨ls', h', rfl⟩ := Option.map_eq_some_iff.1 h
      rcases List.mem_cons.1 hl with rfl | hl
      · exact ⟨x, rfl⟩
      · exact ih _ _ h' l hl
    · cases h; cases hl

/-- All points of the woven lines are ends of the lines. -/
theorem weave_points (connect : Bool) (limit : Int) (crosses : Path → Bool) (P : Pt → Prop) : ∀ (ls : List Segment), (∀ l ∈ ls, P l.1 ∧ P l.2) →
    ∀ path ∈ weave (link connect limit crosses) ls, ∀ q ∈ path, P q
  | [], _, path, h => by simp [weave] at h
  | [a], hP, path, h => by
    simp only [weave, List.mem_singleton] at h
    subst h
    have := hP a (by simp)
    simp only [List.mem_cons, List.not_mem_nil, or_false]
    rintro q (rfl | rfl)
    · exact this.1
    · exact this.2
  | a :: b :: rest, hP, path, h => by
    have ha := hP a (by simp)
    have hb := hP b (by simp)
    simp only [weave, List.mem_cons, List.mem_append] at h
    rcases h with rfl | h | h
    · simp only [List.mem_cons, List.not_mem_nil, or_false]
      rintro q (rfl | rfl)
      · exact ha.1
      · exact ha.2
    · unfold link at h
      split at h
      · rw [List.mem_singleton] at h
        subst h
        simp only [List.mem_cons, List.not_mem_nil, or_false]
        rintro q (rfl | rfl)
        · exact ha.2
        · exact hb.1
      · cases h
    · exact weave_points connect limit crosses P (b :: rest) (fun l hl => hP l (List.mem_cons_of_mem _ hl)) path h

theorem route_points (P : Pt → Prop) (lines : List Segment) (hP : ∀ l ∈ lines, P l.1 ∧ P l.2) (order : List Nat) (ho : UsesAll lines.length order) :
    ∀ l ∈ route lines order, P l.1 ∧ P l.2 := by
  intro l hl
  obtain ⟨⟨i, k⟩, hik, rfl⟩ := List.mem_map.1 hl
  have hi : i ∈ order := by
    obtain ⟨j, hj, he⟩ := List.mem_iff_getElem.1 hik
    rw [List.getElem_zipIdx] at he
    cases he
    exact List.getElem_mem _
  have hlt : i < lines.length := List.mem_range.1 (ho.mem_iff.1 hi)
  have hm : lines.getD i default ∈ lines := by
    rw [List.getD_eq_getElem?_getD, List.getElem?_eq_getElem hlt]
    exact List.getElem_mem hlt
  have := hP _ hm
  simp only [turned]
  split
  · exact this
  · exact ⟨this.2, this.1⟩

/-- The ends of a shortened vertical line do not leave a half plane. -/
theorem shortened_half {w : Int} (hw : 0 ≤ w) (l : Segment) (hv : l.1.x = l.2.x) (a b c : ℝ) (h1 : a * l.1.x + b * l.1.y ≤ c) (h2 : a * l.2.x + b * l.2.y ≤ c) :
    a * (shortened w l).1.x + b * (shortened w l).1.y ≤ c ∧ a * (shortened w l).2.x + b * (shortened w l).2.y ≤ c := by
  unfold shortened
  split
  · exact ⟨h1, h2⟩
  split
  · rename_i hlt
    have hd : 0 ≤ w.tdiv 2 := Int.tdiv_nonneg hw (by norm_num)
    have hd' : (0 : ℝ) ≤ (w.tdiv 2 : Int) := by exact_mod_cast hd
    have hlt' : (l.2.y : ℝ) < l.1.y - (w.tdiv 2 : Int) := by exact_mod_cast hlt
    rw [hv] at h1
    simp only
    rw [hv]
    push_cast
    rcases le_total 0 b with hb | hb
    · constructor <;> nlinarith
    · constructor <;> nlinarith
  · exact ⟨h1, h2⟩

theorem abs_lin {C S e1 e2 : ℝ} (hcs : C ^ 2 + S ^ 2 = 1) (h1 : |e1| ≤ 17 / 32) (h2 : |e2| ≤ 17 / 32) : C * e1 + S * e2 ≤ 7514 / 10000 := by
  have h1 := abs_le.1 h1
  have h2 := abs_le.1 h2
  have hsq : (C * e1 + S * e2) ^ 2 ≤ (7514 / 10000) ^ 2 := by
    have : (C * e1 + S * e2) ^ 2 ≤ e1 ^ 2 + e2 ^ 2 := by
      nlinarith [sq_nonneg (C * e2 - S * e1)]
    nlinarith
  nlinarith [abs_le_of_sq_le_sq' hsq (by norm_num)]

section
variable {lib : ClipperLib} (hl : StaysInside lib) (ho : OpenClipping lib) {trig : ℚ → ℚ × ℚ} (ht : TurnsBack trig) {R : Rect} (hR : R.Small)
include hl ho ht hR

/-- Rotation of a point of the rectangle: it is in the rotated rectangle up to rounding. -/
theorem fill_in (p : Linear) (hw : 0 ≤ p.lineWidth) (layerNr : Nat) {part : LayerPart} (hp : R.HasPart part) :
    Yields (p.fill lib trig layerNr part) fun paths => ∀ path ∈ paths, (R.grow 1).HasPath path := by
  intro paths hf
  generalize hrot : p.rotation layerNr = rot
  generalize hturn : (fun path : Path => pathRotate rot (trig rot).1 (trig rot).2 path) = turn
  generalize hbox : pathBounds (turn [p.min, ⟨p.max.x, p.min.y⟩, p.max, ⟨p.min.x, p.max.y⟩]) = box
  cases hscan : Linear.scanLines p.lineDistance box.1 box.2 with
  | none =>
    exfalso
    subst hbox hturn hrot
    unfold Linear.fill at hf
    obtain ⟨infill, hi, -⟩ := bind_ok.1 hf
    unfold Linear.getInfill at hi
    dsimp only at hscan hi
    rw [hscan] at hi
    cases hi
  | some scan =>
    have hshape := scanLoop_shape _ _ _ _ _ _ _ hscan
    obtain ⟨tree, lines, order, htree, hlines, horder, hfill⟩ := fill_of_scan p lib ho trig layerNr part hrot.symm hturn.symm hbox.symm hscan
      (fun l hl => by obtain ⟨x, rfl⟩ := hshape l hl; rfl)
    rw [hfill, Except.ok.injEq] at hf
    subst hf
    have hvert := hl.vertical _ _ _ htree (fun l hlm => by
      obtain ⟨x, rfl⟩ := hshape l hlm
      simp only [List.mem_cons, List.not_mem_nil, or_false]
      rintro p (rfl | rfl) q (rfl | rfl) <;> rfl)
    have hseg : ∀ l ∈ lines, ∃ n ∈ tree, asPath n.contour = [l.1, l.2] := by
      intro l hlm
      have : [l.1, l.2] ∈ tree.map (fun n => asPath n.contour) := by rw [hlines]; exact List.mem_map_of_mem hlm
      obtain ⟨n, hn, he⟩ := List.mem_map.1 this
      exact ⟨n, hn, he⟩
    have hends : ∀ l ∈ lines, ∃ n ∈ tree, ∃ a ∈ n.contour, ∃ b ∈ n.contour, l.1 = ⟨a.x, a.y⟩ ∧ l.2 = ⟨b.x, b.y⟩ := by
      intro l hlm
      obtain ⟨n, hn, he⟩ := hseg l hlm
      have h1 : l.1 ∈ asPath n.contour := by rw [he]; simp
      have h2 : l.2 ∈ asPath n.contour := by rw [he]; simp
      obtain ⟨a, ha, ea⟩ := List.mem_map.1 h1
      obtain ⟨b, hb, eb⟩ := List.mem_map.1 h2
      exact ⟨n, hn, a, ha, b, hb, ea.symm, eb.symm⟩
    have hz : 0 ≤ (if p.zigZag then p.lineWidth else 0) := by split <;> omega
    generalize (if p.zigZag then p.lineWidth else 0) = w at hz ⊢
    -- a half plane which contains the rotated part contains all ends, up to rounding
    have half : ∀ a b c : ℝ, a ^ 2 + b ^ 2 = 1 → (∀ path ∈ turn part.outline :: part.holes.map turn, ∀ q ∈ path, a * q.x + b * q.y ≤ c) →
        ∀ path ∈ weave (link p.zigZag (p.lineWidth + 2 * p.lineDistance) (fun q => (lib.isCrossingPerimeter [⟨turn part.outline, part.holes.map turn⟩] q).1))
          (route (lines.map (shortened w)) order), ∀ q ∈ path, a * q.x + b * q.y ≤ c + 71 / 100 := by
      intro a b c hab hin
      have htr := hl.lines a b c _ _ _ hab htree (by
        intro contour hc q hq
        obtain ⟨path, hpath, rfl⟩ := List.mem_map.1 hc
        obtain ⟨r, hr, rfl⟩ := List.mem_map.1 hq
        exact hin path hpath r hr)
      refine weave_points _ _ _ (fun q => a * q.x + b * q.y ≤ c + 71 / 100) _ (route_points (fun q => a * q.x + b * q.y ≤ c + 71 / 100) _ ?_ order (by simpa using horder))
      intro l' hl'
      obtain ⟨l, hlm, rfl⟩ := List.mem_map.1 hl'
      obtain ⟨n, hn, u, hu, v, hv, e1, e2⟩ := hends l hlm
      refine shortened_half hz l ?_ a b _ ?_ ?_
      · rw [e1, e2]; exact hvert n hn u hu v hv
      · rw [e1]; exact htr n hn u hu
      · rw [e2]; exact htr n hn v hv
    generalize weave (link p.zigZag (p.lineWidth + 2 * p.lineDistance) (fun q => (lib.isCrossingPerimeter [⟨turn part.outline, part.holes.map turn⟩] q).1))
          (route (lines.map (shortened w)) order) = W at half ⊢
    have hpts : ∀ path ∈ part.outline :: part.holes, R.HasPath path := by
      intro path hpath
      rcases List.mem_cons.1 hpath with rfl | h
      · exact hp.1
      · exact hp.2 path h
    by_cases h0 : rot = 0
    · subst h0
      have hturn' : turn = id := by rw [← hturn]; funext path; exact C11_zero _ _ path
      subst hturn'
      simp only [List.map_id, id] at half
      intro path hpath q hq
      obtain ⟨path, hW, rfl⟩ := List.mem_map.1 hpath
      rw [neg_zero, C11_zero] at hq
      have k1 := half 1 0 R.maxX (by norm_num) (fun path hp q hq => by have := (hpts path hp q hq).2.1; simp only [one_mul, zero_mul, add_zero]; exact_mod_cast this) path hW q hq
      have k2 := half (-1) 0 (-R.minX) (by norm_num) (fun path hp q hq => by have := (hpts path hp q hq).1; simp only [neg_mul, one_mul, zero_mul, add_zero, neg_le_neg_iff]; exact_mod_cast this) path hW q hq
      have k3 := half 0 1 R.maxY (by norm_num) (fun path hp q hq => by have := (hpts path hp q hq).2.2.2; simp only [one_mul, zero_mul, zero_add]; exact_mod_cast this) path hW q hq
      have k4 := half 0 (-1) (-R.minY) (by norm_num) (fun path hp q hq => by have := (hpts path hp q hq).2.2.1; simp only [neg_mul, one_mul, zero_mul, zero_add, neg_le_neg_iff]; exact_mod_cast this) path hW q hq
      simp only [Rect.Has, Rect.grow]
      refine ⟨?_, ?_, ?_, ?_⟩ <;> (rw [← Int.cast_le (R := ℝ)]; push_cast; linarith)
    · obtain ⟨θ, hs, hc, hs', hc'⟩ := ht rot
      rw [Real.sin_neg] at hs'
      rw [Real.cos_neg] at hc'
      have hS := Real.abs_sin_le_one θ
      have hC := Real.abs_cos_le_one θ
      have hcs := Real.cos_sq_add_sin_sq θ
      set S := Real.sin θ
      set C := Real.cos θ
      have hneg : ∀ (u : ℚ) (U : ℝ), |(u : ℝ) - U| ≤ 1 / 2 ^ 48 → |((-u : ℚ) : ℝ) - (-U)| ≤ 1 / 2 ^ 48 := by
        intro u U h; rw [← abs_neg]; push_cast; convert h using 2; ring
      -- rotated points of the part
      have hrotd : ∀ path ∈ turn part.outline :: part.holes.map turn, ∀ q ∈ path, ∃ r : Pt, R.Has r.x r.y ∧
          |(q.x : ℝ) - (r.x * C + r.y * (-S))| ≤ 17 / 32 ∧ |(q.y : ℝ) - (r.x * S + r.y * C)| ≤ 17 / 32 := by
        intro path hpath q hq
        have : ∃ path', path' ∈ part.outline :: part.holes ∧ path = turn path' := by
          rw [show turn part.outline :: part.holes.map turn = (part.outline :: part.holes).map turn from rfl] at hpath
          obtain ⟨path', h1, h2⟩ := List.mem_map.1 hpath
          exact ⟨path', h1, h2.symm⟩
        obtain ⟨path', hp', rfl⟩ := this
        rw [← hturn] at hq
        simp only [pathRotate, if_neg h0] at hq
        obtain ⟨r, hr, rfl⟩ := List.mem_map.1 hq
        have hin := hpts path' hp' r hr
        have hx : |r.x| ≤ 2 ^ 40 := by rw [abs_le]; obtain ⟨a1, a2, a3, a4⟩ := hin; obtain ⟨b1, b2, b3, b4⟩ := hR; omega
        have hy : |r.y| ≤ 2 ^ 40 := by rw [abs_le]; obtain ⟨a1, a2, a3, a4⟩ := hin; obtain ⟨b1, b2, b3, b4⟩ := hR; omega
        have e1 := rotate_coord_err r.x r.y (trig rot).2 (-(trig rot).1) C (-S) hx hy hc (hneg _ _ hs) hC (by rwa [abs_neg])
        have e2 := rotate_coord_err r.x r.y (trig rot).1 (trig rot).2 S C hx hy hs hc hS hC
        refine ⟨r, hin, ?_, ?_⟩
        · have : (r.rotate (trig rot).1 (trig rot).2).x = roundEven (r64 (r64 (r64 (r.x : ℚ) * (trig rot).2) + r64 (r64 (r.y : ℚ) * (-(trig rot).1)))) := by
            simp only [Pt.rotate, mul_neg, r64_neg, sub_eq_add_neg]
          rw [this]; norm_num at e1 ⊢; exact e1
        · simp only [Pt.rotate]; norm_num at e2 ⊢; exact e2
      intro path hpath q hq
      obtain ⟨path, hW, rfl⟩ := List.mem_map.1 hpath
      simp only [pathRotate, if_neg (neg_ne_zero.2 h0)] at hq
      obtain ⟨r, hr, rfl⟩ := List.mem_map.1 hq
      have hcs' : C ^ 2 + S ^ 2 = 1 := hcs
      -- the four sides of the rotated rectangle
      have k1 := half C S (R.maxX + 7514 / 10000) hcs' (fun path hp q hq => by
        obtain ⟨r, hin, g1, g2⟩ := hrotd path hp q hq
        have := abs_lin hcs' g1 g2
        have hb : (r.x : ℝ) ≤ R.maxX := by exact_mod_cast hin.2.1
        have e : C * ((q.x : ℝ) - (r.x * C + r.y * (-S))) + S * ((q.y : ℝ) - (r.x * S + r.y * C)) = C * q.x + S * q.y - r.x * (C ^ 2 + S ^ 2) := by ring
        rw [e, hcs'] at this
        linarith) path hW r hr
      have k2 := half (-C) (-S) (-R.minX + 7514 / 10000) (by rw [neg_sq, neg_sq]; exact hcs') (fun path hp q hq => by
        obtain ⟨r, hin, g1, g2⟩ := hrotd path hp q hq
        have := abs_lin (C := -C) (S := -S) (by rw [neg_sq, neg_sq]; exact hcs') g1 g2
        have hb : (R.minX : ℝ) ≤ r.x := by exact_mod_cast hin.1
        have e : -C * ((q.x : ℝ) - (r.x * C + r.y * (-S))) + -S * ((q.y : ℝ) - (r.x * S + r.y * C)) = -C * q.x + -S * q.y + r.x * (C ^ 2 + S ^ 2) := by ring
        rw [e, hcs'] at this
        linarith) path hW r hr
      have hsc : (-S) ^ 2 + C ^ 2 = 1 := by rw [neg_sq]; linarith
      have k3 := half (-S) C (R.maxY + 7514 / 10000) hsc (fun path hp q hq => by
        obtain ⟨r, hin, g1, g2⟩ := hrotd path hp q hq
        have := abs_lin hsc g1 g2
        have hb : (r.y : ℝ) ≤ R.maxY := by exact_mod_cast hin.2.2.2
        have e : -S * ((q.x : ℝ) - (r.x * C + r.y * (-S))) + C * ((q.y : ℝ) - (r.x * S + r.y * C)) = -S * q.x + C * q.y - r.y * (C ^ 2 + S ^ 2) := by ring
        rw [e, hcs'] at this
        linarith) path hW r hr
      have hsc' : S ^ 2 + (-C) ^ 2 = 1 := by rw [neg_sq]; linarith
      have k4 := half S (-C) (-R.minY + 7514 / 10000) hsc' (fun path hp q hq => by
        obtain ⟨r, hin, g1, g2⟩ := hrotd path hp q hq
        have := abs_lin hsc' g1 g2
        have hb : (R.minY : ℝ) ≤ r.y := by exact_mod_cast hin.2.2.1
        have e : S * ((q.x : ℝ) - (r.x * C + r.y * (-S))) + -C * ((q.y : ℝ) - (r.x * S + r.y * C)) = S * q.x + -C * q.y + r.y * (C ^ 2 + S ^ 2) := by ring
        rw [e, hcs'] at this
        linarith) path hW r hr
      -- the point is not too far away to rotate it back
      have hb1 : (R.maxX : ℝ) ≤ 2 ^ 38 := by exact_mod_cast hR.2.1
      have hb2 : (-2 ^ 38 : ℝ) ≤ R.minX := by exact_mod_cast hR.1
      have hb3 : (R.maxY : ℝ) ≤ 2 ^ 38 := by exact_mod_cast hR.2.2.2
      have hb4 : (-2 ^ 38 : ℝ) ≤ R.minY := by exact_mod_cast hR.2.2.1
      have hA : |C * r.x + S * r.y| ≤ 2 ^ 39 := by rw [abs_le]; constructor <;> norm_num at * <;> linarith
      have hB : |-S * r.x + C * r.y| ≤ 2 ^ 39 := by rw [abs_le]; constructor <;> norm_num at * <;> linarith
      have hrx : |r.x| ≤ 2 ^ 40 := by
        have e : (r.x : ℝ) = C * (C * r.x + S * r.y) + -(S * (-S * r.x + C * r.y)) := by linear_combination (-(r.x : ℝ)) * hcs'
        have : |(r.x : ℝ)| ≤ 2 ^ 40 := by
          rw [e]
          refine (abs_add_le _ _).trans ?_
          rw [abs_neg, abs_mul, abs_mul]
          nlinarith [mul_le_mul hC hA (abs_nonneg _) (by norm_num), mul_le_mul hS hB (abs_nonneg _) (by norm_num)]
        exact_mod_cast this
      have hry : |r.y| ≤ 2 ^ 40 := by
        have e : (r.y : ℝ) = S * (C * r.x + S * r.y) + C * (-S * r.x + C * r.y) := by linear_combination (-(r.y : ℝ)) * hcs'
        have : |(r.y : ℝ)| ≤ 2 ^ 40 := by
          rw [e]
          refine (abs_add_le _ _).trans ?_
          rw [abs_mul, abs_mul]
          nlinarith [mul_le_mul hS hA (abs_nonneg _) (by norm_num), mul_le_mul hC hB (abs_nonneg _) (by norm_num)]
        exact_mod_cast this
      have e1 := rotate_coord_err r.x r.y (trig (-rot)).2 (-(trig (-rot)).1) C (- -S) hrx hry hc' (hneg _ _ hs') hC (by rwa [neg_neg])
      have e2 := rotate_coord_err r.x r.y (trig (-rot)).1 (trig (-rot)).2 (-S) C hrx hry hs' hc' (by rwa [abs_neg]) hC
      have ex : (r.rotate (trig (-rot)).1 (trig (-rot)).2).x = roundEven (r64 (r64 (r64 (r.x : ℚ) * (trig (-rot)).2) + r64 (r64 (r.y : ℚ) * (-(trig (-rot)).1)))) := by
        simp only [Pt.rotate, mul_neg, r64_neg, sub_eq_add_neg]
      rw [← ex] at e1
      have ey : (r.rotate (trig (-rot)).1 (trig (-rot)).2).y = roundEven (r64 (r64 (r64 (r.x : ℚ) * (trig (-rot)).1) + r64 (r64 (r.y : ℚ) * (trig (-rot)).2))) := rfl
      rw [← ey] at e2
      generalize r.rotate (trig (-rot)).1 (trig (-rot)).2 = f at e1 e2 ⊢
      have e1 := abs_le.1 e1
      have e2 := abs_le.1 e2
      simp only [Rect.Has, Rect.grow]
      have fin : ∀ a b : Int, (a : ℝ) < b + 2 → a ≤ b + 1 := by
        intro a b h
        have : a < b + 2 := by exact_mod_cast h
        omega
      refine ⟨?_, ?_, ?_, ?_⟩
      · have := fin (-f.x) (-R.minX) (by push_cast; linarith [e1.1])
        omega
      · exact fin _ _ (by linarith [e1.2])
      · have := fin (-f.y) (-R.minY) (by push_cast; linarith [e2.1])
        omega
      · exact fin _ _ (by linarith [e2.2])

end
end Verif
