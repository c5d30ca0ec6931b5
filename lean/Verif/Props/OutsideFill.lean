import Verif.Props.TurnedArea
import Verif.Props.PrintAreaFill

/-! # C114: infill lines stay in their areas -/
namespace Verif
open Verif.Go Verif.Model Verif.Spec

theorem onPath_two {a b : Pt} {x : ℚ × ℚ} : OnPath true [a, b] x ↔ OnSegment (exactPt a) (exactPt b) x := by
  simp [OnPath, pathLines]

theorem onSegment_swap {a b x : ℚ × ℚ} (h : OnSegment a b x) : OnSegment b a x := by
  obtain ⟨t, h0, h1, rfl⟩ := h
  refine ⟨1 - t, by linarith, by linarith, ?_⟩
  unfold lineAt
  ext <;> simp only <;> ring

/-- A path of the infill is one of the lines, or a link between two of them which is not crossing. -/
theorem weave_path (connect : Bool) (limit : Int) (crosses : Path → Bool) : ∀ (ls : List Segment) (path : Path), path ∈ weave (link connect limit crosses) ls →
    (∃ l ∈ ls, path = [l.1, l.2]) ∨ ∃ a ∈ ls, ∃ b ∈ ls, path = [a.2, b.1] ∧ crosses [a.2, b.1] = false
  | [], path, h => by simp [weave] at h
  | [a], path, h => by
    simp only [weave, List.mem_singleton] at h
    exact .inl ⟨a, by simp, h⟩
  | a :: b :: rest, path, h => by
    simp only [weave, List.mem_cons, List.mem_append] at h
    rcases h with rfl | h | h
    · exact .inl ⟨a, by simp, rfl⟩
    · unfold link at h
      split at h
      · rename_i hc
        rw [List.mem_singleton] at h
        exact .inr ⟨a, by simp, b, by simp, h, hc.2.2.2⟩
      · cases h
    · rcases weave_path connect limit crosses (b :: rest) path h with ⟨l, hl, h⟩ | ⟨u, hu, v, hv, h⟩
      · exact .inl ⟨l, List.mem_cons_of_mem _ hl, h⟩
      · exact .inr ⟨u, List.mem_cons_of_mem _ hu, v, List.mem_cons_of_mem _ hv, h⟩

/-- The lines of a route are the given ones, some of them turned around. -/
theorem route_line {lines : List Segment} {order : List Nat} (ho : UsesAll lines.length order) {l : Segment} (hl : l ∈ route lines order) :
    l ∈ lines ∨ (l.2, l.1) ∈ lines := by
  obtain ⟨⟨i, k⟩, hik, rfl⟩ := List.mem_map.1 hl
  have hi : i ∈ order := by
    obtain ⟨j, hj, he⟩ := List.mem_iff_getElem.1 hik
    rw [List.getElem_zipIdx] at he
    cases he
    exact List.getElem_mem _
  have hlt : i < lines.length := List.mem_range.1 (ho.mem_iff.1 hi)
  have hm : lines.getD i default ∈ lines := by
    rw [List.getD_eq_getElem?_getD, List.getElem?_eq_getElem hlt]
    exact List.getElem_mem hlt
  simp only [turned]
  split
  · exact .inl hm
  · exact .inr hm

/-- A shortened vertical line is a part of the line. -/
theorem shortened_on {w : Int} (hw : 0 ≤ w) {l : Segment} (hv : l.1.x = l.2.x) {x : ℚ × ℚ} (hx : OnSegment (exactPt (shortened w l).1) (exactPt (shortened w l).2) x) :
    OnSegment (exactPt l.1) (exactPt l.2) x := by
  unfold shortened at hx
  split at hx
  · exact hx
  split at hx
  · rename_i hlt
    obtain ⟨t, h0, h1, rfl⟩ := hx
    have hd : 0 ≤ w.tdiv 2 := Int.tdiv_nonneg hw (by norm_num)
    generalize w.tdiv 2 = d at hd hlt ⊢
    have hd' : (0 : ℚ) ≤ d := by exact_mod_cast hd
    have hlt' : (l.2.y : ℚ) + d < l.1.y := by exact_mod_cast (by omega : l.2.y + d < l.1.y)
    have hL : (0 : ℚ) < l.1.y - l.2.y := by linarith
    refine ⟨(d + t * (l.1.y - l.2.y - 2 * d)) / (l.1.y - l.2.y), div_nonneg ?_ hL.le, (div_le_one hL).2 ?_, ?_⟩
    · nlinarith [mul_nonneg h0 hL.le, mul_nonneg (sub_nonneg.2 h1) hd']
    · nlinarith [mul_nonneg (sub_nonneg.2 h1) hL.le, mul_nonneg h0 hd', mul_nonneg (sub_nonneg.2 h1) hd']
    · simp only [lineAt, exactPt, hv]
      ext
      · simp
      · simp only
        push_cast
        field_simp
        ring
  · exact hx

theorem sizes_zero {tree : List PolyNode} (h : PolyNode.sizes tree = 0) : tree = [] := by
  cases tree with
  | nil => rfl
  | cons c cs =>
    have := PolyNode.size_pos c
    simp only [PolyNode.sizes] at h
    omega

section
variable {inside : List IntPoint → Set (ℚ × ℚ)} {lib : ClipperLib} {tol : ℚ} (hn : NothingOutside inside lib tol) (ho : OpenClipping lib)
include hn ho

/-- The woven lines are near the area by which they are cut. -/
theorem woven_near {scan : List (List IntPoint)} (hscan : ∀ l ∈ scan, ∃ x top bottom, l = [⟨x, top⟩, ⟨x, bottom⟩]) {part : LayerPart} {tree : List PolyNode}
    (htree : lib.executeOpen .intersection scan (partContours part) = some tree) {lines : List Segment}
    (hlines : tree.map (fun n => asPath n.contour) = lines.map (fun l => [l.1, l.2])) {order : List Nat} (horder : UsesAll lines.length order) {w : Int} (hw : 0 ≤ w)
    {connect : Bool} {limit : Int} {path : Path}
    (hp : path ∈ weave (link connect limit fun q => (lib.isCrossingPerimeter [part] q).1) (route (lines.map (shortened w)) order)) :
    ∃ a b, path = [a, b] ∧ ∀ x, OnSegment (exactPt a) (exactPt b) x → NearArea inside tol (partContours part) x := by
  have hvert := hn.vertical _ _ _ htree (fun l hlm => by
    obtain ⟨x, top, bottom, rfl⟩ := hscan l hlm
    simp only [List.mem_cons, List.not_mem_nil, or_false]
    rintro p (rfl | rfl) q (rfl | rfl) <;> rfl)
  have hone : ∀ l ∈ lines.map (shortened w), ∀ x, OnSegment (exactPt l.1) (exactPt l.2) x → NearArea inside tol (partContours part) x := by
    intro l' hl' x hx
    obtain ⟨l, hl, rfl⟩ := List.mem_map.1 hl'
    have : [l.1, l.2] ∈ tree.map (fun n => asPath n.contour) := by rw [hlines]; exact List.mem_map_of_mem hl
    obtain ⟨n, hnm, he⟩ := List.mem_map.1 this
    refine hn.cut _ _ _ htree n hnm x ?_
    rw [he, onPath_two]
    refine shortened_on hw ?_ hx
    have h1 : l.1 ∈ asPath n.contour := by rw [he]; simp
    have h2 : l.2 ∈ asPath n.contour := by rw [he]; simp
    obtain ⟨a, ha, ea⟩ := List.mem_map.1 h1
    obtain ⟨b, hb, eb⟩ := List.mem_map.1 h2
    rw [← ea, ← eb]
    exact hvert n hnm a ha b hb
  have hline : ∀ l ∈ route (lines.map (shortened w)) order, ∀ x, OnSegment (exactPt l.1) (exactPt l.2) x → NearArea inside tol (partContours part) x := by
    intro l hl x hx
    rcases route_line (by simpa using horder) hl with h | h
    · exact hone l h x hx
    · exact hone _ h x (onSegment_swap hx)
  rcases weave_path _ _ _ _ _ hp with ⟨l, hl, rfl⟩ | ⟨a, ha, b, hb, rfl, hc⟩
  · exact ⟨_, _, rfl, hline l hl⟩
  · refine ⟨_, _, rfl, fun x hx => ?_⟩
    by_cases he : a.2 = b.1
    · rw [← he] at hx
      obtain ⟨t, -, -, rfl⟩ := hx
      refine hline a ha _ ⟨1, by norm_num, le_rfl, ?_⟩
      unfold lineAt
      ext <;> simp
    · have hperm : ([part].flatMap fun p => clipperPaths p.holes ++ [clipperPath p.outline]).Perm (partContours part) := by
        rw [List.flatMap_singleton]
        refine (List.perm_append_comm).trans ?_
        exact List.Perm.refl _
      simp only [ClipperLib.isCrossingPerimeter] at hc
      obtain ⟨t, ht⟩ := ho.ok .difference [clipperPath [a.2, b.1]] ([part].flatMap fun p => clipperPaths p.holes ++ [clipperPath p.outline])
      rw [ht] at hc
      simp only [decide_eq_false_iff_not, gt_iff_lt, not_lt, Nat.le_zero] at hc
      have := sizes_zero hc
      subst this
      refine nearArea_perm hperm (hn.left (clipperPoint a.2) (clipperPoint b.1) _ (fun h => he ?_) ht x ?_)
      · have h1 := congrArg IntPoint.x h
        have h2 := congrArg IntPoint.y h
        generalize a.2 = u at *
        generalize b.1 = v at *
        cases u
        cases v
        cases h1
        cases h2
        rfl
      · exact onPath_two.2 hx

end

/-- The points of the part are at most 17 km away from the origin. -/
def SmallPart (part : LayerPart) : Prop := ∀ c ∈ part.outline :: part.holes, ∀ q ∈ c, |q.x| ≤ 2 ^ 34 ∧ |q.y| ≤ 2 ^ 34

/-- **C114** Every point of the lines with which a part is filled is within 2.5 µm (and the tolerance of the library) of the closed area of the part. -/
theorem C114_fill {lib : ClipperLib} {tol : ℚ} (h0 : 0 ≤ tol) (h1 : tol ≤ 2 ^ 30) (hn : NothingOutside enclosedBy lib tol) (ho : OpenClipping lib) {trig : ℚ → ℚ × ℚ}
    (ht : TurnsBack trig) (p : Linear) (hw : 0 ≤ p.lineWidth) (layerNr : Nat) {part : LayerPart} (hp : SmallPart part) :
    Yields (p.fill lib trig layerNr part) fun paths => ∀ path ∈ paths, path.length = 2 ∧ ∀ x, OnPath true path x → NearArea enclosedBy (5 / 2 + tol) (partContours part) x := by
  intro paths hf
  generalize hrot : p.rotation layerNr = rot
  generalize hturn : (fun path : Path => pathRotate rot (trig rot).1 (trig rot).2 path) = turn
  generalize hbox : pathBounds (turn [p.min, ⟨p.max.x, p.min.y⟩, p.max, ⟨p.min.x, p.max.y⟩]) = box
  cases hscan : Linear.scanLines p.lineDistance box.1 box.2 with
  | none =>
    exfalso
    subst hbox hturn hrot
    unfold Linear.fill at hf
    obtain ⟨infill, hi, -⟩ := bind_ok.1 hf
    unfold Linear.getInfill at hi
    dsimp only at hscan hi
    rw [hscan] at hi
    cases hi
  | some scan =>
    have hshape := scanLoop_shape _ _ _ _ _ _ _ hscan
    obtain ⟨tree, lines, order, htree, hlines, horder, hfill⟩ := fill_of_scan p lib ho trig layerNr part hrot.symm hturn.symm hbox.symm hscan
      (fun l hl => by obtain ⟨x, rfl⟩ := hshape l hl; rfl)
    rw [hfill, Except.ok.injEq] at hf
    subst hf
    have hz : 0 ≤ (if p.zigZag then p.lineWidth else 0) := by split <;> omega
    intro path hpath
    obtain ⟨path, hW, rfl⟩ := List.mem_map.1 hpath
    obtain ⟨a, b, rfl, hnear⟩ := woven_near hn ho (part := ⟨turn part.outline, part.holes.map turn⟩) (fun l hl => by obtain ⟨x, rfl⟩ := hshape l hl; exact ⟨_, _, _, rfl⟩)
      htree hlines horder hz hW
    refine ⟨by unfold pathRotate; split <;> rfl, fun x hx => ?_⟩
    by_cases hr0 : rot = 0
    · subst hr0
      have hturn' : turn = id := by rw [← hturn]; funext path; exact C11_zero _ _ path
      subst hturn'
      rw [neg_zero, C11_zero, onPath_two] at hx
      have := hnear x hx
      simp only [List.map_id, id] at this
      exact NearArea.mono this (by linarith)
    · obtain ⟨θ, hs, hc, hs', hc'⟩ := ht rot
      have hacc : Accurate (trig rot).1 (trig rot).2 θ := ⟨hs, hc⟩
      have hacc' : Accurate (trig (-rot)).1 (trig (-rot)).2 (-θ) := ⟨hs', hc'⟩
      obtain ⟨b1, b2, b3, -, -⟩ := accurate_bounds hacc hacc'
      have hturn' : ∀ path, turn path = path.map fun q => q.rotate (trig rot).1 (trig rot).2 := by
        intro path; rw [← hturn]; simp only [pathRotate, if_neg hr0]
      rw [pathRotate, if_neg (neg_ne_zero.2 hr0), List.map_cons, List.map_cons, List.map_nil, onPath_two] at hx
      generalize (trig rot).1 = s at *
      generalize (trig rot).2 = c at *
      generalize (trig (-rot)).1 = s' at *
      generalize (trig (-rot)).2 = c' at *
      have hpos : 0 < c ^ 2 + s ^ 2 := by have := (abs_le.1 b3).1; norm_num at this; linarith
      have hfwd : ∀ path ∈ part.outline :: part.holes, ∀ q ∈ path, NearPt (4 / 5) (exactPt (q.rotate s c)) (lin c (-s) s c (exactPt q)) := by
        intro path hpm q hq
        have := hp path hpm q hq
        exact rotate_near hacc (this.1.trans (by norm_num)) (this.2.trans (by norm_num))
      have hpart' : (⟨turn part.outline, part.holes.map turn⟩ : LayerPart) =
          ⟨part.outline.map fun q => q.rotate s c, part.holes.map fun p => p.map fun q => q.rotate s c⟩ := by
        rw [hturn', List.map_congr_left fun p _ => hturn' p]
      rw [hpart'] at hnear
      -- the turned part is small, too
      have hsmall : ∀ z, NearArea enclosedBy tol (partContours ⟨part.outline.map fun q => q.rotate s c, part.holes.map fun p => p.map fun q => q.rotate s c⟩) z →
          |z.1| ≤ 2 ^ 37 ∧ |z.2| ≤ 2 ^ 37 := by
        rintro z ⟨y, hy, hzy⟩
        have hb := touches_box hy (B := 2 ^ 36 + 1) (by
          rw [show (part.outline.map (fun q => q.rotate s c) :: part.holes.map fun p => p.map fun q => q.rotate s c) =
            (part.outline :: part.holes).map fun p => p.map fun q => q.rotate s c from rfl]
          intro c' hc' q hq
          obtain ⟨path, hpm, rfl⟩ := List.mem_map.1 hc'
          obtain ⟨q, hqm, rfl⟩ := List.mem_map.1 hq
          have hq2 := hp path hpm q hqm
          have hqx : |(q.x : ℚ)| ≤ 2 ^ 34 := by exact_mod_cast hq2.1
          have hqy : |(q.y : ℚ)| ≤ 2 ^ 34 := by exact_mod_cast hq2.2
          obtain ⟨-, hq3⟩ := hfwd path hpm q hqm
          generalize q.rotate s c = r at hq3 ⊢
          simp only [exactPt, lin] at hq3
          have k1 := abs_le_of_sq_le_sq (a := (r.x : ℚ) - (c * q.x + -s * q.y)) (b := 4 / 5) (by nlinarith [sq_nonneg ((r.y : ℚ) - (s * q.x + c * q.y))]) (by norm_num)
          have k2 := abs_le_of_sq_le_sq (a := (r.y : ℚ) - (s * q.x + c * q.y)) (b := 4 / 5) (by nlinarith [sq_nonneg ((r.x : ℚ) - (c * q.x + -s * q.y))]) (by norm_num)
          have m1 : |c * (q.x : ℚ)| ≤ 2 * 2 ^ 34 := by rw [abs_mul]; gcongr
          have m2 : |s * (q.y : ℚ)| ≤ 2 * 2 ^ 34 := by rw [abs_mul]; gcongr
          have m3 : |s * (q.x : ℚ)| ≤ 2 * 2 ^ 34 := by rw [abs_mul]; gcongr
          have m4 : |c * (q.y : ℚ)| ≤ 2 * 2 ^ 34 := by rw [abs_mul]; gcongr
          rw [abs_le] at k1 k2 m1 m2 m3 m4
          rw [abs_le, abs_le]
          norm_num at k1 k2 m1 m2 m3 m4 ⊢
          refine ⟨⟨?_, ?_⟩, ?_, ?_⟩ <;> linarith)
        obtain ⟨-, hzy⟩ := hzy
        have k1 := abs_le_of_sq_le_sq (a := z.1 - y.1) (b := tol) (by nlinarith [sq_nonneg (z.2 - y.2)]) h0
        have k2 := abs_le_of_sq_le_sq (a := z.2 - y.2) (b := tol) (by nlinarith [sq_nonneg (z.1 - y.1)]) h0
        have hb1 := abs_le.1 hb.1
        have hb2 := abs_le.1 hb.2
        rw [abs_le] at k1 k2
        rw [abs_le, abs_le]
        norm_num at k1 k2 hb1 hb2 h1 ⊢
        refine ⟨⟨?_, ?_⟩, ?_, ?_⟩ <;> linarith
      have hends : (|a.x| ≤ 2 ^ 37 ∧ |a.y| ≤ 2 ^ 37) ∧ (|b.x| ≤ 2 ^ 37 ∧ |b.y| ≤ 2 ^ 37) := by
        have k1 := hsmall _ (hnear (exactPt a) ⟨0, le_rfl, by norm_num, by unfold lineAt; ext <;> simp⟩)
        have k2 := hsmall _ (hnear (exactPt b) ⟨1, by norm_num, le_rfl, by unfold lineAt; ext <;> simp⟩)
        simp only [exactPt] at k1 k2
        exact ⟨⟨by exact_mod_cast k1.1, by exact_mod_cast k1.2⟩, by exact_mod_cast k2.1, by exact_mod_cast k2.2⟩
      obtain ⟨t, ht0, ht1, rfl⟩ := hx
      have n1 := near_lineAt ht0 ht1 (turned_back hacc hacc' hends.1.1 hends.1.2) (turned_back hacc hacc' hends.2.1 hends.2.2)
      rw [← lin_lineAt] at n1
      obtain ⟨y, hy, hxy⟩ := hnear _ ⟨t, ht0, ht1, rfl⟩
      obtain ⟨z, hz, hyz⟩ := C114_turned hpos (by norm_num) (fun q => q.rotate s c) hfwd hy
      refine ⟨z, hz, (near_unturned b3 ((n1.trans hxy).trans hyz)).mono ?_⟩
      norm_num at h1 ⊢
      linarith

end Verif
