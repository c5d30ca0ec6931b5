import Verif.Props.PatternSetup
import Verif.Spec.Coverage

/-! # C105: the lines of a pattern cover its area -/
namespace Verif
open Verif.Go Verif.Model Verif.Spec

theorem mem_weave_of_mem {lk : Segment → Segment → Paths} : ∀ {ls : List Segment} {a : Segment}, a ∈ ls → [a.1, a.2] ∈ weave lk ls
  | [b], a, h => by
    obtain rfl : a = b := by simpa using h
    simp [weave]
  | b :: c :: rest, a, h => by
    rw [weave]
    rcases List.mem_cons.1 h with rfl | h
    · exact List.mem_cons_self ..
    · exact List.mem_cons_of_mem _ (List.mem_append_right _ (mem_weave_of_mem h))

theorem mem_route_of_mem {lines : List Segment} {order : List Nat} (h : UsesAll lines.length order) {a : Segment} (ha : a ∈ lines) :
    ∃ k, turned k a ∈ route lines order := by
  obtain ⟨i, hi, rfl⟩ := List.getElem_of_mem ha
  have hm : i ∈ order := (h.mem_iff).2 (by simpa using hi)
  obtain ⟨k, hk, rfl⟩ := List.getElem_of_mem hm
  refine ⟨k, ?_⟩
  unfold route
  rw [List.mem_map]
  refine ⟨(order[k], k), ?_, by simp [hi]⟩
  rw [List.mem_zipIdx_iff_getElem?]
  simp [hk]

/-- The scan line left of a point. -/
theorem scan_left {d : Int} {min max : Pt} (hd : 0 < d) {scan : List (List IntPoint)} (h : Linear.scanLines d min max = some scan) {x : ℚ}
    (h1 : (min.x : ℚ) ≤ x) (h2 : x ≤ (max.x : ℚ)) :
    ∃ X : Int, [⟨X, max.y⟩, ⟨X, min.y⟩] ∈ scan ∧ (X : ℚ) ≤ x ∧ x < X + d := by
  obtain ⟨n, hs, hn⟩ := C43_lines d min max hd
  rw [h] at hs
  have hs := Option.some.inj hs
  have hdq : (0 : ℚ) < d := by exact_mod_cast hd
  set k := ⌊(x - min.x) / d⌋ with hk
  have hk0 : 0 ≤ k := Int.floor_nonneg.2 (div_nonneg (by linarith) hdq.le)
  have e1 : (k : ℚ) * d ≤ x - min.x := by
    have := Int.floor_le ((x - min.x) / (d : ℚ))
    rwa [← hk, le_div_iff₀ hdq] at this
  have e2 : x - min.x < ((k : ℚ) + 1) * d := by
    have := Int.lt_floor_add_one ((x - min.x) / (d : ℚ))
    rwa [← hk, div_lt_iff₀ hdq] at this
  obtain ⟨m, hm⟩ : ∃ m : Nat, (m : Int) = k := ⟨k.toNat, Int.toNat_of_nonneg hk0⟩
  refine ⟨min.x + m * d, ?_, ?_, ?_⟩
  · rw [hs, List.mem_map]
    refine ⟨m, ?_, rfl⟩
    rw [List.mem_range, hn]
    have : ((min.x + m * d : Int) : ℚ) ≤ max.x := by
      rw [hm]; push_cast; linarith
    exact_mod_cast this
  · rw [hm]; push_cast; linarith
  · rw [hm]; push_cast; linarith

theorem shortened_through {w : Int} (hw : 0 ≤ w) {c d : IntPoint} {x : Int} {y : ℚ} (hc : c.x = x) (hd : d.x = x)
    (h : ((d.y : ℚ) ≤ y - w / 2 ∧ y + w / 2 ≤ c.y) ∨ ((c.y : ℚ) ≤ y - w / 2 ∧ y + w / 2 ≤ d.y)) :
    PassesThrough (shortened w (segOf c d)).1 (shortened w (segOf c d)).2 x y := by
  have hwq : (0 : ℚ) ≤ w := by exact_mod_cast hw
  have e : w.tdiv 2 = w / 2 := Int.tdiv_eq_ediv_of_nonneg hw
  have e2 : ((w / 2 : Int) : ℚ) ≤ (w : ℚ) / 2 := by
    have : 2 * (w / 2) ≤ w := Int.mul_ediv_self_le (by norm_num)
    have : (2 : ℚ) * ((w / 2 : Int) : ℚ) ≤ w := by exact_mod_cast this
    linarith
  unfold shortened
  split
  · refine ⟨hc, hd, ?_⟩
    simp only [segOf]
    rcases h with h | h
    · left; constructor <;> linarith
    · right; constructor <;> linarith
  · split
    · rename_i hlt
      refine ⟨hc, hd, ?_⟩
      simp only [segOf, e] at hlt ⊢
      rcases h with h | h
      · left
        push_cast
        constructor <;> linarith
      · exfalso
        have h1 : (c.y : ℚ) ≤ d.y := by linarith
        have h2 : c.y ≤ d.y := by exact_mod_cast h1
        have : 0 ≤ w / 2 := Int.ediv_nonneg hw (by norm_num)
        omega
    · refine ⟨hc, hd, ?_⟩
      simp only [segOf]
      rcases h with h | h
      · left; constructor <;> linarith
      · right; constructor <;> linarith

/-- A piece of a scan line which is inside of the area, with a margin at both ends, is part of one of the woven lines. -/
theorem covered_lines {inside : List IntPoint → Set (ℚ × ℚ)} {lib : ClipperLib} (hk : KeepsInside inside lib) {scan : List (List IntPoint)} {part : LayerPart} {tree : List PolyNode}
    (htree : lib.executeOpen .intersection scan (partContours part) = some tree) {lines : List Segment}
    (hlines : tree.map (fun n => asPath n.contour) = lines.map (fun l => [l.1, l.2])) {order : List Nat} (horder : UsesAll lines.length order) {w : Int} (hw : 0 ≤ w)
    {lk : Segment → Segment → Paths} {X top bottom : Int} (hX : [⟨X, top⟩, ⟨X, bottom⟩] ∈ scan) {lo hi : ℚ} (hle : lo ≤ hi)
    (h1 : bottom + (w : ℚ) / 2 ≤ lo) (h2 : hi ≤ top - (w : ℚ) / 2)
    (hin : ∀ y, lo - ((w : ℚ) / 2 + 1) ≤ y → y ≤ hi + ((w : ℚ) / 2 + 1) → ((X : ℚ), y) ∈ region inside [part]) :
    ∃ a b, PassesThrough a b X lo ∧ PassesThrough a b X hi ∧ [a, b] ∈ weave lk (route (lines.map (shortened w)) order) := by
  have hwq : (0 : ℚ) ≤ w := by exact_mod_cast hw
  obtain ⟨n, hn, c, d, hcd, hcx, hdx, hy⟩ := hk _ _ _ htree X _ _ hX (lo - w / 2) (hi + w / 2) (by linarith) (by linarith) (by linarith) (by
    intro y' ha hb
    have := hin y' (by linarith) (by linarith)
    rw [region, List.flatMap_singleton] at this
    exact this)
  have hline : segOf c d ∈ lines := by
    have : asPath n.contour ∈ lines.map (fun l => [l.1, l.2]) := by
      rw [← hlines]
      exact List.mem_map.2 ⟨n, hn, rfl⟩
    obtain ⟨l, hl, he⟩ := List.mem_map.1 this
    rw [hcd] at he
    simp only [asPath, List.map_cons, List.map_nil, List.cons.injEq, and_true] at he
    obtain ⟨l1, l2⟩ := l
    simp only at he
    rw [segOf]
    rw [he.1, he.2] at hl
    exact hl
  have t1 : PassesThrough (shortened w (segOf c d)).1 (shortened w (segOf c d)).2 X lo := by
    apply shortened_through hw hcx hdx
    rcases hy with hy | hy
    · exact .inl ⟨hy.1, by linarith⟩
    · exact .inr ⟨hy.1, by linarith⟩
  have t2 : PassesThrough (shortened w (segOf c d)).1 (shortened w (segOf c d)).2 X hi := by
    apply shortened_through hw hcx hdx
    rcases hy with hy | hy
    · exact .inl ⟨by linarith, hy.2⟩
    · exact .inr ⟨by linarith, hy.2⟩
  have hmem : shortened w (segOf c d) ∈ lines.map (shortened w) := List.mem_map_of_mem hline
  obtain ⟨k, hk⟩ := mem_route_of_mem (by simpa using horder) hmem
  refine ⟨(turned k (shortened w (segOf c d))).1, (turned k (shortened w (segOf c d))).2, ?_, ?_, mem_weave_of_mem hk⟩
  · unfold turned
    split
    · exact t1
    · obtain ⟨q1, q2, q3⟩ := t1
      exact ⟨q2, q1, q3.symm⟩
  · unfold turned
    split
    · exact t2
    · obtain ⟨q1, q2, q3⟩ := t2
      exact ⟨q2, q1, q3.symm⟩

/-- **C105** The lines of a pattern cover its area: left of every point of the rotated limits there is a scan line in less than the line distance.
Where this line is inside of the (rotated) part, it is printed: a piece of it, from `lo` to `hi`, which is, along the line, not nearer to the border than 1 µm and half the
line width (only for zig zag), is part of one of the returned lines, before it is rotated back. -/
theorem C105_covered (inside : List IntPoint → Set (ℚ × ℚ)) (p : Linear) (lib : ClipperLib) (hlib : OpenClipping lib) (hk : KeepsInside inside lib)
    (trig : ℚ → ℚ × ℚ) (hd : 0 < p.lineDistance) (hw : 0 ≤ p.lineWidth) (layerNr : Nat) (part : LayerPart) :
    let rot := p.rotation layerNr
    let turn := fun path : Path => pathRotate rot (trig rot).1 (trig rot).2 path
    let box := pathBounds (turn [p.min, ⟨p.max.x, p.min.y⟩, p.max, ⟨p.min.x, p.max.y⟩])
    let margin : ℚ := if p.zigZag then p.lineWidth / 2 else 0
    ∃ result, p.fill lib trig layerNr part = .ok result ∧
      ∀ x : ℚ, box.1.x ≤ x → x ≤ box.2.x → ∃ X : Int, X ≤ x ∧ x < X + p.lineDistance ∧
        ∀ lo hi : ℚ, lo ≤ hi → box.1.y + margin ≤ lo → hi ≤ box.2.y - margin →
          (∀ y : ℚ, lo - (margin + 1) ≤ y → y ≤ hi + (margin + 1) → ((X : ℚ), y) ∈ region inside [⟨turn part.outline, part.holes.map turn⟩]) →
          ∃ a b, PassesThrough a b X lo ∧ PassesThrough a b X hi ∧ pathRotate (-rot) (trig (-rot)).1 (trig (-rot)).2 [a, b] ∈ result := by
  intro rot turn box margin
  obtain ⟨scan, tree, lines, order, h1, h2, h3, h4, h5⟩ := C81_fill p lib hlib trig hd layerNr part
  refine ⟨_, h5, fun x hx1 hx2 => ?_⟩
  obtain ⟨X, hX, hX1, hX2⟩ := scan_left hd h1 hx1 hx2
  refine ⟨X, hX1, hX2, fun lo hi hle hy1 hy2 hin => ?_⟩
  set w := if p.zigZag then p.lineWidth else 0 with hwd
  have hw0 : 0 ≤ w := by rw [hwd]; split <;> omega
  have hmw : margin = (w : ℚ) / 2 := by
    simp only [margin, hwd]
    split <;> simp
  rw [hmw] at hy1 hy2 hin
  obtain ⟨a, b, ha, hb, hab⟩ := covered_lines hk (part := ⟨turn part.outline, part.holes.map turn⟩) h2 h3 h4 hw0 hX hle hy1 hy2 hin
  exact ⟨a, b, ha, hb, List.mem_map_of_mem hab⟩

/-- C105, violation for support: the areas of support are enlarged by one and a half spacings (C82), but the lines are only drawn in the limits of
the model plus one spacing. So the border of an area outside of these limits gets no line: shown for the interface, whose lines are not rotated. -/
theorem C105_support (lib : ClipperLib) (tan : ℚ) (o : Options) (below above : Layer) (support : List LayerPart)
    (hs : detectSupport lib tan o below above = .ok support) (hspace : 1 < toMicrometer o.print.support.patternSpacing)
    (hbig : toMicrometer o.print.support.patternSpacing ≤ 2 ^ 51) (hw : 0 < o.printer.extrusionWidth) (min max : Pt) :
    (∃ overhang : List LayerPart, support = overhang.flatMap fun p => lib.inset1 p ((toMicrometer o.print.support.patternSpacing * 3 / 2 : Int) : ℚ)) ∧
    toMicrometer o.print.support.patternSpacing < toMicrometer o.print.support.patternSpacing * 3 / 2 ∧
    (∀ n, (interfacePattern o min max).rotation n = 0) ∧
    ∃ scan, Linear.scanLines (interfacePattern o min max).lineDistance (interfacePattern o min max).min (interfacePattern o min max).max = some scan ∧
      ∀ l ∈ scan, ∀ q ∈ l, (min.x - toMicrometer o.print.support.patternSpacing ≤ q.x ∧ q.x ≤ max.x + toMicrometer o.print.support.patternSpacing) ∧
        (q.y = min.y - toMicrometer o.print.support.patternSpacing ∨ q.y = max.y + toMicrometer o.print.support.patternSpacing) := by
  refine ⟨?_, by omega, ?_, ?_⟩
  · simp only [detectSupport, bind_ok, oneInset, pure, Except.pure, Except.ok.injEq] at hs
    obtain ⟨ov, -, h2⟩ := hs
    refine ⟨ov, h2.symm.trans ?_⟩
    rw [Int.tdiv_eq_ediv_of_nonneg (by omega), r64_intCast]
    rw [abs_of_nonneg (by omega)]
    omega
  · intro n
    rw [C81_rotation _ (show |(0 : Int)| ≤ 2 ^ 31 by decide)]
    simp [interfacePattern]
  · obtain ⟨n, h1, h2⟩ := C43_lines (interfacePattern o min max).lineDistance (interfacePattern o min max).min (interfacePattern o min max).max hw
    refine ⟨_, h1, fun l hl q hq => ?_⟩
    obtain ⟨k, hk, rfl⟩ := List.mem_map.1 hl
    rw [List.mem_range, h2] at hk
    have h0 : 0 ≤ (k : Int) * (interfacePattern o min max).lineDistance := mul_nonneg (by omega) hw.le
    simp only [interfacePattern, patternSpacing] at hk h0 hq
    simp only [List.mem_cons, List.not_mem_nil, or_false] at hq
    rcases hq with rfl | rfl
    · exact ⟨⟨by simp only; linarith, hk⟩, .inr rfl⟩
    · exact ⟨⟨by simp only; linarith, hk⟩, .inl rfl⟩

/-! ## Examples -/

/-- A library which keeps the lines is one which keeps what is inside. -/
example (inside : List IntPoint → Set (ℚ × ℚ)) : KeepsInside inside insideClipper := by
  intro lines clip tree h x top bottom hl lo hi h1 h2 h3 _
  have h := Option.some.inj h
  subst h
  refine ⟨_, List.mem_map_of_mem hl, ⟨x, top⟩, ⟨x, bottom⟩, rfl, rfl, rfl, .inl ⟨h2, h3⟩⟩

/-- A pattern with lines in the distance of 400 µm, not rotated, in limits of 2 mm. -/
def smallPattern : Linear := ⟨400, 400, 0, ⟨0, 0⟩, ⟨2000, 2000⟩, false, false⟩

/-- Non-vacuity: its lines. -/
example : smallPattern.fill insideClipper (fun _ => (0, 1)) 1 ⟨[⟨0, 0⟩, ⟨2000, 0⟩, ⟨2000, 2000⟩, ⟨0, 2000⟩], []⟩ =
    .ok [[⟨0, 2000⟩, ⟨0, 0⟩], [⟨400, 0⟩, ⟨400, 2000⟩], [⟨800, 2000⟩, ⟨800, 0⟩], [⟨1200, 0⟩, ⟨1200, 2000⟩], [⟨1600, 2000⟩, ⟨1600, 0⟩],
      [⟨2000, 0⟩, ⟨2000, 2000⟩]] := by
  decide +kernel

/-- Non-vacuity: the default options have a spacing of 2.5 mm. -/
example : toMicrometer ({} : Options).print.support.patternSpacing = 2500 ∧ 0 < ({} : Options).printer.extrusionWidth := by decide +kernel

end Verif
