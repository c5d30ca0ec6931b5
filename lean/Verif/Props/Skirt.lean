import Verif.Spec.Skirt
import Verif.Props.Shell

/-! # The skirt is around everything (C125) -/
namespace Verif
open Verif.Go Verif.Model Verif.Spec Verif.Spec.GCode

section
variable {lib : ClipperLib} {o : Options} {tol : ℚ} {x y : ℚ × ℚ}

/-- What a closed path encloses, and its lines, is in the convex hull of its points. -/
theorem inHull_of_path {path ps : Path} (hsub : ∀ p ∈ path, p ∈ ps) (hx : Encloses path x ∨ OnPath false path x) : InHull ps x := by
  intro u v w h
  refine touches_half (p := ⟨path, []⟩) (x := x) ?_ (u := u) (v := v) (w := w) fun c hc q hq => ?_
  · rcases hx with hx | hx
    · refine .inl ?_
      rw [mem_region_ring]
      simpa using (encloses_ring path x).1 hx
    · exact .inr (onContour_part.2 ⟨path, by simp, hx⟩)
  · rw [List.mem_singleton] at hc
    subst hc
    exact h q (hsub q hq)

/-- A vector with a bounded length. -/
theorem reach_le {u v a b R s : ℚ} (h : a ^ 2 + b ^ 2 ≤ R ^ 2) (hs : 0 ≤ s) (hl : s ≤ u * a + v * b) : s ^ 2 ≤ R ^ 2 * (u ^ 2 + v ^ 2) := by
  nlinarith [sq_nonneg (u * b - v * a), mul_le_mul_of_nonneg_right h (by positivity : 0 ≤ u ^ 2 + v ^ 2), mul_self_le_mul_self hs hl]

/-- Points near to the convex hull are not near to a point far from it. -/
theorem beyond_far {R e : ℚ} {ps : Path} (hy : BeyondHull (R + e) ps y) {h z : ℚ × ℚ} (hh : InHull ps h) (hz : NearPt R z h) : ¬ NearPt e y z := by
  intro hn
  obtain ⟨u, v, w, h1, h2, h3⟩ := hy
  have ht := (hn.trans hz).2
  have := hh u v w h1
  have := reach_le (u := u) (v := v) (s := u * y.1 + v * y.2 - w) ht (by linarith) (by linarith)
  rw [add_comm e R] at this
  linarith

/-- A ring near to the convex hull does not enclose a point far from it. -/
theorem beyond_outside {R : ℚ} {ps path : Path} (hy : BeyondHull R ps y) (hp : ∀ z, OnPath false path z → ∃ h, InHull ps h ∧ NearPt R z h) : ¬ Encloses path y := by
  obtain ⟨u, v, w, h1, h2, h3⟩ := hy
  rw [encloses_iff, pathCross_side (u := -u) (v := -v)]
  · simp
  · intro q hq
    obtain ⟨i, hi, rfl⟩ := List.getElem_of_mem hq
    obtain ⟨h, hh, hn⟩ := hp (exactPt path[i]) ⟨path[i], (path.rotate 1)[i]'(by simpa using hi), by
      rw [pathLines_ring]
      exact List.mem_iff_getElem.2 ⟨i, by simp [ringSides, hi], by simp [ringSides]⟩, 0, le_rfl, zero_le_one, by simp [lineAt]⟩
    have := hh u v w h1
    unfold Side
    by_contra hc
    have := reach_le (u := u) (v := v) (s := u * y.1 + v * y.2 - w) hn.2 (by linarith) (by linarith)
    linarith

/-- How far skirt line `k` is away from everything else. -/
def skirtReach (o : Options) (k : Nat) : Int := toMicrometer o.print.brimSkirt.skirtDistance + (o.print.brimSkirt.brimCount + 1 + k) * o.printer.extrusionWidth

/-- **C125** What is drawn of a skirt line is around everything in the layer, and keeps its distance. -/
theorem C125_layer (hb : |skirtDistance o| + o.print.brimSkirt.skirtCount * |o.printer.extrusionWidth| ≤ 2 ^ 53) {support : List LayerPart} {walls : OffsetResult}
    {ps : Path} (hps : ps = (support ++ walls.flatten.flatten).flatMap LayerPart.outline) {k : Nat} (hk : (k : Int) < o.print.brimSkirt.skirtCount)
    (hring : RingAround lib tol ps (skirtReach o k)) (hreach : 138 + tol < skirtReach o k)
    (hsmall : ∀ p ∈ (skirtLines lib o support walls).flatten, SmallPath p.outline) {part : LayerPart} (hpart : part ∈ support ++ walls.flatten.flatten)
    (hx : Encloses part.outline x ∨ OnPath false part.outline x) (hy : BeyondHull (3 / 2 * skirtReach o k + tol + 138) ps y)
    {way : List (ℚ × ℚ)} (hway : WayFrom x y way) :
    ∃ z, OnWay way z ∧ ∃ p ∈ (skirtLines lib o support walls).flatten, (∃ s ∈ sidesOf (douglasPeuckerM p.outline (-1)), s.1 ≠ s.2 ∧ OnSegment (exactPt s.1) (exactPt s.2) z) ∧
      ∀ q, InHull ps q → Apart (skirtReach o k - tol - 69) z q := by
  obtain ⟨c, hc, hin, hon⟩ := hring
  have hline := C42_skirt lib o support walls hb k hk
  rw [← hps] at hline
  unfold skirtReach at hc
  rw [hc] at hline
  have hm : (⟨asPath c, []⟩ : LayerPart) ∈ (skirtLines lib o support walls).flatten := by
    refine List.mem_flatten.2 ⟨_, List.mem_of_getElem? hline, ?_⟩
    have : polyTreeToLayerParts [.node c []] = [⟨asPath c, []⟩] := by
      rw [polyTreeToLayerParts, polyRounds, dif_neg (by simp), polyRounds, dif_pos (by simp [nextRound, PolyNode.childs])]
      rfl
    rw [this]
    simp
  have hs := hsmall _ hm
  have hull : InHull ps x := inHull_of_path (fun p hp => by rw [hps]; exact List.mem_flatMap.2 ⟨part, hpart, hp⟩) hx
  have fx : FarFromPath 138 (asPath c) x := by
    intro s hs t h0 h1
    have := (hon (lineAt (exactPt s.1) (exactPt s.2) t) ⟨s.1, s.2, by rw [pathLines_sides]; exact hs, t, h0, h1, rfl⟩).1 x hull
    rcases this with this | this
    · linarith
    · simp only [lineAt] at this
      nlinarith
  have fy : FarFromPath 138 (asPath c) y := by
    intro s hs
    refine farFrom_of_not_near (by norm_num) fun z hz => ?_
    obtain ⟨h, h1, h2⟩ := (hon z ⟨s.1, s.2, by rw [pathLines_sides]; exact hs, hz⟩).2
    exact beyond_far hy h1 h2
  have ex : Encloses (asPath c) x := hin x hull
  have ey : ¬ Encloses (asPath c) y := by
    refine beyond_outside hy fun z hz => ?_
    obtain ⟨h, h1, h2⟩ := (hon z hz).2
    exact ⟨h, h1, h2.mono (by linarith)⟩
  obtain ⟨z, hz, s, hs1, hs2, hs3⟩ := way_meets (p := douglasPeuckerM (asPath c) (-1)) hway (by
    rw [drawn_encloses hs fx, drawn_encloses hs fy]
    exact fun h => ey (h.1 ex))
  refine ⟨z, hz, _, hm, ⟨s, hs1, hs2, hs3⟩, fun q hq => ?_⟩
  obtain ⟨w, hw1, hw2⟩ := C113_simplified (asPath c) hs false z ⟨s.1, s.2, by rw [pathLines_sides]; exact hs1, hs3⟩
  exact apart_of_near ((hon w hw1).1 q hq) (by
    refine ⟨hw2.1, ?_⟩
    have := hw2.2
    nlinarith)

end

/-- **C125** The skirt is around everything. In the G-code of the program, every way in the plane of the first layer, from a point on or inside of an outline of a wall or of the support
to a point far outside, comes within 8 µm of an extruding move at the height of the layer. This is so for each skirt line: the point where skirt line `k` (from 0) is met is at least as far away
from everything inside of the convex hull of the walls and the support as the skirt distance and `brimCount + 1 + k` line widths, up to 69 µm and the tolerance of the library. -/
theorem C125_program (ext : Externals) (o : Options) (content t : Str) (h : gcodeOf ext o content = .ok t) (ho : Extrudes o) {tol : ℚ}
    (hb : |skirtDistance o| + o.print.brimSkirt.skirtCount * |o.printer.extrusionWidth| ≤ 2 ^ 53) (hs : o.print.brimSkirt.skirtCount ≠ 0) :
    ∃ om sliced layers, optimize o ((ext.stl content).map stlTriangleToFace) = .ok om ∧ slice ext.lib o om = .ok sliced ∧
      (standardModifiers ext.lib ext.tan o).foldlM (fun ls m => m ls) sliced = .ok layers ∧
      ∀ l, layers[0]? = some l → ∃ body m moves walls support, t = startText o ++ body ++ endText o ∧ run body = some (m, moves) ∧
        l.perimeters = .ok walls ∧ l.fullSupport = .ok support ∧
        ∀ ps, ps = (support ++ walls.flatten.flatten).flatMap LayerPart.outline →
          (∀ p ∈ (skirtLines ext.lib o support walls).flatten, Ordinary p.outline) →
          ∀ k : Nat, k < o.print.brimSkirt.skirtCount → RingAround ext.lib tol ps (skirtReach o k) → 138 + tol < skirtReach o k →
          ∀ part ∈ support ++ walls.flatten.flatten, ∀ x y way, WayFrom x y way → Encloses part.outline x ∨ OnPath false part.outline x →
            BeyondHull (3 / 2 * skirtReach o k + tol + 138) ps y →
          ∃ z, OnWay way z ∧ PrintedNear moves (layerHeight o 0) 8 z ∧ ∀ q, InHull ps q → Apart (skirtReach o k - tol - 69) z q := by
  obtain ⟨om, sliced, layers, pt, g0, h1, h2, h3, h4, h5⟩ := gcodeOf_steps h
  refine ⟨om, sliced, layers, h1, h2, h3, fun l hl => ?_⟩
  obtain ⟨body, m, moves, b1, b2, b3⟩ := C111_printed ho (by rintro rfl; cases hl) h5
  obtain ⟨-, -, -, b4⟩ := b3 0 l hl
  obtain ⟨walls, support, hwalls, hsupport, hprint⟩ := b4 rfl hs
  refine ⟨body, m, moves, walls, support, b1, b2, hwalls, hsupport, fun ps hps hord k hk hring hreach part hpart x y way hway hx hy => ?_⟩
  obtain ⟨z, hz, p, hp, ⟨s, s1, s2, s3⟩, hq⟩ := C125_layer hb hps hk hring hreach (fun p hp => (hord p hp).small) hpart hx hy hway
  refine ⟨z, hz, ?_, hq⟩
  have ord := (hord p hp).near
  have hsub : ∀ q ∈ douglasPeuckerM p.outline (-1), q ∈ p.outline := fun q hq => (C05_int64_subsequence p.outline (-1)).subset hq
  have m1 := ord _ (hsub _ (List.of_mem_zip s1).1)
  have m2 := ord _ (hsub _ (by have := (List.of_mem_zip s1).2; exact List.mem_rotate.1 this))
  obtain ⟨i, before, line, p1, p2, p3, p4, p5, p6⟩ := hprint (by
      rintro ⟨rfl, rfl⟩
      cases hpart) p hp s.1 s.2 (by rw [pathLines_sides]; exact s1) s2
    ((abs_sub _ _).trans (by linarith [m1.1, m2.1])) ((abs_sub _ _).trans (by linarith [m1.2, m2.2]))
  obtain ⟨w, hw1, hw2⟩ := near_passes p3 p6 m1.1 m1.2 m2.1 m2.2 s3
  exact ⟨i, before, line, p1, p2, p4, p5, p3.2.2, p6.2.2, w, hw1, hw2.mono (by norm_num)⟩

end Verif
