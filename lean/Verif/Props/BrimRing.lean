import Verif.Spec.Brim
import Verif.Props.Skirt
import Verif.Props.Travel

/-! # The brim is around every outermost outline (C130) -/
namespace Verif
open Verif.Go Verif.Model Verif.Spec Verif.Spec.GCode

section
variable {lib : ClipperLib} {o : Options} {tol : ℚ} {x y : ℚ × ℚ}

/-- A point near to one which is near. -/
theorem keeps_drawn {outline path : Path} {lo hi : ℚ} (h : KeepsFrom outline lo hi path) (hs : SmallPath path) :
    KeepsFrom outline (lo - 69) (hi + 69) (douglasPeuckerM path (-1)) := by
  intro z hz
  obtain ⟨w, hw1, hw2⟩ := C113_simplified path hs false z hz
  have hn : NearPt 69 w z := ⟨hw2.1, by have := hw2.2; nlinarith⟩
  refine ⟨fun q hq => apart_of_near ((h w hw1).1 q hq) hn, ?_⟩
  obtain ⟨y, y1, y2⟩ := (h w hw1).2
  exact ⟨y, y1, (hw2.trans y2).mono (by linarith)⟩

/-- A ring around an outline is met on every way from the outline to the outside, after its simplification as well. -/
theorem ring_met {outline path : Path} {lo hi : ℚ} (hk : KeepsFrom outline lo hi path) (hlo : 138 < lo) (hin : ∀ x, InOrOn outline x → Encloses path x)
    (hs : SmallPath path) (hx : InOrOn outline x) (hy : BeyondHull (hi + 138) outline y) {way : List (ℚ × ℚ)} (hway : WayFrom x y way) :
    ∃ z, OnWay way z ∧ ∃ s ∈ sidesOf (douglasPeuckerM path (-1)), s.1 ≠ s.2 ∧ OnSegment (exactPt s.1) (exactPt s.2) z := by
  have hull : ∀ x, InOrOn outline x → InHull outline x := fun x hx => inHull_of_path (fun p hp => hp) hx
  have fx : FarFromPath 138 path x := by
    intro s hs t h0 h1
    have := (hk (lineAt (exactPt s.1) (exactPt s.2) t) ⟨s.1, s.2, by rw [pathLines_sides]; exact hs, t, h0, h1, rfl⟩).1 x hx
    rcases this with this | this
    · linarith
    · simp only [lineAt] at this
      nlinarith
  have fy : FarFromPath 138 path y := by
    intro s hs
    refine farFrom_of_not_near (by norm_num) fun z hz => ?_
    obtain ⟨h, h1, h2⟩ := (hk z ⟨s.1, s.2, by rw [pathLines_sides]; exact hs, hz⟩).2
    exact beyond_far hy (hull h h1) h2
  have ey : ¬ Encloses path y := by
    refine beyond_outside hy fun z hz => ?_
    obtain ⟨h, h1, h2⟩ := (hk z hz).2
    exact ⟨h, hull h h1, h2.mono (by linarith)⟩
  obtain ⟨z, hz, s, hs1, hs2, hs3⟩ := way_meets (p := douglasPeuckerM path (-1)) hway (by
    rw [drawn_encloses hs fx, drawn_encloses hs fy]
    exact fun h => ey (h.1 (hin x hx)))
  exact ⟨z, hz, s, hs1, hs2, hs3⟩

/-- The top of a tree is one of the parts. -/
theorem polyTree_top (c : List IntPoint) (holes : List PolyNode) : ∃ part ∈ polyTreeToLayerParts [.node c holes], part.outline = asPath c :=
  ⟨nodePart (.node c holes), (polyTree_perm _).mem_iff.2 (by simp [treeParts]), rfl⟩

/-- The outlines of the first pieces of all walls of a layer, as they are given to the library. -/
def firstPieces (walls : OffsetResult) : List (List IntPoint) :=
  (walls.flatMap fun part => part.filterMap List.head?).map fun p => p.outline.map fun q => (⟨q.x, q.y⟩ : IntPoint)

/-- The modifiers of the program leave the brim of the first layer as the brim modifier made it. -/
theorem brim_modified {tan : ℚ} {ls ls' : List Layer} (h : (standardModifiers lib tan o).foldlM (fun ls m => m ls) ls = .ok ls') (hc : o.print.brimSkirt.brimCount ≠ 0)
    (hb : |o.printer.extrusionWidth| + o.print.brimSkirt.brimCount * |o.printer.extrusionWidth| ≤ 2 ^ 53) {l : Layer} (hl : ls'[0]? = some l) {walls : OffsetResult}
    (hw : l.perimeters = .ok walls) (hne : walls ≠ []) {tree : List PolyNode} (ht : lib.execute .union (firstPieces walls) [] = some tree) {node : PolyNode} (hn : node ∈ tree) :
    ∃ brim, l.brim = .ok brim ∧ ∀ k : Nat, (k : Int) < o.print.brimSkirt.brimCount →
      ∀ line ∈ polyTreeToLayerParts (lib.offset [node.contour] (((k + 1) * o.printer.extrusionWidth : Int) : ℚ)), line ∈ brim.flatten.flatten := by
  simp only [standardModifiers, List.foldlM_cons, List.foldlM_nil, bind_ok, pure, Except.pure, Except.ok.injEq] at h
  obtain ⟨l1, -, l2, -, l3, -, l4, e4, l5, e5, l6, e6, rfl⟩ := h
  have hs : SameLayersBut ["fullSupport", "supportInterface", "support"] l4 l6 :=
    ((C61_detector _ _ _ _ _ e5 : SameLayersBut _ _ _).mono (by simp)).trans (C61_generator _ _ _ _ e6)
  cases hs with
  | nil => cases hl
  | @cons a b as bs h1 h2 =>
  cases hl
  have hw' : a.perimeters = .ok walls := by
    rw [← hw]
    unfold Layer.perimeters
    rw [h1.2 _ (by simp)]
  have hb' : l.brim = a.brim := by
    unfold Layer.brim
    rw [h1.2 _ (by simp)]
  have h3 : SameLayersBut _ l3 (a :: as) := C61_brim _ _ _ _ e4
  cases h3 with
  | @cons c _ cs _ h4 h5 =>
  have hwc : c.perimeters = .ok walls := by
    rw [← hw']
    unfold Layer.perimeters
    rw [h4.2 _ (by simp)]
  have ht' : lib.topLevelPolygons (walls.flatMap fun part => part.filterMap List.head?) = some (tree.map fun n => asPath n.contour) := by
    unfold ClipperLib.topLevelPolygons
    rw [show ((walls.flatMap fun part => part.filterMap List.head?).map fun p => clipperPath p.outline) = firstPieces walls from rfl, ht]
    rfl
  obtain ⟨a', brim, g1, g2, g3, g4⟩ := C42_brim lib o cs (a :: as) c walls _ e4 hwc hne hc ht' (by rintro h; rw [List.map_eq_nil_iff] at h; subst h; cases hn) hb
  cases g1
  refine ⟨brim, hb'.trans g2, fun k hk line hline => ?_⟩
  obtain ⟨i, hi⟩ := List.mem_iff_getElem?.1 hn
  obtain ⟨lines, g5, -, g6⟩ := g4 i (asPath node.contour) (by simp [hi])
  refine List.mem_flatten.2 ⟨_, List.mem_flatten.2 ⟨lines, List.mem_of_getElem? g5, List.mem_of_getElem? (g6 k hk)⟩, ?_⟩
  rw [show ((asPath node.contour).map fun q => (⟨q.x, q.y⟩ : IntPoint)) = node.contour from clipperPath_contour _]
  exact hline

end

/-- How far brim line `k` is away from its outline. -/
def brimReach (o : Options) (k : Nat) : Int := (k + 1) * o.printer.extrusionWidth

/-- **C130** The brim is around every outermost outline of the first layer. For each contour at the top of the tree which the library makes of the first pieces of all walls, and each number `k` of a brim
line: a closed path is printed which keeps `k + 1` line widths from everything inside of the contour, and is not farther away than one and a half times of it (up to 69 µm and the tolerance of the library);
and every way in the plane of the layer, from a point inside of the contour to a point far outside, comes within 8 µm of an extruding move on this path. -/
theorem C130_program (ext : Externals) (o : Options) (content t : Str) (h : gcodeOf ext o content = .ok t) (ho : Extrudes o) {tol : ℚ}
    (hb : |o.printer.extrusionWidth| + o.print.brimSkirt.brimCount * |o.printer.extrusionWidth| ≤ 2 ^ 53) (hc : o.print.brimSkirt.brimCount ≠ 0) :
    ∃ om sliced layers, optimize o ((ext.stl content).map stlTriangleToFace) = .ok om ∧ slice ext.lib o om = .ok sliced ∧
      (standardModifiers ext.lib ext.tan o).foldlM (fun ls m => m ls) sliced = .ok layers ∧
      ∀ l, layers[0]? = some l → ∃ body m moves walls, t = startText o ++ body ++ endText o ∧ run body = some (m, moves) ∧ l.perimeters = .ok walls ∧
        ∀ tree, walls ≠ [] → ext.lib.execute .union (firstPieces walls) [] = some tree → ∀ node ∈ tree, ∀ k : Nat, k < o.print.brimSkirt.brimCount →
          ∀ c, EnlargedTo ext.lib tol (asPath node.contour) (brimReach o k) c → 138 + tol < brimReach o k → Ordinary (asPath c) →
          ∃ path, KeepsFrom (asPath node.contour) (brimReach o k - tol - 69) (3 / 2 * brimReach o k + tol + 69) path ∧
            (∀ s ∈ sidesOf path, s.1 ≠ s.2 → ∀ z, OnSegment (exactPt s.1) (exactPt s.2) z → PrintedNear moves (layerHeight o 0) 8 z) ∧
            ∀ x y way, WayFrom x y way → InOrOn (asPath node.contour) x → BeyondHull (3 / 2 * brimReach o k + tol + 138) (asPath node.contour) y →
              ∃ z, OnWay way z ∧ OnPath false path z ∧ PrintedNear moves (layerHeight o 0) 8 z := by
  obtain ⟨om, sliced, layers, pt, g0, h1, h2, h3, h4, h5⟩ := gcodeOf_steps h
  refine ⟨om, sliced, layers, h1, h2, h3, fun l hl => ?_⟩
  obtain ⟨body, m, moves, b1, b2, b3⟩ := C111_printed ho (by rintro rfl; cases hl) h5
  obtain ⟨⟨walls, hw, -⟩, ⟨brim, hbrim, hprint⟩, -, -⟩ := b3 0 l hl
  refine ⟨body, m, moves, walls, b1, b2, hw, fun tree hne ht node hn k hk c hring hreach hord => ?_⟩
  obtain ⟨brim', g1, g2⟩ := brim_modified h3 hc hb hl hw hne ht hn
  rw [hbrim] at g1
  cases g1
  obtain ⟨⟨holes, hoff⟩, hin, hkeep⟩ := hring
  obtain ⟨line, hline, hout⟩ := polyTree_top c holes
  rw [show ((asPath node.contour).map fun q => (⟨q.x, q.y⟩ : IntPoint)) = node.contour from clipperPath_contour _] at hoff
  have hm := g2 k hk line (by
    rw [show (((k + 1) * o.printer.extrusionWidth : Int) : ℚ) = (brimReach o k : ℚ) from rfl, hoff]
    exact hline)
  have hp := hprint line hm
  rw [hout] at hp
  have hs := hord.small
  have key : ∀ s ∈ sidesOf (douglasPeuckerM (asPath c) (-1)), s.1 ≠ s.2 → ∀ z, OnSegment (exactPt s.1) (exactPt s.2) z → PrintedNear moves (layerHeight o 0) 8 z := by
    intro s s1 s2 z s3
    have ord := hord.near
    have hsub : ∀ q ∈ douglasPeuckerM (asPath c) (-1), q ∈ asPath c := fun q hq => (C05_int64_subsequence (asPath c) (-1)).subset hq
    have m1 := ord _ (hsub _ (List.of_mem_zip s1).1)
    have m2 := ord _ (hsub _ (by have := (List.of_mem_zip s1).2; exact List.mem_rotate.1 this))
    obtain ⟨i, before, line, p1, p2, p3, p4, p5, p6⟩ := hp s.1 s.2 (by rw [pathLines_sides]; exact s1) s2
      ((abs_sub _ _).trans (by linarith [m1.1, m2.1])) ((abs_sub _ _).trans (by linarith [m1.2, m2.2]))
    obtain ⟨w, hw1, hw2⟩ := near_passes p3 p6 m1.1 m1.2 m2.1 m2.2 s3
    exact ⟨i, before, line, p1, p2, p4, p5, p3.2.2, p6.2.2, w, hw1, hw2.mono (by norm_num)⟩
  refine ⟨douglasPeuckerM (asPath c) (-1), keeps_drawn hkeep hs, key, fun x y way hway hx hy => ?_⟩
  obtain ⟨z, hz, s, s1, s2, s3⟩ := ring_met hkeep (by linarith) hin hs hx hy hway
  exact ⟨z, hz, ⟨s.1, s.2, by rw [pathLines_sides]; exact s1, s3⟩, key s s1 s2 z s3⟩

end Verif
