import Verif.Props.SkirtExample
import Verif.Props.BrimRing

/-! # C130: examples, and where the brim is wrong -/
namespace Verif
open Verif.Go Verif.Model Verif.Spec Verif.Spec.GCode

/-- Inside of a rectangle or on its sides. -/
theorem inOrOn_rect {r : Int × Int × Int × Int} (hr : Proper4 r) {x : ℚ × ℚ} (h : InOrOn (asPath (contour4 r)) x) :
    ((r.1 : ℚ) ≤ x.1 ∧ x.1 ≤ r.2.2.1) ∧ (r.2.1 : ℚ) ≤ x.2 ∧ x.2 ≤ r.2.2.2 := by
  rcases h with h | h
  · obtain ⟨h1, h2, h3, h4⟩ := (rect_encloses hr x).1 h
    exact ⟨⟨h1, h2.le⟩, h3, h4.le⟩
  · exact (onPath_rect hr h).1

/-- A library which enlarges rectangles. -/
theorem rect_enlarged {lib : ClipperLib} (hlib : lib.offset = rectOffset) {r : Int × Int × Int × Int} (hr : Proper4 r) {d : Int} (hd : 0 < d) :
    EnlargedTo lib 2 (asPath (contour4 r)) d (contour4 (growRect r d)) := by
  have hg : Proper4 (growRect r d) := by
    unfold Proper4 growRect at *
    dsimp only at *
    omega
  have hd' : (0 : ℚ) < d := by exact_mod_cast hd
  have hr1 : (r.1 : ℚ) + 1 ≤ r.2.2.1 := by exact_mod_cast hr.1
  have hr2 : (r.2.1 : ℚ) + 1 ≤ r.2.2.2 := by exact_mod_cast hr.2
  refine ⟨⟨[], ?_⟩, fun x hx => ?_, fun x hx => ?_⟩
  · rw [hlib, show ((asPath (contour4 r)).map fun q => (⟨q.x, q.y⟩ : IntPoint)) = contour4 r from clipperPath_contour _]
    have := rect_offset hr (d : ℚ)
    rw [show rectLib.offset = rectOffset from rfl, Int.floor_intCast, if_pos hg] at this
    exact this
  · refine (rect_encloses hg x).2 ?_
    obtain ⟨⟨h1, h2⟩, h3, h4⟩ := inOrOn_rect hr hx
    simp only [inRect, growRect]
    push_cast
    refine ⟨?_, ?_, ?_, ?_⟩ <;> linarith
  · obtain ⟨⟨⟨a1, a2⟩, a3, a4⟩, hs⟩ := onPath_rect hg hx
    simp only [growRect] at a1 a2 a3 a4 hs
    push_cast at a1 a2 a3 a4 hs
    constructor
    · intro y hy
      obtain ⟨⟨h1, h2⟩, h3, h4⟩ := inOrOn_rect hr hy
      by_cases hd1 : (d : ℚ) ≤ 2
      · exact .inl (by linarith)
      · rw [not_le] at hd1
        refine .inr ?_
        have key : ∀ a b : ℚ, (d : ℚ) ≤ |a| ∨ (d : ℚ) ≤ |b| → ((d : ℚ) - 2) ^ 2 ≤ a ^ 2 + b ^ 2 := by
          intro a b h
          rw [← sq_abs a, ← sq_abs b]
          rcases h with h | h <;> nlinarith [abs_nonneg a, abs_nonneg b]
        refine key _ _ ?_
        rcases hs with h | h | h | h
        · exact .inl (le_abs.2 (.inr (by linarith)))
        · exact .inl (le_abs.2 (.inl (by linarith)))
        · exact .inr (le_abs.2 (.inr (by linarith)))
        · exact .inr (le_abs.2 (.inl (by linarith)))
    · refine ⟨(max r.1 (min x.1 (r.2.2.1 - 1)), max r.2.1 (min x.2 (r.2.2.2 - 1))), .inl ((rect_encloses hr _).2 ⟨le_max_left _ _, ?_, le_max_left _ _, ?_⟩), by positivity, ?_⟩
      · exact max_lt (by linarith) ((min_le_right _ _).trans_lt (by linarith))
      · exact max_lt (by linarith) ((min_le_right _ _).trans_lt (by linarith))
      · have key : ∀ a lo hi : ℚ, lo + 1 ≤ hi → lo - d ≤ a → a ≤ hi + d → (a - max lo (min a (hi - 1))) ^ 2 ≤ ((d : ℚ) + 1) ^ 2 := by
          intro a lo hi h h1 h2
          have h5 : lo ≤ hi - 1 := by linarith
          refine sq_le_sq' ?_ ?_ <;> rcases le_total a (hi - 1) with h3 | h3 <;> rcases le_total a lo with h4 | h4 <;> simp [h3, h4, h5] <;> linarith
        have k1 := key x.1 _ _ hr1 a1 a2
        have k2 := key x.2 _ _ hr2 a3 a4
        nlinarith

/-- The block with one wall and a brim of two lines. -/
def brimOptions : Options := { print := { numberBottomLayers := 1, numberTopLayers := 1, insetCount := 1, brimSkirt := { brimCount := 2 } } }

theorem brim_opt : optimize brimOptions ((shellExt.stl []).map stlTriangleToFace) = .ok blockOpt := by
  rw [show shellExt.stl = blockExt.stl from rfl, block_stl]
  decide +kernel

theorem brim_sensible : Sensible brimOptions where
  meld := by decide
  center := by decide
  thickness := by decide
  initial := by decide
  insets := by decide
  support := by decide
  width := by decide
  spacing := by decide +kernel
  percent := by decide

/-- The walls of the first layer. -/
def brimWalls : OffsetResult := [[[⟨asPath (contour4 (95200, 95200, 104800, 104800)), []⟩]]]

theorem brim_layers : ((slice rectLib brimOptions blockOpt >>= fun ls => (standardModifiers rectLib 1 brimOptions).foldlM (fun ls m => m ls) ls).map fun ls =>
    (ls.all wellTyped, ls.length, (ls.head?.map fun l => decide (l.perimeters = .ok brimWalls)).getD false)) = .ok (true, 5, true) := by decide +kernel

theorem brim_union : rectLib.execute .union (firstPieces brimWalls) [] = some [.node (contour4 (95200, 95200, 104800, 104800)) []] := by
  show rectExecute .union [contour4 (95200, 95200, 104800, 104800)] [] = _
  simp [rectExecute, asRect_rect (show Proper4 (95200, 95200, 104800, 104800) by decide), rectLeaf]

/-- Non-vacuity of `C130_program`: the straight way from the middle of the block to the outside meets both lines of the brim. -/
example : ∃ t body m moves, gcodeOf shellExt brimOptions [] = .ok t ∧ t = startText brimOptions ++ body ++ endText brimOptions ∧ run body = some (m, moves) ∧
    ∀ k : Nat, k < 2 → ∃ z, OnWay [(100000, 100000), (80000, 100000)] z ∧ PrintedNear moves 200 8 z ∧ Apart (329 + 400 * k) z (95200, 100000) := by
  have hm := brim_layers
  cases h2 : slice rectLib brimOptions blockOpt with
  | error e => rw [h2] at hm; cases hm
  | ok sliced =>
  rw [h2] at hm
  simp only [bind, Except.bind] at hm
  cases h3 : (standardModifiers rectLib 1 brimOptions).foldlM (fun ls m => m ls) sliced with
  | error e => rw [h3] at hm; cases hm
  | ok layers =>
  rw [h3] at hm
  have hm := Except.ok.inj hm
  obtain ⟨m1, m2, m3⟩ : layers.all wellTyped = true ∧ layers.length = 5 ∧ (layers.head?.map fun l => decide (l.perimeters = .ok brimWalls)).getD false = true := by
    simpa only [Prod.mk.injEq] using hm
  have hty := typed_modified h3 (sliced_plain h2) m1
  obtain ⟨lo, hlo⟩ : ∃ lo, blockOpt.min = .ok lo := by unfold OptModel.min; rw [block_faces]; exact ⟨_, rfl⟩
  obtain ⟨hi, hhi⟩ : ∃ hi, blockOpt.max = .ok hi := by unfold OptModel.max; rw [block_faces]; exact ⟨_, rfl⟩
  have hstl : shellExt.stl = blockExt.stl := rfl
  obtain ⟨t, ht⟩ := gcode_of_modified (ext := shellExt) brim_sensible ⟨piece_open.ok, piece_open.lines⟩ (by rw [hstl, block_stl]; decide) brim_opt h2 h3 hty hlo hhi
  obtain ⟨om, sliced', layers', k1, k2, k3, key⟩ := C130_program shellExt brimOptions [] t ht ⟨by decide, by decide, by decide, by decide, by decide⟩ (tol := 2) (by decide +kernel) (by decide)
  rw [brim_opt] at k1
  cases k1
  have k2 : slice rectLib brimOptions blockOpt = .ok sliced' := k2
  rw [h2] at k2
  cases k2
  have k3 : (standardModifiers rectLib 1 brimOptions).foldlM (fun ls m => m ls) sliced = .ok layers' := k3
  rw [h3] at k3
  cases k3
  obtain ⟨l, hl⟩ : ∃ l, layers[0]? = some l := ⟨_, List.getElem?_eq_getElem (by omega)⟩
  rw [List.head?_eq_getElem?, hl] at m3
  have w1 : l.perimeters = .ok brimWalls := by simpa using m3
  obtain ⟨body, m, moves, walls, b1, b2, b3, b4⟩ := key l hl
  rw [w1] at b3
  cases b3
  have e0 : layerHeight brimOptions 0 = 200 := by decide
  refine ⟨t, body, m, moves, ht, b1, b2, fun k hk => ?_⟩
  have er : brimReach brimOptions k = 400 + 400 * k := by
    have : brimReach brimOptions k = (k + 1) * 400 := rfl
    omega
  have er' : (brimReach brimOptions k : ℚ) = 400 + 400 * k := by rw [er]; push_cast; rfl
  have hk0 : (0 : ℚ) ≤ k := by positivity
  have hk1 : (k : ℚ) ≤ 1 := by exact_mod_cast (by omega : k ≤ 1)
  have hord : Ordinary (asPath (contour4 (growRect (95200, 95200, 104800, 104800) (400 + 400 * k)))) := by
    obtain rfl | rfl : k = 0 ∨ k = 1 := by omega
    · exact ⟨by unfold SmallPath; decide +kernel, by decide +kernel⟩
    · exact ⟨by unfold SmallPath; decide +kernel, by decide +kernel⟩
  obtain ⟨path, p1, p2, p3⟩ := b4 [.node (contour4 (95200, 95200, 104800, 104800)) []] (by decide) brim_union (.node (contour4 (95200, 95200, 104800, 104800)) []) (by simp) k (by
      have : brimOptions.print.brimSkirt.brimCount = 2 := rfl
      omega) (contour4 (growRect (95200, 95200, 104800, 104800) (400 + 400 * k))) (by
        rw [er]
        exact rect_enlarged rfl (by decide) (by omega)) (by rw [er']; linarith) hord
  obtain ⟨z, z1, z2, z3⟩ := p3 (100000, 100000) (80000, 100000) [(100000, 100000), (80000, 100000)] ⟨rfl, rfl⟩ (.inl ((rect_encloses (r := (95200, 95200, 104800, 104800)) (by decide) _).2
    (by norm_num [inRect]))) ⟨-1, 0, -95200, by decide +kernel, by norm_num, by rw [er']; nlinarith⟩
  rw [e0] at z3
  refine ⟨z, z1, z3, ?_⟩
  have := (p1 z z2).1 (95200, 100000) (.inl ((rect_encloses (r := (95200, 95200, 104800, 104800)) (by decide) _).2 (by norm_num [inRect])))
  rw [er'] at this
  rw [show (329 : ℚ) + 400 * k = 400 + 400 * k - 2 - 69 by ring]
  exact this

/-- The library for rectangles, which also puts two rectangles side by side together. -/
noncomputable def besideLib : ClipperLib :=
  { rectLib with execute := fun t s c =>
      match t, s.mapM asRect, c with
      | .union, some [a, b], [] => if Beside4 a b then some [.node (contour4 a) [], .node (contour4 b) []] else none
      | _, _, _ => rectExecute t s c }

/-- Two objects, 0.6 mm apart. -/
def twoObjects : List LayerPart := [⟨asPath (contour4 (0, 0, 10000, 10000)), []⟩, ⟨asPath (contour4 (10600, 0, 20000, 10000)), []⟩]

/-- One wall and a brim of five lines. -/
def wideBrim : Options := { print := { insetCount := 1, brimSkirt := { brimCount := 5 } } }

/-- The last line of the brim of the first object. -/
def brimLine4 : LayerPart := ⟨asPath (contour4 (-1800, -1800, 11800, 11800)), []⟩

theorem wideBrim_layers : ((perimeterModifier besideLib wideBrim [{ parts := twoObjects }]) >>= brimModifier besideLib wideBrim).map
    (fun ls => (ls.length, ls.head?.map fun l => l.brim.toOption.map fun brim => decide (brimLine4 ∈ brim.flatten.flatten))) = .ok (1, some (some true)) := by decide +kernel

/-- **C130** (violation) Every outline gets its brim without regard to the others: for two objects less than the width of the brim apart, a line of the brim of one is drawn through the other one. Here a
point of it is inside of the second object, more than 1 mm away from its border, although the library enlarges the outlines as it should. -/
theorem C130_through : ∃ (lib : ClipperLib) (o : Options) (a b : LayerPart) (layers : List Layer) (layer : Layer) (brim : OffsetResult),
    Extrudes o ∧ (∀ r d, Proper4 r → 0 < d → EnlargedTo lib 2 (asPath (contour4 r)) (d : Int) (contour4 (growRect r d))) ∧
    (perimeterModifier lib o [{ parts := [a, b] }] >>= brimModifier lib o) = .ok layers ∧ layers[0]? = some layer ∧ layer.brim = .ok brim ∧
    ∃ line ∈ brim.flatten.flatten, ∃ z, OnPath false line.outline z ∧ Encloses b.outline z ∧ FarFromPath 1000 b.outline z := by
  have hm := wideBrim_layers
  cases h1 : (perimeterModifier besideLib wideBrim [{ parts := twoObjects }]) >>= brimModifier besideLib wideBrim with
  | error e => rw [h1] at hm; cases hm
  | ok layers =>
  rw [h1] at hm
  have hm := Except.ok.inj hm
  simp only [Prod.mk.injEq] at hm
  obtain ⟨m1, m2⟩ := hm
  obtain ⟨l, rfl⟩ := List.length_eq_one_iff.1 m1
  cases h2 : l.brim with
  | error e => simp [h2, Except.toOption] at m2
  | ok brim =>
  have m3 : brimLine4 ∈ brim.flatten.flatten := by simpa [h2, Except.toOption] using m2
  refine ⟨besideLib, wideBrim, _, _, [l], l, brim, ⟨by decide, by decide, by decide, by decide, by decide⟩, fun r d hr hd => rect_enlarged rfl hr hd, h1, rfl, h2, brimLine4, m3, (11800, 5000), ?_, ?_, ?_⟩
  · refine ⟨⟨11800, -1800⟩, ⟨11800, 11800⟩, by decide, 1 / 2, by norm_num, by norm_num, ?_⟩
    norm_num [lineAt, exactPt]
  · exact (rect_encloses (r := (10600, 0, 20000, 10000)) (by decide) _).2 (by norm_num [inRect])
  · intro s hs t h0 h1
    have hs : s ∈ sidesOf (asPath (contour4 (10600, 0, 20000, 10000))) := hs
    rw [show sidesOf (asPath (contour4 (10600, 0, 20000, 10000))) = [(⟨20000, 0⟩, ⟨20000, 10000⟩), (⟨20000, 10000⟩, ⟨10600, 10000⟩), (⟨10600, 10000⟩, ⟨10600, 0⟩), (⟨10600, 0⟩, ⟨20000, 0⟩)] by decide] at hs
    simp only [List.mem_cons, List.not_mem_nil, or_false] at hs
    rcases hs with rfl | rfl | rfl | rfl <;> simp only [exactPt] <;> push_cast <;> nlinarith [sq_nonneg (t - 1 / 2), sq_nonneg (10600 + t * 9400 - 11800), sq_nonneg (20000 - t * 9400 - 11800)]

end Verif
