import Verif.Props.Together
import Verif.Props.SquareLib
import Verif.Props.SidesExample
import Verif.Props.ShellExample

/-! # C137: a library which meets the assumptions, and an example -/
namespace Verif
open Verif.Go Verif.Model Verif.Spec Verif.Spec.GCode

/-- All assumptions about the library can be met together. -/
theorem square_good : GoodLibrary squareLib 2 where
  never := square_never
  lines := square_open
  area := square_stays
  sides := square_sides
  outside := square_nothing
  insets := square_insets
  covers := square_keeps

theorem parts_oneArea (ks : List (List IntPoint)) : (polyTreeToLayerParts (oneArea ks)).length ≤ 1 := by
  cases ks with
  | nil => simp [oneArea, polyTreeToLayerParts, polyRounds]
  | cons k ks =>
    have : nextRound (oneArea (k :: ks)) = [] := by simp [oneArea, nextRound, PolyNode.childs]
    unfold polyTreeToLayerParts
    rw [polyRounds]
    simp only [this]
    rw [polyRounds]
    simp [oneArea]

theorem square_inset (part : LayerPart) (offset : Int) (n : Nat) : ∀ c : ℚ, (squareLib.insetLoop part offset n c).flatten.length ≤ n := by
  induction n with
  | zero => simp [ClipperLib.insetLoop]
  | succ n ih =>
    intro c
    rw [ClipperLib.insetLoop, List.flatten_cons, List.length_append]
    have h1 := ih (r64 (c + r64 ((-offset : Int) : ℚ)))
    have h2 : (squareLib.inset1 part c).length ≤ 1 := parts_oneArea _
    omega

/-- The library makes at most one wall per inset. -/
theorem square_walls (o : Options) {parts : List LayerPart} (h : parts.length ≤ 1) : wallCount squareLib o parts ≤ o.print.insetCount.toNat := by
  unfold wallCount perimetersOf ClipperLib.insetLayer
  match parts, h with
  | [], _ => simp
  | [p], _ =>
    simp only [List.map_cons, List.map_nil, List.flatten_cons, List.flatten_nil, List.append_nil]
    exact square_inset p _ _ _

theorem square_sliced {o : Options} {om : OptModel} {sliced : List Layer} (h : slice squareLib o om = .ok sliced) : ∀ l ∈ sliced, l.parts.length ≤ 1 := by
  obtain ⟨segs, -, h⟩ := bind_ok.1 h
  have hf := mapM_ok.1 h
  intro l hl
  obtain ⟨i, hi, rfl⟩ := List.getElem_of_mem hl
  have hfin := (List.forall₂_iff_get.1 hf).2 i (by rw [hf.length_eq]; exact hi) hi
  simp only [List.get_eq_getElem] at hfin
  generalize segs[i]'(by rw [hf.length_eq]; exact hi) = s at hfin
  generalize sliced[i] = l at hfin ⊢
  cases s with
  | none => cases hfin
  | some layer =>
    obtain ⟨polys, -, hfin⟩ := bind_ok.1 hfin
    obtain ⟨parts, hparts, hfin⟩ := bind_ok.1 hfin
    cases parts with
    | none => cases hfin
    | some parts =>
      cases hfin
      obtain ⟨simple, -, hparts⟩ := bind_ok.1 hparts
      split at hparts
      · cases hparts; simp
      · have hparts := Except.ok.inj hparts
        have : parts = polyTreeToLayerParts (oneArea (pixelContours (clipSets .union (evenOdd enclosedBy (clipperPaths simple)) (evenOdd enclosedBy [])))) :=
          (Option.some.inj hparts).symm
        show parts.length ≤ 1
        rw [this]
        exact parts_oneArea _

/-- **C137** For one library everything is known: whatever the body (of usual size) is, the program prints it, with the tolerance 2 µm and as many walls as there are insets. -/
theorem C137_square (ext : Externals) (o : Options) (content : Str) (hlib : ext.lib = squareLib) (htrig : TurnsBack ext.trig) (ho : UsualOptions o) (hcount : o.print.insetCount ≤ 40000)
    (m : Mesh) (hm : m = (ext.stl content).map stlTriangleToFace) (hbody : IsBody o.slicing.meldDistance m) {lo hi : Vec3} (hbox : IsBox (vertices m) lo hi)
    (hsmall : SmallBody o.printer.center lo hi) (harea : ((modelArea o.printer.center lo hi).grow (supportMargin o)).Small) (hheight : o.print.initialLayerThickness ≤ hi.z - lo.z) :
    ∃ t top body mc moves, gcodeOf ext o content = .ok t ∧ layerHeight o top ≤ hi.z - lo.z ∧ hi.z - lo.z < layerHeight o (top + 1) ∧
      t = startText o ++ body ++ endText o ∧ run body = some (mc, moves) ∧ EndIn ((modelArea o.printer.center lo hi).grow (printMargin o)) moves ∧
      PrintsBody o (placedBody o.printer.center lo hi m) 2 o.print.insetCount.toNat top moves := by
  obtain ⟨t, om, sliced, top, h1, -, h3, -, h5, h6, body, mc, moves, h7, h8, h9, h10⟩ :=
    C137_program ext o content (tol := 2) (by norm_num) (by rw [hlib]; exact square_good) htrig ho m hm hbody hbox hsmall harea hheight
  refine ⟨t, top, body, mc, moves, h1, h5, h6, h7, h8, h9, h10 _ (fun l hl => ?_) ?_⟩
  · rw [hlib] at h3 ⊢
    exact square_walls o (square_sliced h3 l hl)
  · have : (o.print.insetCount.toNat : ℚ) ≤ 40000 := by exact_mod_cast (by omega : o.print.insetCount.toNat ≤ 40000)
    linarith

/-! ## The block -/

theorem block_connected : ConnectedMesh blockMesh := by
  have h : ∀ v ∈ vertices blockMesh, ∀ w ∈ vertices blockMesh, ∃ u ∈ vertices blockMesh, (∃ t ∈ blockMesh, v ∈ t.corners ∧ u ∈ t.corners) ∧ ∃ t ∈ blockMesh, u ∈ t.corners ∧ w ∈ t.corners := by
    decide +kernel
  intro v hv w hw
  obtain ⟨u, -, h1, h2⟩ := h v hv w hw
  exact .tail (.single h1) h2

theorem block_body : IsBody blockOptions.slicing.meldDistance blockMesh where
  nonempty := by decide
  proper := by decide +kernel
  different := by decide +kernel
  separated := by unfold Separated; decide +kernel
  noGap := C91_no_gap _ block_connected
  closed := by decide +kernel

theorem block_box : IsBox (vertices blockMesh) ⟨0, 0, 0⟩ ⟨10000, 10000, 1100⟩ := by
  constructor <;> decide +kernel

theorem block_placed : placedBody blockOptions.printer.center ⟨0, 0, 0⟩ ⟨10000, 10000, 1100⟩ blockMesh = blockFaces := by decide +kernel

theorem block_usual : UsualOptions blockOptions where
  sensible := block_sensible
  moderate := block_moderate
  extrudes := ⟨by decide, by decide, by decide, by decide, by decide⟩
  meld := by decide
  finish := by decide
  insets := by decide
  rotation := by decide
  overlap := by decide
  overlap2 := by decide

theorem block_good : ∀ i < 5, GoodPlane blockOptions blockFaces 9 i := by
  intro i hi
  refine ⟨⟨block_tip i hi, ?_⟩, ?_⟩
  · revert i
    unfold SpreadOut Up Down NearPt
    decide +kernel
  · revert i
    decide +kernel

/-- The block with the library of squares. -/
noncomputable def squareExt : Externals := { blockExt with lib := squareLib }

/-- Non-vacuity of `C137_program` and `C137_square`: the middle of the block is filled, and the way out of it crosses both walls. -/
example : ∃ t body mc moves, gcodeOf squareExt blockOptions [] = .ok t ∧ t = startText blockOptions ++ body ++ endText blockOptions ∧ run body = some (mc, moves) ∧
    PrintedNear moves 200 (400 / 2 + 9) (100000, 100000) ∧ PrintedNear moves 400 (2000 / 2 + 9) (100000, 100000) ∧
    ∀ j : Nat, j < 2 → ∃ z, OnWay [(100000, 100000), (80000, 100000)] z ∧ PrintedNear moves 400 8 z := by
  obtain ⟨t, top, body, mc, moves, h1, h2, h3, h4, h5, -, h6⟩ := C137_square squareExt blockOptions [] rfl turns_never block_usual (by decide) blockMesh block_stl.symm block_body block_box
    ⟨by decide, by decide, by decide, by decide, by decide⟩ (by unfold Rect.Small; decide +kernel) (by decide)
  obtain rfl : top = 4 := by
    simp only [layerHeight] at h2 h3
    norm_num [blockOptions] at h2 h3
    omega
  rw [block_placed] at h6
  have hfar : ∀ i ≤ 4, ∀ d : ℚ, 0 ≤ d → d ≤ 4900 → FarFromSurface d blockFaces (layerHeight blockOptions i) (100000, 100000) :=
    fun i hi d h0 h1 => farFromSurface_mono (block_far i (by omega)) h0 h1
  have hen : ∀ i ≤ 4, FarEnough blockOptions blockFaces i (100000, 100000) := fun i hi => hfar i hi _ (by decide +kernel) (by decide +kernel)
  have hin : ∀ i ≤ 4, HasInside blockOptions blockFaces 2 9 i :=
    fun i hi => ⟨block_good i (by omega), _, block_inside i (by omega), hfar i hi _ (by norm_num) (by norm_num), hen i hi⟩
  have e0 : (infillSpacing blockOptions : ℚ) = 2000 := by decide +kernel
  have hdepth : ∀ D : ℚ, D ≤ 1205 → 0 ≤ D → 0 ≤ fillDepth blockOptions 2 9 2 D ∧ fillDepth blockOptions 2 9 2 D ≤ 4900 := by
    intro D h1 h0
    have e : fillDepth blockOptions 2 9 2 D = D + (fillDepth blockOptions 2 9 2 0) := by unfold fillDepth; ring
    have e' : fillDepth blockOptions 2 9 2 0 = 3675 := by decide +kernel
    rw [e, e']
    constructor <;> linarith
  refine ⟨t, body, mc, moves, h1, h4, h5, ?_, ?_, ?_⟩
  · obtain ⟨d1, d2⟩ := hdepth (blockOptions.printer.extrusionWidth / 2 + 5) (by decide +kernel) (by decide +kernel)
    exact h6.solid 0 (by norm_num) 9 (fun i hi => hin i (by omega)) (fun i hi => block_good i (by have := hi.2.2; omega)) _ (block_inside 0 (by norm_num)) (fun i hi => hen i hi.2.2)
      (.inl (by decide)) fun i hi => hfar i hi.2.2 _ d1 d2
  · obtain ⟨d1, d2⟩ := hdepth (infillSpacing blockOptions / 2 + (if blockOptions.print.infillZigZag then (blockOptions.printer.extrusionWidth : ℚ) / 2 else 0) + 5)
      (by decide +kernel) (by decide +kernel)
    have := h6.infill (by decide) 1 (by norm_num) 9 (fun i hi => hin i (by omega)) (fun i hi => block_good i (by have := hi.2.2; omega)) _ (block_inside 1 (by norm_num)) (fun i hi => hen i hi.2.2)
      (by
        rintro (h | h | ⟨i, -, -, h, hno⟩)
        · exact absurd h (by decide)
        · exact absurd h (by decide)
        · exact hno (block_inside i h)) fun i hi => hfar i hi.2.2 _ d1 d2
    rw [e0] at this
    exact this
  · intro j hj
    have hdj : ∀ j < 2, 0 ≤ wallReach blockOptions 2 9 j ∧ wallReach blockOptions 2 9 j ≤ 4900 := by decide +kernel
    have both : ∀ q ∈ [((100000, 100000) : ℚ × ℚ), (80000, 100000)], ∀ d : ℚ, 0 ≤ d → d ≤ 4900 → FarFromSurface d blockFaces (layerHeight blockOptions 1) q := by
      intro q hq d h0 h1
      rcases List.mem_cons.1 hq with rfl | hq
      · exact hfar 1 (by norm_num) d h0 h1
      · rw [List.mem_singleton.1 hq]
        exact farFromSurface_mono shell_far h0 h1
    obtain ⟨z, z1, z2, -⟩ := h6.walls 1 (by norm_num) 9 (block_good 1 (by norm_num)) (100000, 100000) (80000, 100000) [(100000, 100000), (80000, 100000)] ⟨rfl, rfl⟩ (block_inside 1 (by norm_num))
      (by decide +kernel) (fun q hq => both q hq _ (by decide +kernel) (by decide +kernel)) j (show (j : Int) < 2 by omega) (fun q hq => both q hq _ (hdj j hj).1 (hdj j hj).2)
    exact ⟨z, z1, z2⟩

end Verif
