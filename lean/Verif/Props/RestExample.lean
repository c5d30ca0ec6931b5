import Verif.Props.TornWhole
import Verif.Props.TornExample
import Verif.Props.PlateExample
import Verif.Props.CommandExample

/-! # Examples for C149: a box without two of its walls, beside a block and below an overhang -/
namespace Verif
open Verif.Go Verif.Model Verif.Spec Verif.Spec.GCode

theorem not_near_surface {d : ℚ} {fs : List (Tri Vec3)} {z : Int} {q y : ℚ × ℚ} (h : FarFromSurface d fs z q) (hy : OnSurface fs z y) : ¬ NearPt d q y := by
  obtain ⟨f, hf, s, hs, s', hs', hd, hu, t, h0, h1, e⟩ := hy
  intro hn
  have h2 := h f hf s hs s' hs' hd hu t h0 h1
  rw [e] at hn
  unfold NearPt lineAt at hn
  nlinarith

/-- If the face with the start of each wide gap is known, the other faces which are lost are found one step before. -/
theorem torn_of_step {W : ℚ} {z : Int} {gaps : List Gap} {fs : List (Tri Vec3)} (hw : ∀ g ∈ gaps, g.Wider W z) {f : Tri Vec3}
    (h : (∃ g ∈ gaps, g.1 ∈ faceSides f) ∨ ∃ f' ∈ fs, (∃ g ∈ gaps, g.1 ∈ faceSides f') ∧ ∃ s ∈ faceSides f, Up z s ∧ s.swap ∈ faceSides f') : Torn W z gaps fs f := by
  rcases h with ⟨g, hg, hgs⟩ | ⟨f', hf', ⟨g, hg, hgs⟩, s, hs, hu, hs'⟩
  · exact .wide hg (hw g hg) hgs
  · exact .next hs hu hf' hs' (.wide hg (hw g hg) hgs)

/-! ## Beside a block -/

/-- The block of the other examples, and a lower box beside it which has lost two walls. -/
def openLow : Mesh := lowMesh.take 4 ++ (lowMesh.drop 6).take 2 ++ lowMesh.drop 10
def lowWalls : Mesh := (lowMesh.drop 4).take 2 ++ (lowMesh.drop 8).take 2
def restMesh : Mesh := blockMesh ++ openLow

theorem openLow_connected : ConnectedMesh openLow := by
  have h : ∀ v ∈ vertices openLow, ∀ w ∈ vertices openLow, ∃ u ∈ vertices openLow, (∃ t ∈ openLow, v ∈ t.corners ∧ u ∈ t.corners) ∧ ∃ u' ∈ vertices openLow,
      (∃ t ∈ openLow, u ∈ t.corners ∧ u' ∈ t.corners) ∧ ∃ t ∈ openLow, u' ∈ t.corners ∧ w ∈ t.corners := by
    decide +kernel
  intro v hv w hw
  obtain ⟨u, -, h1, u', -, h2, h3⟩ := h v hv w hw
  exact .tail (.tail (.single h1) h2) h3

/-- No skirt. -/
def restOptions : Options := { blockOptions with print := { blockOptions.print with brimSkirt := { blockOptions.print.brimSkirt with skirtCount := 0 } } }

theorem rest_usual : UsualOptions restOptions where
  sensible := by
    obtain ⟨h1, h2, h3, h4, h5, h6, h7, h8, h9⟩ := block_sensible
    exact ⟨h1, h2, h3, h4, h5, h6, h7, h8, h9⟩
  moderate := by
    obtain ⟨h1, h2, h3, -, h5, h6⟩ := block_moderate
    exact ⟨h1, h2, h3, by decide, h5, h6⟩
  extrudes := ⟨by decide, by decide, by decide, by decide, by decide⟩
  meld := by decide
  finish := by decide
  insets := by decide
  rotation := by decide
  overlap := by decide
  overlap2 := by decide

theorem rest_sheet : IsSheet restOptions.slicing.meldDistance restMesh where
  nonempty := by decide
  proper := by decide +kernel
  different := by decide +kernel
  separated := by unfold Separated; decide +kernel
  noGap := C91_several _ _ (C91_no_gap _ block_connected) (C91_no_gap _ openLow_connected) 0 (by decide +kernel) (by decide +kernel) (by decide +kernel) (by decide +kernel)

theorem rest_box : IsBox (vertices restMesh) ⟨0, 0, 0⟩ ⟨30000, 10000, 1100⟩ := by
  constructor <;> decide +kernel

/-- The file on the bed. -/
def restBed (m : Mesh) : Mesh := m.map (Tri.map fun v => ⟨v.x + 85000, v.y + 95000, v.z⟩)

theorem rest_placed : placedBody restOptions.printer.center ⟨0, 0, 0⟩ ⟨30000, 10000, 1100⟩ restMesh = restBed restMesh ∧
    placedBody restOptions.printer.center ⟨0, 0, 0⟩ ⟨30000, 10000, 1100⟩ blockMesh = restBed blockMesh := by
  constructor <;> decide +kernel

/-- The ways over the missing walls, in the layers below the top of the box. -/
def lowGaps (i : Nat) : List Gap :=
  if i < 3 then [((⟨115000, 105000, 0⟩, ⟨115000, 105000, 700⟩), (⟨105000, 105000, 700⟩, ⟨105000, 105000, 0⟩)),
    ((⟨105000, 95000, 0⟩, ⟨105000, 95000, 700⟩), (⟨115000, 95000, 700⟩, ⟨115000, 95000, 0⟩))] else []

theorem rest_wide : ∀ i < 5, ∀ g ∈ lowGaps i, g.Wider (restOptions.slicing.joinPolygonSnapDistance + 4) (layerHeight restOptions i) := by
  unfold Gap.Wider NearPt
  decide +kernel

set_option synthInstance.maxHeartbeats 400000 in
set_option synthInstance.maxSize 4000 in
theorem rest_good : ∀ i < 5, GoodRest restOptions (restBed blockMesh) (restBed restMesh) 24 i := by
  intro i hi
  refine ⟨lowGaps i, ⟨⟨openSurface_part (gs := restBed lowWalls) (by decide +kernel), ?_, ?_, ?_, ?_, ?_, ?_⟩, ?_, ?_⟩, ?_, ?_, ?_⟩
  · revert i
    decide +kernel
  · revert i
    unfold Up Down Loose
    decide +kernel
  · revert i
    unfold Up Loose
    decide +kernel
  · revert i
    decide +kernel
  · revert i
    unfold SpreadOut Up Down NearPt
    decide +kernel
  · revert i
    unfold Up Down NearPt
    decide +kernel
  · exact fun g hg => .inl (rest_wide i hi g hg)
  · intro g hg g' hg' hw hw'
    clear hw hw'
    revert g g' i
    unfold NearPt
    decide +kernel
  · intro f hf hc hb
    refine torn_of_step (rest_wide i hi) ?_
    revert f i
    unfold Up
    decide +kernel
  · revert i
    decide +kernel
  · revert i
    decide +kernel

set_option synthInstance.maxHeartbeats 400000 in
set_option synthInstance.maxSize 4000 in
theorem rest_far : ∀ i < 5, ∀ x ∈ [(90000 : ℚ), 110000], FarFromSurface 4900 (restBed blockMesh) (layerHeight restOptions i) (x, 100000) := by
  have h : ∀ i < 5, ∀ x ∈ [(90000 : ℚ), 110000], ∀ f ∈ restBed blockMesh, ∀ s ∈ faceSides f, ∀ s' ∈ faceSides f, Down (layerHeight restOptions i) s → Up (layerHeight restOptions i) s' →
      ((x + 4900 < (meetPoint (layerHeight restOptions i) s).1 ∧ x + 4900 < (meetPoint (layerHeight restOptions i) s').1) ∨
       ((meetPoint (layerHeight restOptions i) s).1 < x - 4900 ∧ (meetPoint (layerHeight restOptions i) s').1 < x - 4900) ∨
       ((100000 : ℚ) + 4900 < (meetPoint (layerHeight restOptions i) s).2 ∧ (100000 : ℚ) + 4900 < (meetPoint (layerHeight restOptions i) s').2) ∨
       ((meetPoint (layerHeight restOptions i) s).2 < (100000 : ℚ) - 4900 ∧ (meetPoint (layerHeight restOptions i) s').2 < (100000 : ℚ) - 4900)) := by
    unfold Down Up
    decide +kernel
  exact fun i hi x hx f hf s hs s' hs' h1 h2 => farFrom_side (by norm_num) (h i hi x hx f hf s hs s' hs' h1 h2)

theorem rest_inside : (∀ i < 5, InsideSolid (restBed blockMesh) (layerHeight restOptions i) (90000, 100000)) ∧ ∀ i < 5, ¬ InsideSolid (restBed blockMesh) (layerHeight restOptions i) (110000, 100000) := by
  constructor <;> decide +kernel

noncomputable def restExt : Externals where
  lib := squareLib
  stl := fun _ => restMesh.map (Tri.map fun v => ((v.x : ℚ) / 1000, (v.y : ℚ) / 1000, (v.z : ℚ) / 1000))
  trig := blockExt.trig
  tan := 1

theorem rest_stl : (restExt.stl []).map stlTriangleToFace = restMesh := by decide +kernel

/-- Non-vacuity of `C149_program`: the bottom of the block is printed without gaps, and no line is printed through the middle of the box which has lost its walls. -/
example : ∃ t body mc moves, gcodeOf restExt restOptions [] = .ok t ∧ t = startText restOptions ++ body ++ endText restOptions ∧ run body = some (mc, moves) ∧
    PrintedNear moves 200 (400 / 2 + 9) (90000, 100000) ∧
    ∀ (j : Nat) before line, moves[j]? = some before → moves[j + 1]? = some line → line.hasE = true → (before.after.x ≠ line.after.x ∨ before.after.y ≠ line.after.y) →
      ¬ Passes before.after line.after (110000, 100000) := by
  obtain ⟨t, om, sliced, top, h1, -, h3, -, h5, h6, body, mc, moves, h7, h8, -, h10⟩ := C149_program restExt restOptions [] (tol := 2) (by norm_num) square_good turns_never rest_usual (by decide) (by decide)
    restMesh rest_stl.symm rest_sheet blockMesh block_body.closed (fun f hf => List.mem_append_left _ hf) rest_box ⟨by decide, by decide, by decide, by decide, by decide⟩
    (by unfold Rect.Small; decide +kernel) (by decide)
  have h := h10 2 (fun l hl => square_walls restOptions (square_sliced h3 l hl)) (by norm_num)
  obtain rfl : top = 4 := by
    simp only [layerHeight] at h5 h6
    norm_num [restOptions, blockOptions] at h5 h6
    omega
  rw [rest_placed.1, rest_placed.2] at h
  have hfar : ∀ x ∈ [(90000 : ℚ), 110000], ∀ i ≤ 4, ∀ d : ℚ, 0 ≤ d → d ≤ 4900 → FarFromSurface d (restBed blockMesh) (layerHeight restOptions i) (x, 100000) :=
    fun x hx i hi d h0 h1 => farFromSurface_mono (rest_far i (by omega) x hx) h0 h1
  have hen : ∀ i ≤ 4, FarEnough restOptions (restBed blockMesh) i (90000, 100000) := fun i hi => hfar _ (by decide +kernel) i hi _ (by decide +kernel) (by decide +kernel)
  have hd : 0 ≤ fillDepth restOptions 2 24 2 (restOptions.printer.extrusionWidth / 2 + 5) ∧ fillDepth restOptions 2 24 2 (restOptions.printer.extrusionWidth / 2 + 5) ≤ 4900 := by
    decide +kernel
  refine ⟨t, body, mc, moves, h1, h7, h8, ?_, ?_⟩
  · exact h.solid 0 (by norm_num) 24 (fun i hi => ⟨rest_good i (by omega), _, rest_inside.1 i (by omega), hfar _ (by decide +kernel) i (by omega) _ (by norm_num) (by norm_num), hen i (by omega)⟩)
      (fun i hi => rest_good i (by have := hi.2.2; omega)) _ (rest_inside.1 0 (by norm_num)) (fun i hi => hen i hi.2.2) (.inl (by decide)) fun i hi => hfar _ (by decide +kernel) i hi.2.2 _ hd.1 hd.2
  · intro j before line hb hl he hmv hp
    obtain ⟨n, hn, -, -, hnear⟩ := h.near rfl rfl rfl j before line hb hl he hmv
    rcases hnear 24 (rest_good n (by omega)) _ hp with hin | ⟨y, hy, hxy⟩
    · exact rest_inside.2 n (by omega) hin
    · exact not_near_surface (hfar 110000 (by decide +kernel) n hn _ (by decide +kernel) (by decide +kernel)) hy hxy

/-! ## Below an overhang -/

/-- A box below the overhang which has lost two walls. -/
def underBox (x y z : Int) : Mesh :=
  let v (a b c : Int) : Vec3 := ⟨x + 15000 * a, y + 18000 * b, z + 850 * c⟩
  [⟨v 1 0 0, v 1 1 0, v 1 1 1⟩, ⟨v 1 0 0, v 1 1 1, v 1 0 1⟩, ⟨v 0 1 0, v 0 0 0, v 0 0 1⟩, ⟨v 0 1 0, v 0 0 1, v 0 1 1⟩,
   ⟨v 0 0 0, v 1 1 0, v 1 0 0⟩, ⟨v 0 0 0, v 0 1 0, v 1 1 0⟩, ⟨v 0 0 1, v 1 0 1, v 1 1 1⟩, ⟨v 0 0 1, v 1 1 1, v 0 1 1⟩]

def underWalls (x y z : Int) : Mesh :=
  let v (a b c : Int) : Vec3 := ⟨x + 15000 * a, y + 18000 * b, z + 850 * c⟩
  [⟨v 0 0 0, v 1 0 0, v 1 0 1⟩, ⟨v 0 0 0, v 1 0 1, v 0 0 1⟩, ⟨v 1 1 0, v 0 1 0, v 0 1 1⟩, ⟨v 1 1 0, v 0 1 1, v 1 1 1⟩]

def underMesh : Mesh := hookMesh ++ underBox 15000 10000 0
def underFaces : List (Tri Vec3) := hookFaces ++ underBox 96000 91000 0

theorem underBox_connected : ConnectedMesh (underBox 15000 10000 0) := by
  have h : ∀ v ∈ vertices (underBox 15000 10000 0), ∀ w ∈ vertices (underBox 15000 10000 0), ∃ u ∈ vertices (underBox 15000 10000 0), (∃ t ∈ underBox 15000 10000 0, v ∈ t.corners ∧ u ∈ t.corners) ∧
      ∃ u' ∈ vertices (underBox 15000 10000 0), (∃ t ∈ underBox 15000 10000 0, u ∈ t.corners ∧ u' ∈ t.corners) ∧ ∃ t ∈ underBox 15000 10000 0, u' ∈ t.corners ∧ w ∈ t.corners := by
    decide +kernel
  intro v hv w hw
  obtain ⟨u, -, h1, u', -, h2, h3⟩ := h v hv w hw
  exact .tail (.tail (.single h1) h2) h3

theorem under_sheet : IsSheet 30 underMesh where
  nonempty := by decide
  proper := by decide +kernel
  different := by decide +kernel
  separated := by unfold Separated; decide +kernel
  noGap := C91_several _ _ (C91_no_gap _ hook_connected) (C91_no_gap _ underBox_connected) 0 (by decide +kernel) (by decide +kernel) (by decide +kernel) (by decide +kernel)

theorem under_box : IsBox (vertices underMesh) ⟨0, 0, 0⟩ ⟨38000, 38000, 1900⟩ := by
  constructor <;> decide +kernel

theorem under_placed : placedBody hookOptions.printer.center ⟨0, 0, 0⟩ ⟨38000, 38000, 1900⟩ underMesh = underFaces := by decide +kernel

noncomputable def underExt : Externals where
  lib := squareLib
  stl := fun _ => underMesh.map (Tri.map fun v => ((v.x : ℚ) / 1000, (v.y : ℚ) / 1000, (v.z : ℚ) / 1000))
  trig := fun _ => (0, 1)
  tan := 1

theorem under_stl : underMesh = (underExt.stl []).map stlTriangleToFace := by decide +kernel

def underGaps (i : Nat) : List Gap :=
  if i < 4 then [((⟨111000, 109000, 0⟩, ⟨111000, 109000, 850⟩), (⟨96000, 109000, 850⟩, ⟨96000, 109000, 0⟩)),
    ((⟨96000, 91000, 0⟩, ⟨96000, 91000, 850⟩), (⟨111000, 91000, 850⟩, ⟨111000, 91000, 0⟩))] else []

theorem under_wide : ∀ i < 9, ∀ g ∈ underGaps i, g.Wider (hookOptions.slicing.joinPolygonSnapDistance + 4) (layerHeight hookOptions i) := by
  unfold Gap.Wider NearPt
  decide +kernel

set_option synthInstance.maxHeartbeats 400000 in
set_option synthInstance.maxSize 4000 in
theorem under_good : ∀ i < 9, GoodRest hookOptions hookFaces underFaces 40 i := by
  intro i hi
  refine ⟨underGaps i, ⟨⟨openSurface_part (gs := underWalls 96000 91000 0) (by decide +kernel), ?_, ?_, ?_, ?_, ?_, ?_⟩, ?_, ?_⟩, ?_, ?_, ?_⟩
  · revert i
    decide +kernel
  · revert i
    unfold Up Down Loose
    decide +kernel
  · revert i
    unfold Up Loose
    decide +kernel
  · revert i
    decide +kernel
  · revert i
    unfold SpreadOut Up Down NearPt
    decide +kernel
  · revert i
    unfold Up Down NearPt
    decide +kernel
  · exact fun g hg => .inl (under_wide i hi g hg)
  · intro g hg g' hg' hw hw'
    clear hw hw'
    revert g g' i
    unfold NearPt
    decide +kernel
  · intro f hf hc hb
    refine torn_of_step (under_wide i hi) ?_
    revert f i
    unfold Up
    decide +kernel
  · revert i
    decide +kernel
  · revert i
    decide +kernel

/-- Non-vacuity of `C149_support`: support is printed below the overhang, through the box which has lost its walls. -/
example : ∃ t body mc moves, gcodeOf underExt hookOptions [] = .ok t ∧ t = startText hookOptions ++ body ++ endText hookOptions ∧ run body = some (mc, moves) ∧
    PrintedNear moves 400 (1000 / 2 + 9) (104000, 100000) := by
  obtain ⟨t, om, sliced, top, ht, -, -, -, h2, h3, -⟩ := C149_program underExt hookOptions [] (tol := 2) (by norm_num) square_good turns_never hook_usual (by decide) (by decide)
    underMesh under_stl under_sheet hookMesh hook_body.closed (fun f hf => List.mem_append_left _ hf) under_box ⟨by decide, by decide, by decide, by decide, by decide⟩
    (by unfold Rect.Small; decide +kernel) (by decide)
  obtain rfl : top = 8 := by
    simp only [layerHeight] at h2 h3
    norm_num [hookOptions, raisedOptions] at h2 h3
    omega
  obtain ⟨body, mc, moves, h4, h5, hs⟩ := C149_support underExt hookOptions [] (tol := 2) (by norm_num) (by norm_num) square_good turns_never hook_usual (by decide) (by decide)
    underMesh under_stl under_sheet hookMesh hook_body.closed (fun f hf => List.mem_append_left _ hf) under_box ⟨by decide, by decide, by decide, by decide, by decide⟩ (by decide) rfl
    ⟨hook_fits.options.thickness.2, (by rw [show underExt.tan = 1 from rfl, show hookOptions.print.layerThickness = 200 from rfl]; norm_num), hook_fits.options.spacing.2.trans (by norm_num),
      hook_fits.options.gap.trans (by norm_num)⟩ ⟨by decide +kernel, by decide +kernel, by decide +kernel, by decide +kernel⟩ ht h2 h3
  refine ⟨t, body, mc, moves, ht, h4, h5, ?_⟩
  rw [hook_placed, under_placed] at hs
  have hdep : 0 ≤ columnDepth hookOptions 1 2 8 40 705 ∧ columnDepth hookOptions 1 2 8 40 705 ≤ 14000 := by decide +kernel
  have hsp : toMicrometer hookOptions.print.support.patternSpacing = 1000 := by decide +kernel
  have hwd : hookOptions.printer.extrusionWidth = 400 := rfl
  have e1 : layerHeight hookOptions 1 = 400 := by decide
  have := hs.column 1 40 (by norm_num) (.inl le_rfl) (fun i _ h => under_good i (by omega)) _
    (fun i _ h => farFromSurface_mono (hook_far i (by omega)) (by decide +kernel) (by decide +kernel)) ((hook_column 1).2 (by norm_num)) ⟨by decide, by decide, (hook_column _).2 (by decide)⟩
    (fun i _ hi => by
      rw [hsp, hwd, show underExt.tan = 1 from rfl, show (((1000 : Int) : ℚ) / 2 + ((400 : Int) : ℚ) / 2 + 5) = 705 by norm_num]
      exact farFromSurface_mono (hook_far i (by omega)) hdep.1 hdep.2)
  rw [hsp, e1] at this
  push_cast at this
  exact this

end Verif
