import Verif.Props.SupportWhole
import Verif.Props.RectLib

/-! # C123: an example -/
namespace Verif
open Verif.Go Verif.Model Verif.Spec Verif.Spec.GCode

/-- The surface of a box. -/
def boxMesh (x0 y0 z0 x1 y1 z1 : Int) : Mesh :=
  [⟨⟨x0, y0, z0⟩, ⟨x0, y1, z0⟩, ⟨x1, y1, z0⟩⟩, ⟨⟨x0, y0, z0⟩, ⟨x1, y1, z0⟩, ⟨x1, y0, z0⟩⟩,
   ⟨⟨x0, y0, z1⟩, ⟨x1, y0, z1⟩, ⟨x1, y1, z1⟩⟩, ⟨⟨x0, y0, z1⟩, ⟨x1, y1, z1⟩, ⟨x0, y1, z1⟩⟩,
   ⟨⟨x1, y0, z0⟩, ⟨x1, y1, z1⟩, ⟨x1, y0, z1⟩⟩, ⟨⟨x1, y0, z0⟩, ⟨x1, y1, z0⟩, ⟨x1, y1, z1⟩⟩,
   ⟨⟨x0, y0, z0⟩, ⟨x1, y0, z0⟩, ⟨x1, y0, z1⟩⟩, ⟨⟨x0, y0, z0⟩, ⟨x1, y0, z1⟩, ⟨x0, y0, z1⟩⟩,
   ⟨⟨x1, y1, z0⟩, ⟨x0, y1, z0⟩, ⟨x0, y1, z1⟩⟩, ⟨⟨x1, y1, z0⟩, ⟨x0, y1, z1⟩, ⟨x1, y1, z1⟩⟩,
   ⟨⟨x0, y1, z0⟩, ⟨x0, y0, z0⟩, ⟨x0, y0, z1⟩⟩, ⟨⟨x0, y1, z0⟩, ⟨x0, y0, z1⟩, ⟨x0, y1, z1⟩⟩]

/-- Two boxes, one of which begins where the other one ends, side by side. -/
def raisedMesh : Mesh := boxMesh 0 0 0 10000 10000 900 ++ boxMesh 20000 0 900 60000 40000 1900

/-- Support with lines at a distance of 1 mm, and one layer for the gap and the interface. -/
def raisedOptions : Options :=
  { print := { support := { enabled := true, topGapLayers := 1, interfaceLayers := 1, patternSpacing := 1 }, numberBottomLayers := 1, numberTopLayers := 1 } }

/-- The file format of the example: any content stands for the boxes, in millimetres. -/
noncomputable def raisedExt : Externals where
  lib := rectLib
  stl := fun _ => raisedMesh.map (Tri.map fun v => ((v.x : ℚ) / 1000, (v.y : ℚ) / 1000, (v.z : ℚ) / 1000))
  trig := fun _ => (0, 1)
  tan := 1

theorem raised_stl : (raisedExt.stl []).map stlTriangleToFace = raisedMesh := by decide +kernel

/-- The boxes on the bed. -/
def raisedFaces : List (Tri Vec3) := raisedMesh.map (Tri.map fun v => ⟨v.x + 70000, v.y + 80000, v.z⟩)

/-- The boxes after the optimizer. -/
def raisedOpt : OptModel :=
  ⟨[⟨⟨70000, 80000, 0⟩, [0, 1, 6, 7, 10]⟩, ⟨⟨70000, 90000, 0⟩, [0, 8, 10, 11]⟩, ⟨⟨80000, 90000, 0⟩, [0, 1, 5, 8, 9]⟩, ⟨⟨80000, 80000, 0⟩, [1, 4, 5, 6]⟩,
   ⟨⟨70000, 80000, 900⟩, [2, 3, 7, 10, 11]⟩, ⟨⟨80000, 80000, 900⟩, [2, 4, 6, 7]⟩, ⟨⟨80000, 90000, 900⟩, [2, 3, 4, 5, 9]⟩, ⟨⟨70000, 90000, 900⟩, [3, 8, 9, 11]⟩,
   ⟨⟨90000, 80000, 900⟩, [12, 13, 18, 19, 22]⟩, ⟨⟨90000, 120000, 900⟩, [12, 20, 22, 23]⟩, ⟨⟨130000, 120000, 900⟩, [12, 13, 17, 20, 21]⟩,
   ⟨⟨130000, 80000, 900⟩, [13, 16, 17, 18]⟩, ⟨⟨90000, 80000, 1900⟩, [14, 15, 19, 22, 23]⟩, ⟨⟨130000, 80000, 1900⟩, [14, 16, 18, 19]⟩,
   ⟨⟨130000, 120000, 1900⟩, [14, 15, 16, 17, 21]⟩, ⟨⟨90000, 120000, 1900⟩, [15, 20, 21, 23]⟩],
   [⟨⟨0, 1, 2⟩, ⟨10, 8, 1⟩⟩, ⟨⟨0, 2, 3⟩, ⟨0, 5, 6⟩⟩, ⟨⟨4, 5, 6⟩, ⟨7, 4, 3⟩⟩, ⟨⟨4, 6, 7⟩, ⟨2, 9, 11⟩⟩, ⟨⟨3, 6, 5⟩, ⟨5, 2, 6⟩⟩, ⟨⟨3, 2, 6⟩, ⟨1, 9, 4⟩⟩,
    ⟨⟨0, 3, 5⟩, ⟨1, 4, 7⟩⟩, ⟨⟨0, 5, 4⟩, ⟨6, 2, 10⟩⟩, ⟨⟨2, 1, 7⟩, ⟨0, 11, 9⟩⟩, ⟨⟨2, 7, 6⟩, ⟨8, 3, 5⟩⟩, ⟨⟨1, 0, 4⟩, ⟨0, 7, 11⟩⟩, ⟨⟨1, 4, 7⟩, ⟨10, 3, 8⟩⟩,
    ⟨⟨8, 9, 10⟩, ⟨22, 20, 13⟩⟩, ⟨⟨8, 10, 11⟩, ⟨12, 17, 18⟩⟩, ⟨⟨12, 13, 14⟩, ⟨19, 16, 15⟩⟩, ⟨⟨12, 14, 15⟩, ⟨14, 21, 23⟩⟩, ⟨⟨11, 14, 13⟩, ⟨17, 14, 18⟩⟩,
    ⟨⟨11, 10, 14⟩, ⟨13, 21, 16⟩⟩, ⟨⟨8, 11, 13⟩, ⟨13, 16, 19⟩⟩, ⟨⟨8, 13, 12⟩, ⟨18, 14, 22⟩⟩, ⟨⟨10, 9, 15⟩, ⟨12, 23, 21⟩⟩, ⟨⟨10, 15, 14⟩, ⟨20, 15, 17⟩⟩,
    ⟨⟨9, 8, 12⟩, ⟨12, 19, 23⟩⟩, ⟨⟨9, 12, 15⟩, ⟨22, 15, 20⟩⟩],
   ⟨60000, 40000, 1900⟩⟩

theorem raised_opt : optimize raisedOptions ((raisedExt.stl []).map stlTriangleToFace) = .ok raisedOpt := by
  rw [raised_stl]
  decide +kernel

theorem raised_faces : raisedOpt.faces.mapM raisedOpt.facePoints = .ok raisedFaces := by decide +kernel

/-- The check of the sliced and the final layers. -/
def onBed (l : Layer) : Bool := ["support", "supportInterface"].all fun name => match l.partsAttribute name with
  | .ok ps => ps.all fun part => (part.outline :: part.holes).all fun c => c.all fun q => decide (|q.x| ≤ 9 * 10 ^ 5 ∧ |q.y| ≤ 9 * 10 ^ 5)
  | .error _ => true

theorem onBed_support {l : Layer} (h : onBed l = true) : SupportOnBed l := by
  intro name hname ps hps part hpart c hc q hq
  have := List.all_eq_true.1 h name hname
  rw [hps] at this
  exact of_decide_eq_true (List.all_eq_true.1 (List.all_eq_true.1 (List.all_eq_true.1 this part hpart) c hc) q hq)

theorem raised_modified : (slice rectLib raisedOptions raisedOpt >>= fun ls => ((standardModifiers rectLib 1 raisedOptions).foldlM (fun ls m => m ls) ls : Res (List Layer)).map fun layers =>
    (ls.length, layers.all fun l => wellTyped l && onBed l)) = .ok (9, true) := by decide +kernel

theorem raised_segments : (sliceSegments raisedOptions raisedOpt).map (fun ls => (ls.length, ls.all (goodSegments raisedOptions raisedOpt 9 4))) = .ok (9, true) := by decide +kernel

theorem raised_far : ∀ i < 9, FarFromSurface 19000 raisedFaces (layerHeight raisedOptions i) (110000, 100000) := by
  have h : ∀ i < 9, ∀ f ∈ raisedFaces, ∀ s ∈ faceSides f, ∀ s' ∈ faceSides f, Down (layerHeight raisedOptions i) s → Up (layerHeight raisedOptions i) s' →
      (((110000 : ℚ) + 19000 < (meetPoint (layerHeight raisedOptions i) s).1 ∧ (110000 : ℚ) + 19000 < (meetPoint (layerHeight raisedOptions i) s').1) ∨
       ((meetPoint (layerHeight raisedOptions i) s).1 < (110000 : ℚ) - 19000 ∧ (meetPoint (layerHeight raisedOptions i) s').1 < (110000 : ℚ) - 19000) ∨
       ((100000 : ℚ) + 19000 < (meetPoint (layerHeight raisedOptions i) s).2 ∧ (100000 : ℚ) + 19000 < (meetPoint (layerHeight raisedOptions i) s').2) ∨
       ((meetPoint (layerHeight raisedOptions i) s).2 < (100000 : ℚ) - 19000 ∧ (meetPoint (layerHeight raisedOptions i) s').2 < (100000 : ℚ) - 19000)) := by
    unfold Down Up
    decide +kernel
  exact fun i hi f hf s hs s' hs' h1 h2 => farFrom_side (by norm_num) (h i hi f hf s hs s' hs' h1 h2)

theorem raised_inside : ∀ i < 9, (InsideSolid raisedFaces (layerHeight raisedOptions i) (110000, 100000) ↔ 4 ≤ i) := by decide +kernel

theorem raised_tip : ∀ i < 9, NoTip (heightOf raisedOptions.print.initialLayerThickness raisedOptions.print.layerThickness i) raisedFaces := by decide +kernel

theorem raised_sensible : Sensible raisedOptions where
  meld := by decide
  center := by decide
  thickness := by decide
  initial := by decide
  insets := by decide
  support := by decide
  width := by decide
  spacing := by decide +kernel
  percent := by decide

theorem raised_moderate : Moderate raisedOptions where
  width := by decide
  overlap := by decide
  brim := by decide
  skirt := by decide
  distance := by decide +kernel
  spacing := by decide +kernel

theorem raised_column (m : Nat) : Column 1 9 (fun i => InsideSolid raisedFaces (layerHeight raisedOptions i) (110000, 100000)) m ↔ m ≤ 2 := by
  constructor
  · rintro ⟨k, h1, h2, ⟨h3, h4, h5⟩, -⟩
    have h4 := (raised_inside _ h3).1 h4
    have h5 : ¬ 4 ≤ k + 1 := fun h => h5 ((raised_inside (k + 1) (by omega)).2 h)
    omega
  · intro hm
    refine ⟨2, hm, by omega, ⟨by omega, (raised_inside _ (by omega)).2 (by omega), fun h => ?_⟩, fun i _ h2 _ h => ?_⟩
    · have := (raised_inside _ (by omega)).1 h
      omega
    · have := (raised_inside _ (by omega)).1 h
      omega

/-- Non-vacuity of `C123_program`: below the middle of the raised box, support is printed in the second layer and interface in the third one. -/
example : ∃ t body m moves, gcodeOf raisedExt raisedOptions [] = .ok t ∧ t = startText raisedOptions ++ body ++ endText raisedOptions ∧ run body = some (m, moves) ∧
    PrintedNear moves 400 (1000 / 2 + 9) (110000, 100000) ∧ PrintedNear moves 600 (400 / 2 + 9) (110000, 100000) := by
  have hm := raised_modified
  have hg := raised_segments
  cases h2 : slice rectLib raisedOptions raisedOpt with
  | error e => rw [h2] at hm; cases hm
  | ok sliced =>
  rw [h2] at hm
  simp only [bind, Except.bind] at hm
  cases h3 : (standardModifiers rectLib 1 raisedOptions).foldlM (fun ls m => m ls) sliced with
  | error e => rw [h3] at hm; cases hm
  | ok layers =>
  rw [h3] at hm
  obtain ⟨hlen, hall⟩ := Prod.mk.inj (Except.ok.inj hm)
  have hall' : ∀ l ∈ layers, wellTyped l = true ∧ onBed l = true := fun l hl => by
    have := List.all_eq_true.1 hall l hl
    rwa [Bool.and_eq_true] at this
  have hty := typed_modified h3 (sliced_plain h2) (List.all_eq_true.2 fun l hl => (hall' l hl).1)
  obtain ⟨lo, hlo⟩ : ∃ lo, raisedOpt.min = .ok lo := by unfold OptModel.min; rw [raised_faces]; exact ⟨_, rfl⟩
  obtain ⟨hi, hhi⟩ : ∃ hi, raisedOpt.max = .ok hi := by unfold OptModel.max; rw [raised_faces]; exact ⟨_, rfl⟩
  have hopen : OpenClipping rectLib := ⟨piece_open.ok, piece_open.lines⟩
  obtain ⟨t, ht⟩ := gcode_of_modified (ext := raisedExt) raised_sensible hopen (by rw [raised_stl]; decide) raised_opt h2 h3 hty hlo hhi
  obtain ⟨om, segs, sliced', layers', k1, k2, k3, k4, key⟩ := C123_program raisedExt raisedOptions [] t ht (tol := 2) (by norm_num) (by norm_num) rect_nothing hopen piece_inside
    rect_keeps turns_never raised_moderate ⟨by decide, by decide, by decide, by decide, by decide⟩ (by decide) (by decide) (by decide) (by decide) rfl (g := 1) rfl
    (by decide +kernel) (by decide +kernel) (by decide +kernel) (by decide +kernel)
  rw [raised_opt] at k1
  cases k1
  have k3 : slice rectLib raisedOptions raisedOpt = .ok sliced' := k3
  rw [h2] at k3
  cases k3
  have k4 : (standardModifiers rectLib 1 raisedOptions).foldlM (fun ls m => m ls) sliced = .ok layers' := k4
  rw [h3] at k4
  cases k4
  rw [k2] at hg
  obtain ⟨g1, g2⟩ := Prod.mk.inj (Except.ok.inj hg)
  obtain ⟨body, m, moves, b1, b2, b3⟩ := key raisedFaces raised_faces (by decide +kernel) (by unfold SmallSurface; decide +kernel) (by rintro rfl; cases hlen)
  have hparts := C61_parts rectLib 1 raisedOptions _ (fun m hm => hm) sliced layers h3
  have hll : layers.length = 9 := by rw [← hlen]; simpa using congrArg List.length hparts
  have hfin : (2 * ((max 0 raisedOptions.slicing.finishPolygonSnapDistance : Int) : ℚ) + 2) ≤ 19000 := by decide +kernel
  have hfin0 : (0 : ℚ) ≤ 2 * ((max 0 raisedOptions.slicing.finishPolygonSnapDistance : Int) : ℚ) + 2 := by decide +kernel
  have e1 : layerHeight raisedOptions 1 = 400 := by decide
  have e2 : layerHeight raisedOptions 2 = 600 := by decide
  have hsp : toMicrometer raisedOptions.print.support.patternSpacing = 1000 := by decide +kernel
  have hwd : raisedOptions.printer.extrusionWidth = 400 := rfl
  have hif : raisedOptions.print.support.interfaceLayers = 1 := rfl
  have ht1 : raisedExt.tan = 1 := rfl
  have all : ∀ n (hn : n < layers.length), n + 2 < sliced.length → 1 ≤ n → n ≤ 2 → _ := fun n hn hn2 h1 hle => b3 n layers[n] (9 - 4) (List.getElem?_eq_getElem hn)
    (onBed_support (hall' _ (List.getElem_mem hn)).2) hn2 (.inl h1) (fun i _ hi => well_sliced (by rw [g1]; omega) g2 (raised_tip i (by omega))) (110000, 100000)
    (fun i _ hi => farFromSurface_mono (raised_far i (by omega)) hfin0 hfin) (by rw [hlen]; exact (raised_column n).2 hle)
  refine ⟨t, body, m, moves, ht, b1, b2, ?_, ?_⟩
  · obtain ⟨-, h⟩ := all 1 (by omega) (by omega) le_rfl (by omega)
    rw [e1, hsp, hwd, hlen, hif, ht1] at h
    push_cast at h
    refine h ⟨by omega, by decide, (raised_column _).2 (by decide)⟩ fun i _ hi => farFromSurface_mono (raised_far i (by omega)) ?_ ?_
    · decide +kernel
    · decide +kernel
  · obtain ⟨h, -⟩ := all 2 (by omega) (by omega) (by omega) le_rfl
    rw [e2, hwd, hlen, hif, ht1] at h
    push_cast at h
    refine h (fun hc => ?_) fun i _ hi => farFromSurface_mono (raised_far i (by omega)) ?_ ?_
    · have := (raised_column _).1 hc.2.2
      revert this
      decide
    · decide +kernel
    · decide +kernel

end Verif
