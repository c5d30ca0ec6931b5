import Verif.Spec.Command
import Verif.Model.MachineMain
import Verif.Props.Together
import Verif.Props.TogetherExample
import Verif.Props.SupportWhole
import Verif.Props.MachineProcess
import Verif.Props.Flags

/-! # C138: the command `goslice`, with 64 bit integers, prints a closed body and its support -/
namespace Verif
open Verif.Go Verif.Model Verif.Spec Verif.Spec.GCode

/-! ## Support -/

/-- The support of a layer is on the bed. -/
theorem support_onBed {R : Rect} {o : Options} (h1 : -900000 ≤ (R.grow (supportMargin o)).minX) (h2 : (R.grow (supportMargin o)).maxX ≤ 900000) (h3 : -900000 ≤ (R.grow (supportMargin o)).minY)
    (h4 : (R.grow (supportMargin o)).maxY ≤ 900000) {l : Layer} (hl : LayerIn R o l) : SupportOnBed l := by
  intro name hname ps hps part hpart c hc q hq
  have hm : attrMargin o name = supportMargin o := by
    simp only [List.mem_cons, List.not_mem_nil, or_false] at hname
    rcases hname with rfl | rfl <;> simp [attrMargin]
  have hno : name ≠ "outerBrim" := by
    simp only [List.mem_cons, List.not_mem_nil, or_false] at hname
    rcases hname with rfl | rfl <;> decide
  unfold Layer.partsAttribute at hps
  split at hps
  · cases hps; cases hpart
  · rename_i r hr
    cases hps
    have := hl.2 _ _ hr hno
    rw [hm] at this
    have hp : (R.grow (supportMargin o)).HasPart part := this part hpart
    refine small_in h1 h2 h3 h4 ?_
    rcases List.mem_cons.1 hc with rfl | hc
    · exact hp.1 q hq
    · exact hp.2 c hc q hq
  · cases hps

theorem roundAway_le (x : ℚ) : |(roundAway x : ℚ)| ≤ |x| + 1 / 2 := by
  unfold roundAway
  split
  · rename_i h
    have h1 := Int.floor_le (x + 1 / 2)
    have h2 : 0 ≤ ⌊x + 1 / 2⌋ := Int.floor_nonneg.2 (by linarith)
    rw [abs_of_nonneg (by exact_mod_cast h2), abs_of_nonneg h]
    exact h1
  · rename_i h
    have h1 := Int.floor_le (-x + 1 / 2)
    have h2 : 0 ≤ ⌊-x + 1 / 2⌋ := Int.floor_nonneg.2 (by linarith)
    push_cast
    rw [abs_neg, abs_of_nonneg (by exact_mod_cast h2), abs_of_neg (by linarith)]
    exact h1

theorem supportDistance_near {tan : ℚ} {o : Options} (ht : 0 ≤ o.print.layerThickness ∧ o.print.layerThickness ≤ 2 ^ 28) (h : o.print.layerThickness * |tan| ≤ (2 : ℚ) ^ 44) :
    |(supportDistance tan o : ℚ)| ≤ o.print.layerThickness * |tan| + 1 := by
  unfold supportDistance
  have h0 : (0 : ℚ) ≤ o.print.layerThickness := by exact_mod_cast ht.1
  rw [r64_intCast (by rw [abs_of_nonneg ht.1]; exact ht.2.trans (by norm_num))]
  have e : |(o.print.layerThickness : ℚ) * tan| = o.print.layerThickness * |tan| := by rw [abs_mul, abs_of_nonneg h0]
  have h1 := roundAway_le (r64 ((o.print.layerThickness : ℚ) * tan))
  have h2 := r64_abs ((o.print.layerThickness : ℚ) * tan) (by rw [e]; exact h)
  have h3 := abs_sub_abs_le_abs_sub (r64 ((o.print.layerThickness : ℚ) * tan)) ((o.print.layerThickness : ℚ) * tan)
  rw [e] at h3
  norm_num at h2
  linarith

theorem tdiv_half (a : Int) : |((a.tdiv 2 : Int) : ℚ)| ≤ |(a : ℚ)| / 2 := by
  have : 2 * |a.tdiv 2| ≤ |a| := by
    rcases le_total 0 a with h | h
    · rw [abs_of_nonneg h, abs_of_nonneg (Int.tdiv_nonneg h (by norm_num)), Int.tdiv_eq_ediv_of_nonneg h]
      omega
    · obtain ⟨b, rfl⟩ : ∃ b, a = -b := ⟨-a, by omega⟩
      rw [Int.neg_tdiv, abs_neg, abs_neg, abs_of_nonneg (by omega : 0 ≤ b), abs_of_nonneg (Int.tdiv_nonneg (by omega) (by norm_num)), Int.tdiv_eq_ediv_of_nonneg (by omega)]
      omega
  have : (2 : ℚ) * |((a.tdiv 2 : Int) : ℚ)| ≤ |(a : ℚ)| := by exact_mod_cast this
  linarith

/-- What the support needs of the options. -/
structure SupportFits (tan : ℚ) (o : Options) : Prop where
  thickness : o.print.layerThickness ≤ 2 ^ 28
  angle : o.print.layerThickness * |tan| ≤ (2 : ℚ) ^ 44
  spacing : toMicrometer o.print.support.patternSpacing ≤ 2 ^ 33
  gap : |toMicrometer o.print.support.gap| ≤ 2 ^ 53

theorem columnDepth_le {o : Options} {tan : ℚ} (ho : Sensible o) (hs : SupportFits tan o) {tol : ℚ} (h0 : 0 ≤ tol) {D : ℚ} (hD : 0 ≤ D) (top k : Nat) :
    0 ≤ supportDepth tan o tol D (top + 1) + tol + 5 * k + 2 ∧ supportDepth tan o tol D (top + 1) + tol + 5 * k + 2 ≤ columnDepth o tan tol top k D := by
  unfold supportDepth detectDepth columnDepth
  have hsp := ho.spacing
  have hsp' := hs.spacing
  have e1 : r64 (((toMicrometer o.print.support.patternSpacing * 3).tdiv 2 : Int) : ℚ) = (((toMicrometer o.print.support.patternSpacing * 3).tdiv 2 : Int) : ℚ) := by
    refine r64_intCast ?_
    have := tdiv_two (toMicrometer o.print.support.patternSpacing * 3)
    rw [abs_le]
    constructor <;> omega
  rw [e1]
  have a1 := tdiv_half (toMicrometer o.print.support.patternSpacing * 3)
  have a2 := tdiv_half (supportDistance tan o)
  have a3 := tdiv_half (toMicrometer o.print.support.gap)
  have a4 := supportDistance_near ⟨ho.thickness.le, hs.thickness⟩ hs.angle
  have e2 : |((toMicrometer o.print.support.patternSpacing * 3 : Int) : ℚ)| = 3 * toMicrometer o.print.support.patternSpacing := by
    rw [abs_of_nonneg (by exact_mod_cast (by omega : 0 ≤ toMicrometer o.print.support.patternSpacing * 3))]
    push_cast
    ring
  rw [e2] at a1
  push_cast
  refine ⟨by positivity, ?_⟩
  nlinarith

/-- The support of the body with the surface `fs` is printed, if the layers are its cross-sections where the planes are good. -/
theorem support_prints (ext : Externals) (o : Options) (content : Str) {tol : ℚ} (h0 : 0 ≤ tol) (h1 : tol ≤ 10 ^ 4) (hlib : GoodLibrary ext.lib tol) (htrig : TurnsBack ext.trig) (ho : UsualOptions o)
    (m : Mesh) (hm : m = (ext.stl content).map stlTriangleToFace) (hsheet : IsSheet o.slicing.meldDistance m) {lo hi : Vec3} (hbox : IsBox (vertices m) lo hi)
    (hsmall : SmallBody o.printer.center lo hi) (hheight : o.print.initialLayerThickness ≤ hi.z - lo.z)
    (hen : o.print.support.enabled = true) (hfit : SupportFits ext.tan o)
    (hbed : -900000 ≤ ((modelArea o.printer.center lo hi).grow (supportMargin o)).minX ∧ ((modelArea o.printer.center lo hi).grow (supportMargin o)).maxX ≤ 900000 ∧
      -900000 ≤ ((modelArea o.printer.center lo hi).grow (supportMargin o)).minY ∧ ((modelArea o.printer.center lo hi).grow (supportMargin o)).maxY ≤ 900000)
    {t : Str} (ht : gcodeOf ext o content = .ok t) {top : Nat} (ht1 : layerHeight o top ≤ hi.z - lo.z) (ht2 : hi.z - lo.z < layerHeight o (top + 1)) :
    ∃ om sliced lo' hi' body mc moves, optimize o m = .ok om ∧ slice ext.lib o om = .ok sliced ∧ sliced.length = top + 1 ∧ om.min = .ok lo' ∧ om.max = .ok hi' ∧
      t = startText o ++ body ++ endText o ∧ run body = some (mc, moves) ∧
      ∀ (fs : List (Tri Vec3)) (good : Nat → Nat → Prop), (∀ k n l, n ≤ top → good k n → sliced[n]? = some l → SlicedAs o tol fs lo' hi' k n l.parts) →
        PrintsSupportWhere good o fs ext.tan tol top moves := by
  subst hm
  have hth := ho.sensible.thickness
  obtain ⟨top', om, sliced, layers, hom, hsl, hmod, hlen, ht1', ht2', -⟩ := C129_program ext o content t ht ho.extrudes ho.sensible.initial.1 hth lo hi hbox hheight
  obtain rfl : top' = top := by
    unfold layerHeight at ht1 ht2 ht1' ht2'
    push_cast at ht2 ht2'
    have a : (top : Int) < top' + 1 := by nlinarith
    have b : (top' : Int) < top + 1 := by nlinarith
    omega
  have hfs := body_faces hsheet hbox hom
  have hsurf := smallSurface_placed hbox hsmall
  obtain ⟨hin1, hin2⟩ := body_in hlib.area ho.moderate hth hbox hfs hsl hmod
  have hlen' : sliced.length = top' + 1 := by
    have := congrArg List.length (C61_parts ext.lib ext.tan o _ (fun _ h => h) _ _ hmod)
    simpa [hlen] using this.symm
  have hne : sliced ≠ [] := by rintro rfl; simp at hlen'
  obtain ⟨g1, g2⟩ := ho.sensible.support hen
  have hd : |supportDistance ext.tan o| ≤ 2 ^ 53 := by
    have a := supportDistance_near ⟨hth.le, hfit.thickness⟩ hfit.angle
    have b := hfit.angle
    have : |(supportDistance ext.tan o : ℚ)| ≤ 2 ^ 53 := by norm_num at b ⊢; linarith
    exact_mod_cast this
  obtain ⟨om', sliced', layers', lo', hi', c1, clo, chi, c3, c4, c5⟩ := support_program ext o content t ht h0 h1 hlib.outside hlib.lines hlib.covers hlib.sides htrig ho.moderate ho.extrudes ho.rotation hen (g := o.print.support.topGapLayers.toNat) (Int.toNat_of_nonneg g1).symm hd hfit.gap ho.sensible.spacing hfit.spacing
  rw [hom] at c1; cases c1
  rw [hsl] at c3; cases c3
  rw [hmod] at c4; cases c4
  obtain ⟨body, mc, moves, b1, b2, b3⟩ := c5 _ hfs hsurf hne
  rw [hlen'] at b3
  refine ⟨om, sliced, lo', hi', body, mc, moves, hom, hsl, hlen', clo, chi, b1, b2, fun fs good hgood => ?_⟩
  have key := fun (n k : Nat) (hn : n + 2 ≤ top') (hb : 1 ≤ n ∨ o.print.brimSkirt.brimCount = 0) (hg : ∀ i, n ≤ i → i ≤ top' → good k i) =>
    b3 fs n (layers[n]'(by omega)) k (List.getElem?_eq_getElem _) (support_onBed hbed.1 hbed.2.1 hbed.2.2.1 hbed.2.2.2 (hin2 _ (List.getElem_mem _))) (by omega) hb
      (fun i l h1 h2 => by
        have := (List.getElem?_eq_some_iff.1 h2).1
        exact hgood k i l (by omega) (hg i h1 (by omega)) h2)
  have hw : (0 : ℚ) ≤ o.printer.extrusionWidth := by exact_mod_cast (by have := ho.extrudes.width; omega : 0 ≤ o.printer.extrusionWidth)
  have hs : (0 : ℚ) ≤ toMicrometer o.print.support.patternSpacing := by exact_mod_cast ho.sensible.spacing.le
  constructor
  · intro n k hn hb hg x hx hcol hno hfar
    obtain ⟨d1, d2⟩ := columnDepth_le ho.sensible hfit h0 (D := o.printer.extrusionWidth + 5) (by positivity) top' k
    exact (key n k hn hb hg x (fun i h1 h2 => hx i h1 (by omega)) hcol).1 hno fun i h1 h2 => farFromSurface_mono (hfar i h1 (by omega)) (by exact_mod_cast d1) (by exact_mod_cast d2)
  · intro n k hn hb hg x hx hcol hab hfar
    obtain ⟨d1, d2⟩ := columnDepth_le ho.sensible hfit h0 (D := toMicrometer o.print.support.patternSpacing / 2 + o.printer.extrusionWidth / 2 + 5) (by positivity) top' k
    exact (key n k hn hb hg x (fun i h1 h2 => hx i h1 (by omega)) hcol).2 hab fun i h1 h2 => farFromSurface_mono (hfar i h1 (by omega)) (by exact_mod_cast d1) (by exact_mod_cast d2)

/-- **C138** The support of a closed body is printed. -/
theorem C138_support (ext : Externals) (o : Options) (content : Str) {tol : ℚ} (h0 : 0 ≤ tol) (h1 : tol ≤ 10 ^ 4) (hlib : GoodLibrary ext.lib tol) (htrig : TurnsBack ext.trig) (ho : UsualOptions o)
    (m : Mesh) (hm : m = (ext.stl content).map stlTriangleToFace) (hbody : IsBody o.slicing.meldDistance m) {lo hi : Vec3} (hbox : IsBox (vertices m) lo hi)
    (hsmall : SmallBody o.printer.center lo hi) (hheight : o.print.initialLayerThickness ≤ hi.z - lo.z)
    (hen : o.print.support.enabled = true) (hfit : SupportFits ext.tan o)
    (hbed : -900000 ≤ ((modelArea o.printer.center lo hi).grow (supportMargin o)).minX ∧ ((modelArea o.printer.center lo hi).grow (supportMargin o)).maxX ≤ 900000 ∧
      -900000 ≤ ((modelArea o.printer.center lo hi).grow (supportMargin o)).minY ∧ ((modelArea o.printer.center lo hi).grow (supportMargin o)).maxY ≤ 900000)
    {t : Str} (ht : gcodeOf ext o content = .ok t) {top : Nat} (ht1 : layerHeight o top ≤ hi.z - lo.z) (ht2 : hi.z - lo.z < layerHeight o (top + 1)) :
    ∃ body mc moves, t = startText o ++ body ++ endText o ∧ run body = some (mc, moves) ∧ PrintsSupport o (placedBody o.printer.center lo hi m) ext.tan tol top moves := by
  obtain ⟨om, sliced, lo', hi', body, mc, moves, hom, hsl, hlen, hlo, hhi, b1, b2, b3⟩ :=
    support_prints ext o content h0 h1 hlib htrig ho m hm (sheet_of_body hbody) hbox hsmall hheight hen hfit hbed ht ht1 ht2
  refine ⟨body, mc, moves, b1, b2, b3 _ _ fun k n l hn hg hl => ?_⟩
  have hfs := body_faces (sheet_of_body hbody) hbox hom
  have hclosed := closedSurface_map (placed_injective o.printer.center lo hi) hbody.closed
  obtain ⟨segs, hseg, -⟩ := bind_ok.1 hsl
  obtain ⟨layer, hlay⟩ := segments_exist hseg hsl (show n < sliced.length by omega)
  exact slicedAs_closed hom hfs hclosed (smallSurface_placed hbox hsmall) ho.meld ho.sensible.thickness ho.finish hseg
    (cutsWell_sliced hom hfs hclosed ho.meld ho.sensible.thickness hseg hlay hg.1 hg.2) hlib.sides h0 hsl hl hlo hhi

/-! ## The command -/

theorem mainM_process (ext : Externals) (cl : CommandLine) (w : World) (o : Options) (h : parseFlags cl = some o) (hv : o.goSlice.printVersion = false)
    (hp : o.goSlice.inputFilePath ≠ []) : mainM ext cl w = ((goSliceM ext o w).1, if (goSliceM ext o w).2 = .ok () then 0 else 2) := by
  unfold mainM
  rw [h]
  simp only [hv, hp, if_false, Bool.false_eq_true]
  cases hg : goSliceM ext o w with
  | mk w' r => cases r <;> simp

/-- **C138** The command, with 64 bit integers: if the options of the command line and the model in the file are of usual size, and the file system takes the text, the command ends with status 0,
and its output file contains a text whose moves print the body. -/
theorem C138_command (ext : Externals) (cl : CommandLine) (o : Options) (hcl : parseFlags cl = some o) (hv : o.goSlice.printVersion = false) (hpath : o.goSlice.inputFilePath ≠ [])
    {tol : ℚ} (h0 : 0 ≤ tol) (hlib : GoodLibrary ext.lib tol) (htrig : TurnsBack ext.trig) (ho : UsualOptions o) (hfit : PrintFits ext.tan o)
    (w : World) {content : Str} (hfile : w.files o.goSlice.inputFilePath = some content)
    (m : Mesh) (hm : m = (ext.stl content).map stlTriangleToFace) (hmesh : MeshSmall m) (hbody : IsBody o.slicing.meldDistance m) {lo hi : Vec3} (hbox : IsBox (vertices m) lo hi)
    (hsmall : SmallBody o.printer.center lo hi) (hheight : o.print.initialLayerThickness ≤ hi.z - lo.z) :
    ∃ t om sliced top, gcodeOf ext o content = .ok t ∧ optimize o m = .ok om ∧ slice ext.lib o om = .ok sliced ∧ layerHeight o top ≤ hi.z - lo.z ∧ hi.z - lo.z < layerHeight o (top + 1) ∧
      (w.creatable (outFile o.goSlice) = true → t.length ≤ w.space → (mainM ext cl w).2 = 0 ∧ (mainM ext cl w).1.files (outFile o.goSlice) = some t) ∧
      ∃ body mc moves, t = startText o ++ body ++ endText o ∧ run body = some (mc, moves) ∧
        EndIn ((modelArea o.printer.center lo hi).grow (printMargin o)) moves ∧
        (∀ n, (∀ l ∈ sliced, wallCount ext.lib o l.parts ≤ n) → (5 + n) * tol ≤ 9 * 10 ^ 4 → PrintsBody o (placedBody o.printer.center lo hi m) tol n top moves) ∧
        (o.print.support.enabled = true → tol ≤ 10 ^ 4 → o.print.layerThickness * |ext.tan| ≤ (2 : ℚ) ^ 44 →
          -900000 ≤ ((modelArea o.printer.center lo hi).grow (supportMargin o)).minX ∧ ((modelArea o.printer.center lo hi).grow (supportMargin o)).maxX ≤ 900000 ∧
          -900000 ≤ ((modelArea o.printer.center lo hi).grow (supportMargin o)).minY ∧ ((modelArea o.printer.center lo hi).grow (supportMargin o)).maxY ≤ 900000 →
          PrintsSupport o (placedBody o.printer.center lo hi m) ext.tan tol top moves) := by
  have harea : ((modelArea o.printer.center lo hi).grow (supportMargin o)).Small := by
    have h1 := hsmall.minX
    have h2 := hsmall.maxX
    have h3 := hsmall.minY
    have h4 := hsmall.maxY
    have h5 : supportMargin o ≤ printMargin o := by unfold printMargin; omega
    have h6 := hfit.margin
    unfold Rect.Small Rect.grow
    simp only
    omega
  obtain ⟨t, om, sliced, top, h1, h2, h3, -, h5, h6, body, mc, moves, h7, h8, h9, h10⟩ := C137_program ext o content h0 hlib htrig ho m hm hbody hbox hsmall harea hheight
  refine ⟨t, om, sliced, top, h1, h2, h3, h5, h6, fun hcr hsp => ?_, body, mc, moves, h7, h8, h9, h10, fun hen htol htan hbed => ?_⟩
  · obtain ⟨t', ht', hdone⟩ := C90_succeeds ext o w content ho.sensible hlib.never hlib.lines hfile m hm hbody.nonempty hbody.proper hbody.separated hbody.noGap (.inl (by
      have hth := ho.sensible.thickness
      obtain ⟨-, -, -, -, ⟨p, hp, ep⟩, q, hq, eq⟩ := hbox.reached
      exact ⟨q, hq, p, hp, by omega⟩))
    rw [h1] at ht'
    cases ht'
    obtain ⟨d1, d2⟩ := hdone hcr hsp
    obtain ⟨e1, e2⟩ := C127_program ext o w hlib.area hlib.lines htrig hfit (fun c hc => by
      rw [hfile] at hc
      cases hc
      rw [← hm]
      exact hmesh)
    rw [mainM_process ext cl w o hcl hv hpath]
    exact ⟨if_pos (e1.trans d1), by rw [← d2, ← e2]⟩
  · obtain ⟨body', mc', moves', e1, e2, e3⟩ := C138_support ext o content h0 htol hlib htrig ho m hm hbody hbox hsmall hheight hen
      ⟨hfit.options.thickness.2, htan, hfit.options.spacing.2.trans (by norm_num), hfit.options.gap.trans (by norm_num)⟩ hbed h1 h5 h6
    rw [h7] at e1
    obtain rfl := body_unique e1
    rw [h8, Option.some.injEq, Prod.mk.injEq] at e2
    rw [e2.2]
    exact e3

/-! ## A call without flags -/

/-- The options of `goslice model.stl`. -/
def pathOptions (path : Str) : Options := { goSlice := { inputFilePath := path } }

theorem usual_empty : UsualOptions {} where
  sensible := sensible_default
  moderate := moderate_default
  extrudes := ⟨by decide, by decide, by decide, by decide, by decide⟩
  meld := by decide
  finish := by decide
  insets := by decide
  rotation := by decide
  overlap := by decide
  overlap2 := by decide

theorem usual_default (path : Str) : UsualOptions (pathOptions path) := by
  obtain ⟨⟨a1, a2, a3, a4, a5, a6, a7, a8, a9⟩, ⟨m1, m2, m3, m4, m5, m6⟩, ⟨e1, e2, e3, e4, e5⟩, h4, h5, h6, h7, h8, h9⟩ := usual_empty
  exact ⟨⟨a1, a2, a3, a4, a5, a6, a7, a8, a9⟩, ⟨m1, m2, m3, m4, m5, m6⟩, ⟨e1, e2, e3, e4, e5⟩, h4, h5, h6, h7, h8, h9⟩

theorem fits_default (path : Str) {tan : ℚ} (h : |tan| ≤ 2 ^ 20) : PrintFits tan (pathOptions path) := by
  obtain ⟨⟨a1, a2, a3, a4, -, a6, a7, a8, a9⟩, ⟨m1, m2, m3, m4, m5, m6⟩, ⟨s1, s2, s3, s4, s5⟩, h4, h5, h6, h7, h8, h9, h10, h11, h12⟩ := printFits_default
  exact ⟨⟨a1, a2, a3, a4, h, a6, a7, a8, a9⟩, ⟨m1, m2, m3, m4, m5, m6⟩, ⟨s1, s2, s3, s4, s5⟩, h4, h5, h6, h7, h8, h9, h10, h11, h12⟩

/-- **C138** `goslice model.stl`, with 64 bit integers: for a closed body of usual size the command ends with status 0, and the file `model.stl.gcode` contains a text whose moves print the body, and stay
within 8.701 mm around it (for the skirt). -/
theorem C138_default (ext : Externals) (path : Str) (hpath : path ≠ []) {tol : ℚ} (h0 : 0 ≤ tol) (hlib : GoodLibrary ext.lib tol) (htrig : TurnsBack ext.trig) (htan : |ext.tan| ≤ 2 ^ 20)
    (w : World) {content : Str} (hfile : w.files path = some content)
    (m : Mesh) (hm : m = (ext.stl content).map stlTriangleToFace) (hmesh : MeshSmall m) (hbody : IsBody 30 m) {lo hi : Vec3} (hbox : IsBox (vertices m) lo hi)
    (hsmall : SmallBody ⟨100000, 100000, 0⟩ lo hi) (hheight : 200 ≤ hi.z - lo.z) :
    ∃ (t : Str) (om : OptModel) (sliced : List Layer) (top : Nat), gcodeOf ext (pathOptions path) content = .ok t ∧ optimize (pathOptions path) m = .ok om ∧ slice ext.lib (pathOptions path) om = .ok sliced ∧
      200 + 200 * (top : Int) ≤ hi.z - lo.z ∧ hi.z - lo.z < 400 + 200 * (top : Int) ∧
      (w.creatable (path ++ ".gcode".toList) = true → t.length ≤ w.space →
        (mainM ext { args := [path] } w).2 = 0 ∧ (mainM ext { args := [path] } w).1.files (path ++ ".gcode".toList) = some t) ∧
      ∃ body mc moves, t = startText (pathOptions path) ++ body ++ endText (pathOptions path) ∧ run body = some (mc, moves) ∧
        EndIn ((modelArea ⟨100000, 100000, 0⟩ lo hi).grow 8701) moves ∧
        ∀ n, (∀ l ∈ sliced, wallCount ext.lib (pathOptions path) l.parts ≤ n) → (5 + n) * tol ≤ 9 * 10 ^ 4 →
          PrintsBody (pathOptions path) (placedBody ⟨100000, 100000, 0⟩ lo hi m) tol n top moves := by
  obtain ⟨t, om, sliced, top, h1, h2, h3, h4, h5, h6, body, mc, moves, h7, h8, h9, h10, -⟩ := C138_command ext { args := [path] } (pathOptions path) (parseFlags_path path) rfl hpath h0 hlib
    htrig (usual_default path) (fits_default path htan) w hfile m hm hmesh hbody hbox hsmall hheight
  refine ⟨t, om, sliced, top, h1, h2, h3, ?_, ?_, h6, body, mc, moves, h7, h8, ?_, h10⟩
  · have : layerHeight (pathOptions path) top = 200 + top * 200 := rfl
    omega
  · have : layerHeight (pathOptions path) (top + 1) = 200 + ((top + 1 : Nat) : Int) * 200 := rfl
    push_cast at this
    omega
  · have : printMargin {} = 8701 := by decide +kernel
    rw [← this]
    exact h9

end Verif
