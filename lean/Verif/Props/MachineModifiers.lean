import Verif.Model.MachineModifiers
import Verif.Props.Filament
import Verif.Props.MachineSlicer
import Verif.Props.Modifiers

/-! # The modifiers with int64 arithmetic (C127) -/
namespace Verif
open Verif.Go Verif.Model Verif.Spec

theorem r32_le_pow {x : ℚ} {K : Nat} (h : |x| ≤ 2 ^ K) : |r32 x| ≤ 2 ^ K := by
  rw [abs_le] at *
  constructor
  · rw [← r32_pow, ← r32_neg]; exact r32_mono h.1
  · rw [← r32_pow]; exact r32_mono h.2

theorem r64_pow (K : Nat) : r64 ((2 : ℚ) ^ K) = 2 ^ K :=
  rnd_of_repr (K := ℚ) 53 (by norm_num) (-1074) _ ⟨1, K, by norm_num, by omega, by simp; rfl⟩

theorem r64_le_pow {x : ℚ} {K : Nat} (h : |x| ≤ 2 ^ K) : |r64 x| ≤ 2 ^ K := by
  rw [abs_le] at *
  constructor
  · rw [← r64_pow, ← r64_neg]; exact r64_mono h.1
  · rw [← r64_pow]; exact r64_mono h.2

theorem truncZ_le_pow {x : ℚ} {K : Nat} (h : |x| ≤ 2 ^ K) : |truncZ x| ≤ 2 ^ K := by
  rw [abs_le] at h
  unfold truncZ
  split
  · rename_i h0
    have h1 : 0 ≤ ⌊x⌋ := Int.floor_nonneg.2 h0
    rw [abs_of_nonneg h1]
    have h2 := Int.floor_le x
    exact_mod_cast h2.trans h.2
  · rename_i h0
    have h1 : 0 ≤ ⌊-x⌋ := Int.floor_nonneg.2 (by linarith [not_le.1 h0])
    rw [abs_neg, abs_of_nonneg h1]
    have h2 := Int.floor_le (-x)
    have h3 : ((⌊-x⌋ : Int) : ℚ) ≤ ((2 ^ K : Int) : ℚ) := by push_cast; linarith
    exact_mod_cast h3

/-- The options are not too large. Percentages are at most a million, the width of a line is at most 10 mm (C80), the distances and the numbers of layers are below `2^50`. -/
structure OptionsFit (tan : ℚ) (o : Options) : Prop where
  width : 0 ≤ o.printer.extrusionWidth ∧ o.printer.extrusionWidth ≤ 10000
  overlap : |o.print.infillOverlapPercent| ≤ 1000000
  additional : |o.print.additionalInternalInfillOverlapPercent| ≤ 1000000
  thickness : 0 < o.print.layerThickness ∧ o.print.layerThickness ≤ 2 ^ 28
  tan : |tan| ≤ 2 ^ 20
  spacing : 0 ≤ toMicrometer o.print.support.patternSpacing ∧ toMicrometer o.print.support.patternSpacing ≤ 2 ^ 26
  gap : |toMicrometer o.print.support.gap| ≤ 2 ^ 50
  topGap : |o.print.support.topGapLayers| ≤ 2 ^ 50
  interface : |o.print.support.interfaceLayers| ≤ 2 ^ 50

theorem perimeterOverlap_le {p w : Int} (hp : |p| ≤ 2 ^ 22) (hw : |w| ≤ 2 ^ 14) : |perimeterOverlap p w| ≤ 2 ^ 37 := by
  unfold perimeterOverlap
  have e1 : r32 (w : ℚ) = w := r32_intCast (hw.trans (by norm_num))
  have e2 : r32 (p : ℚ) = p := r32_intCast (hp.trans (by norm_num))
  have e3 : r32 (100 - (p : ℚ)) = ((100 - p : Int) : ℚ) := by
    rw [← r32_intCast (n := 100 - p) (by rw [abs_le] at *; omega)]
    push_cast
    rfl
  rw [e1, e2, e3]
  refine truncZ_le_pow (r32_le_pow ?_)
  have h1 : |((w * (100 - p) : Int) : ℚ)| ≤ 2 ^ 37 := by
    have : |w * (100 - p)| ≤ 2 ^ 37 := by
      rw [abs_mul]
      have h2 : |100 - p| ≤ 2 ^ 23 := by rw [abs_le] at *; omega
      calc |w| * |100 - p| ≤ 2 ^ 14 * 2 ^ 23 := by gcongr
        _ = 2 ^ 37 := by norm_num
    exact_mod_cast this
  have h2 := r32_le_pow h1
  push_cast at h2
  rw [abs_div]
  have h3 : |(100 : ℚ)| = 100 := by norm_num
  rw [h3]
  push_cast
  calc _ ≤ (2 : ℚ) ^ 37 / 100 := by gcongr
    _ ≤ 2 ^ 37 := by norm_num

theorem wrap_neg_of {a b : Int} (h : |a| ≤ b) (hb : b < 2 ^ 63) : wrap (-a) = -a := wrap_of_abs (by rwa [abs_neg]) hb

section
variable {lib : ClipperLib}

theorem insetLoopM_eq {part : LayerPart} {offset : Int} (h : |offset| ≤ 2 ^ 62) (n : Nat) (d : ℚ) : lib.insetLoopM part offset n d = lib.insetLoop part offset n d := by
  induction n generalizing d with
  | zero => rfl
  | succ n ih =>
    unfold ClipperLib.insetLoopM ClipperLib.insetLoop
    rw [wrap_neg_of h (by norm_num), ih]

theorem insetM_eq {part : LayerPart} {offset : Int} (h : |offset| ≤ 2 ^ 62) (n d : Int) : lib.insetM part offset n d = lib.inset part offset n d := insetLoopM_eq h _ _

theorem insetLayerM_eq {parts : List LayerPart} {offset : Int} (h : |offset| ≤ 2 ^ 62) (n d : Int) : lib.insetLayerM parts offset n d = lib.insetLayer parts offset n d := by
  unfold ClipperLib.insetLayerM ClipperLib.insetLayer
  simp only [insetM_eq h]

theorem overlapPerimeterM_eq {part : LayerPart} {p w : Int} (hp : |p| ≤ 2 ^ 22) (hw : |w| ≤ 2 ^ 14) :
    calculateOverlapPerimeterM lib part p w = calculateOverlapPerimeter lib part p w := by
  unfold calculateOverlapPerimeterM calculateOverlapPerimeter
  rw [wrap_neg_of (perimeterOverlap_le hp hw) (by norm_num)]

variable {tan : ℚ} {o : Options} (ho : OptionsFit tan o)
include ho

theorem fit_width : |o.printer.extrusionWidth| ≤ 2 ^ 14 := by
  have := ho.width
  rw [abs_of_nonneg this.1]
  omega

theorem perimeterM_eq (ls : List Layer) : perimeterModifierM lib o ls = perimeterModifier lib o ls := by
  have hw := fit_width ho
  have hp : |o.print.infillOverlapPercent| ≤ 2 ^ 22 := ho.overlap.trans (by norm_num)
  unfold perimeterModifierM perimeterModifier
  refine mapM_congr _ fun l _ => ?_
  unfold perimeterLayerM perimeterLayer perimetersOfM perimetersOf
  rw [insetLayerM_eq (hw.trans (by norm_num)), wrap_neg_of hw (by norm_num)]
  have : overlapOfPartM lib o = overlapOfPart lib o := by
    funext part
    unfold overlapOfPartM overlapOfPart
    simp only [overlapPerimeterM_eq hp hw]
  rw [this]

theorem addInfillM_eq (ov : Res (List LayerPart)) (parts infill : List LayerPart) : addInfillM lib o ov parts infill = addInfill lib o ov parts infill := by
  have hw := fit_width ho
  have hp : |o.print.infillOverlapPercent + o.print.additionalInternalInfillOverlapPercent| ≤ 2 ^ 22 :=
    (abs_add_le _ _).trans ((add_le_add ho.overlap ho.additional).trans (by norm_num))
  unfold addInfillM addInfill
  rw [wrap_of_abs hp (by norm_num)]
  simp only [overlapPerimeterM_eq hp hw]

theorem infillPartsM_eq (layers : List Layer) (layerNr : Nat) (ov : List (List LayerPart)) (pe : OffsetResult) (k : Nat) (infill : List LayerPart × List LayerPart) :
    infillPartsM lib o layers layerNr ov k pe infill = infillParts lib o layers layerNr ov k pe infill := by
  have : ∀ k, infillPartM lib o layers layerNr ov k = infillPart lib o layers layerNr ov k := by
    intro k
    funext infill part
    unfold infillPartM infillPart
    simp only [addInfillM_eq ho]
  induction pe generalizing k infill with
  | nil => rfl
  | cons part rest ih =>
    unfold infillPartsM infillParts
    simp only [this, ih]

theorem infillM_eq (ls : List Layer) : infillModifierM lib o ls = infillModifier lib o ls := by
  have key : ∀ (n k : Nat) (ls : List Layer), infillLoopM lib o n k ls = infillLoop lib o n k ls := by
    intro n
    induction n with
    | zero => intro k ls; rfl
    | succ n ih =>
      intro k ls
      unfold infillLoopM infillLoop infillLayerM infillLayer
      simp only [infillPartsM_eq ho, ih]
      rfl
  exact key _ _ _

theorem brimM_eq (ls : List Layer) : brimModifierM lib o ls = brimModifier lib o ls := by
  have hw := fit_width ho
  have hw' : |-o.printer.extrusionWidth| ≤ 2 ^ 62 := by rw [abs_neg]; exact hw.trans (by norm_num)
  unfold brimModifierM brimModifier brimLayerM brimLayer brimLinesM brimLines outerBrimM outerBrim
  simp only [wrap_neg_of hw (by norm_num), insetLayerM_eq hw']
  rfl

theorem supportDistance_le : |supportDistance tan o| ≤ 2 ^ 50 := by
  unfold supportDistance
  have ht := ho.thickness
  have h1 : |r64 (o.print.layerThickness : ℚ)| ≤ 2 ^ 28 := r64_le_pow (by
    have : |o.print.layerThickness| ≤ 2 ^ 28 := by rw [abs_of_pos ht.1]; exact ht.2
    exact_mod_cast this)
  have h2 : |r64 (r64 (o.print.layerThickness : ℚ) * tan)| ≤ 2 ^ 48 := r64_le_pow (by
    rw [abs_mul]
    calc |r64 (o.print.layerThickness : ℚ)| * |tan| ≤ 2 ^ 28 * 2 ^ 20 := by gcongr; exact ho.tan
      _ = 2 ^ 48 := by norm_num)
  generalize r64 (r64 (o.print.layerThickness : ℚ) * tan) = x at h2
  rw [abs_le] at h2
  unfold roundAway
  split
  · rename_i h0
    have h3 := Int.floor_le (x + 1 / 2)
    have h4 : 0 ≤ ⌊x + 1 / 2⌋ := Int.floor_nonneg.2 (by linarith)
    rw [abs_of_nonneg h4]
    have : ((⌊x + 1 / 2⌋ : Int) : ℚ) ≤ ((2 ^ 50 : Int) : ℚ) := by push_cast; linarith
    exact_mod_cast this
  · rename_i h0
    have h3 := Int.floor_le (-x + 1 / 2)
    have h4 : 0 ≤ ⌊-x + 1 / 2⌋ := Int.floor_nonneg.2 (by linarith [not_le.1 h0])
    rw [abs_neg, abs_of_nonneg h4]
    have : ((⌊-x + 1 / 2⌋ : Int) : ℚ) ≤ ((2 ^ 50 : Int) : ℚ) := by push_cast; linarith
    exact_mod_cast this

theorem detectSupportM_eq (below above : Layer) : detectSupportM lib tan o below above = detectSupport lib tan o below above := by
  have hd := supportDistance_le ho
  have hs := ho.spacing
  have h1 : |-toMicrometer o.print.support.patternSpacing * 3| ≤ 2 ^ 62 := by rw [abs_le]; constructor <;> omega
  unfold detectSupportM detectSupport
  simp only
  rw [insetLayerM_eq (by rw [abs_neg]; exact hd.trans (by norm_num)), wrap_neg_of (a := -supportDistance tan o) (b := 2 ^ 50) (by rwa [abs_neg]) (by norm_num), neg_neg,
    wrap_of_lt (n := -toMicrometer o.print.support.patternSpacing) (by omega) (by omega), wrap_of_abs h1 (by norm_num),
    wrap_of_lt (n := toMicrometer o.print.support.patternSpacing * 3) (by omega) (by omega)]
  simp only [insetLayerM_eq h1]

theorem detectorM_eq (ls : List Layer) (hn : ls.length ≤ 2 ^ 50) : supportDetectorM lib tan o ls = supportDetector lib tan o ls := by
  have hg := abs_le.1 ho.topGap
  have key : ∀ (n k : Nat) (ls : List Layer), n + k ≤ 2 ^ 50 → detectorLoopM lib tan o n k ls = detectorLoop lib tan o n k ls := by
    intro n
    induction n with
    | zero => intro k ls _; rfl
    | succ n ih =>
      intro k ls hk
      unfold detectorLoopM detectorLoop
      rw [wrap_of_lt (n := (k : Int) - o.print.support.topGapLayers) (by omega) (by omega)]
      simp only [detectSupportM_eq ho, ih (k + 1) _ (by omega)]
  unfold supportDetectorM supportDetector
  rw [key _ _ _ (by omega)]

theorem generatorM_eq (ls : List Layer) (hn : ls.length ≤ 2 ^ 50) : supportGeneratorM lib o ls = supportGenerator lib o ls := by
  have hg := abs_le.1 ho.interface
  have hb : biggerLayerM lib o = biggerLayer lib o := by
    funext l
    unfold biggerLayerM biggerLayer
    rw [wrap_neg_of ho.gap (by norm_num), insetLayerM_eq (by rw [abs_neg]; exact ho.gap.trans (by norm_num))]
  have key : ∀ (n : Nat) (ls : List Layer) (last : List LayerPart), n ≤ 2 ^ 50 → generatorLoopM lib o n ls last = generatorLoop lib o n ls last := by
    intro n
    induction n with
    | zero => intro ls last _; rfl
    | succ n ih =>
      intro ls last hk
      unfold generatorLoopM generatorLoop generatorStepM generatorStep supportInterfaceM supportInterface
      rw [wrap_of_lt (n := ((n + 1 : Nat) : Int) + o.print.support.interfaceLayers) (by omega) (by omega), wrap_of_lt (by omega) (by omega)]
      simp only [hb, ih _ _ (by omega : n ≤ 2 ^ 50)]
  unfold supportGeneratorM supportGenerator
  rw [key _ _ _ (by omega)]

/-- **C127** The modifiers do not overflow. -/
theorem C127_modifiers (ls : List Layer) (hn : ls.length ≤ 2 ^ 50) :
    (standardModifiersM lib tan o).foldlM (fun ls m => m ls) ls = (standardModifiers lib tan o).foldlM (fun ls m => m ls) ls := by
  unfold standardModifiersM standardModifiers
  simp only [List.foldlM_cons, List.foldlM_nil, perimeterM_eq ho, infillM_eq ho, brimM_eq ho]
  cases h1 : perimeterModifier lib o ls with
  | error e => rfl
  | ok l1 =>
    simp only [bind, Except.bind]
    cases h2 : infillModifier lib o l1 with
    | error e => rfl
    | ok l2 =>
      simp only
      cases h3 : internalInfillModifier lib o l2 with
      | error e => rfl
      | ok l3 =>
        simp only
        cases h4 : brimModifier lib o l3 with
        | error e => rfl
        | ok l4 =>
          have hl : l4.length = ls.length := by
            rw [← (C61_brim lib o _ _ h4).length_eq, ← (C61_internal lib o _ _ h3).length_eq, ← (C61_infill lib o _ _ h2).length_eq, ← (C61_perimeter lib o _ _ h1).length_eq]
          simp only
          rw [detectorM_eq ho l4 (by omega)]
          cases h5 : supportDetector lib tan o l4 with
          | error e => rfl
          | ok l5 =>
            have hl5 := (C61_detector lib tan o _ _ h5).length_eq
            simp only
            rw [generatorM_eq ho l5 (by omega)]

end
end Verif
