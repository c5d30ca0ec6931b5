import Verif.Props.Typed
import Verif.Props.TornWhole
import Verif.Props.Mixed
import Verif.Props.PatchesWhole
import Verif.Props.PatchesExample

/-! # C150: the typed command, for files with holes of any kind -/
namespace Verif
open Verif.Go Verif.Model Verif.Spec Verif.Spec.GCode

/-- **C150** The command as it is typed, with 64 bit integers: for every file whose triangles are a sheet of usual size, it ends with status 0 and writes a text which, whatever is chosen as missing triangles,
missing patches or bodies (complete or with missing patches) among further triangles, prints the solid which they enclose in all layers in which the gaps are narrow (for missing triangles or patches) or wide (for further triangles). -/
theorem C150_command (ext : Externals) {ws : List Word} (hws : ∀ w ∈ ws, w.Valid) {path : Str} (hpath : (ws.flatMap Word.paths).head? = some path) (hne : path ≠ [])
    (hread : ∀ n t, (n, t) ∈ ws.flatMap Word.settings → ∃ name v v', n = String.toList name ∧ optionOf {} name = some v ∧ SameType v v' ∧ ReadsAs t v')
    (hversion : lastText (ws.flatMap Word.settings) "version".toList = none)
    {tol : ℚ} (h0 : 0 ≤ tol) (hlib : GoodLibrary ext.lib tol) (htrig : TurnsBack ext.trig) (w : World) {content : Str} (hfile : w.files path = some content) :
    ∃ o : Options, (∀ n, lastText (ws.flatMap Word.settings) n.toList = none → optionOf o n = defaultOf n) ∧
      (∀ n t, lastText (ws.flatMap Word.settings) n.toList = some t → ∃ v, optionOf o n = some v ∧ ReadsAs t v) ∧ o.goSlice.inputFilePath = path ∧
      ∀ (m : Mesh) (lo hi : Vec3), m = (ext.stl content).map stlTriangleToFace → UsualOptions o → PrintFits ext.tan o →
        2 ≤ o.slicing.joinPolygonSnapDistance → o.slicing.joinPolygonSnapDistance < 2 ^ 26 → MeshSmall m → IsSheet o.slicing.meldDistance m → IsBox (vertices m) lo hi →
        SmallBody o.printer.center lo hi → o.print.initialLayerThickness ≤ hi.z - lo.z →
        ∃ t om sliced top, gcodeOf ext o content = .ok t ∧ optimize o m = .ok om ∧ slice ext.lib o om = .ok sliced ∧
          layerHeight o top ≤ hi.z - lo.z ∧ hi.z - lo.z < layerHeight o (top + 1) ∧
          (w.creatable (outFile o.goSlice) = true → t.length ≤ w.space →
            (mainM ext (splitArgs (ws.flatMap Word.texts)) w).2 = 0 ∧ (mainM ext (splitArgs (ws.flatMap Word.texts)) w).1.files (outFile o.goSlice) = some t) ∧
          ∃ text mc moves, t = startText o ++ text ++ endText o ∧ run text = some (mc, moves) ∧
            EndIn ((modelArea o.printer.center lo hi).grow (printMargin o)) moves ∧
            ∀ good solid, Completion o (placedBody o.printer.center lo hi) m good solid →
              (∀ n, (∀ l ∈ sliced, wallCount ext.lib o l.parts ≤ n) → (5 + n) * tol ≤ 9 * 10 ^ 4 → PrintsWhere good o solid tol n top moves) ∧
              (o.print.support.enabled = true → tol ≤ 10 ^ 4 → o.print.layerThickness * |ext.tan| ≤ (2 : ℚ) ^ 44 →
                -900000 ≤ ((modelArea o.printer.center lo hi).grow (supportMargin o)).minX ∧ ((modelArea o.printer.center lo hi).grow (supportMargin o)).maxX ≤ 900000 ∧
                -900000 ≤ ((modelArea o.printer.center lo hi).grow (supportMargin o)).minY ∧ ((modelArea o.printer.center lo hi).grow (supportMargin o)).maxY ≤ 900000 →
                PrintsSupportWhere good o solid ext.tan tol top moves) := by
  obtain ⟨o, e1, e2, e3, key⟩ := C144_command ext hws hpath hne hread hversion h0 hlib htrig w hfile
  refine ⟨o, e1, e2, e3, fun m lo hi hm husual hfit hj1 hj2 hmesh hsheet hbox hsmall hheight => ?_⟩
  have key := fun gap => key gap m lo hi hm husual hfit hj1 hj2 hmesh hsheet hbox hsmall hheight
  have harea : ((modelArea o.printer.center lo hi).grow (supportMargin o)).Small := by
    have h1 := hsmall.minX
    have h2 := hsmall.maxX
    have h3 := hsmall.minY
    have h4 := hsmall.maxY
    have h5 : supportMargin o ≤ printMargin o := by unfold printMargin; omega
    have h6 := hfit.margin
    unfold Rect.Small Rect.grow
    simp only
    omega
  obtain ⟨t, om, sliced, top, ht, hom, hsl, ht1, ht2, hdone, text, mc, moves, hb1, hb2, hin, -⟩ := key []
  refine ⟨t, om, sliced, top, ht, hom, hsl, ht1, ht2, hdone, text, mc, moves, hb1, hb2, hin, fun good solid hc => ?_⟩
  have htop : ∀ {k : Nat}, layerHeight o k ≤ hi.z - lo.z → hi.z - lo.z < layerHeight o (k + 1) → k = top := by
    intro k hk1 hk2
    have hth := husual.sensible.thickness
    by_contra hne
    rcases Nat.lt_or_gt_of_ne hne with hlt | hlt
    · rcases (show k + 1 ≤ top by omega).lt_or_eq with h | rfl
      · have := C29_heights (o := o) hth h
        omega
      · omega
    · rcases (show top + 1 ≤ k by omega).lt_or_eq with h | rfl
      · have := C29_heights (o := o) hth h
        omega
      · omega
  have hsame : ∀ {text' : Str} {mc' : Machine} {moves' : List Move}, t = startText o ++ text' ++ endText o → run text' = some (mc', moves') → moves' = moves := by
    intro text' mc' moves' a1 a2
    rw [hb1] at a1
    obtain rfl := body_unique a1
    rw [hb2, Option.some.injEq, Prod.mk.injEq] at a2
    exact a2.2.symm
  have hsf : o.print.layerThickness * |ext.tan| ≤ (2 : ℚ) ^ 44 → SupportFits ext.tan o := fun htan =>
    ⟨hfit.options.thickness.2, htan, hfit.options.spacing.2.trans (by norm_num), hfit.options.gap.trans (by norm_num)⟩
  cases hc with
  | triangles gap =>
    obtain ⟨t', om', sliced', top', a1, a2, a3, a4, a5, -, text', mc', moves', a6, a7, -, a8, a9⟩ := key gap
    rw [ht] at a1
    cases a1
    rw [hom] at a2
    cases a2
    rw [hsl] at a3
    cases a3
    obtain rfl := htop a4 a5
    obtain rfl := hsame a6 a7
    exact ⟨a8, a9⟩
  | patches patches =>
    obtain ⟨t', om', sliced', top', a1, a2, a3, -, a4, a5, text', mc', moves', a6, a7, -, a8⟩ :=
      C147_program ext o content h0 hlib htrig husual hj1 hj2 patches m hm hsheet hbox hsmall harea hheight
    rw [ht] at a1
    cases a1
    rw [hom] at a2
    cases a2
    rw [hsl] at a3
    cases a3
    obtain rfl := htop a4 a5
    obtain rfl := hsame a6 a7
    refine ⟨a8, fun hen htol htan hbed => ?_⟩
    obtain ⟨text', mc', moves', a1, a2, a3⟩ := C147_support ext o content h0 htol hlib htrig husual hj1 hj2 patches m hm hsheet hbox hsmall hheight hen (hsf htan) hbed ht ht1 ht2
    obtain rfl := hsame a1 a2
    exact a3
  | bodies body hclosed hsub =>
    obtain ⟨t', om', sliced', top', a1, a2, a3, -, a4, a5, text', mc', moves', a6, a7, -, a8⟩ :=
      C149_program ext o content h0 hlib htrig husual hj1 hj2 m hm hsheet body hclosed hsub hbox hsmall harea hheight
    rw [ht] at a1
    cases a1
    rw [hom] at a2
    cases a2
    rw [hsl] at a3
    cases a3
    obtain rfl := htop a4 a5
    obtain rfl := hsame a6 a7
    refine ⟨a8, fun hen htol htan hbed => ?_⟩
    obtain ⟨text', mc', moves', a1, a2, a3⟩ := C149_support ext o content h0 htol hlib htrig husual hj1 hj2 m hm hsheet body hclosed hsub hbox hsmall hheight hen (hsf htan) hbed ht ht1 ht2
    obtain rfl := hsame a1 a2
    exact a3
  | mixed patches part hsub =>
    obtain ⟨t', om', sliced', top', a1, a2, a3, -, a4, a5, text', mc', moves', a6, a7, -, a8⟩ :=
      C152_program ext o content h0 hlib htrig husual hj1 hj2 m hm hsheet patches part hsub hbox hsmall harea hheight
    rw [ht] at a1
    cases a1
    rw [hom] at a2
    cases a2
    rw [hsl] at a3
    cases a3
    obtain rfl := htop a4 a5
    obtain rfl := hsame a6 a7
    refine ⟨a8, fun hen htol htan hbed => ?_⟩
    obtain ⟨text', mc', moves', a1, a2, a3⟩ := C152_support ext o content h0 htol hlib htrig husual hj1 hj2 m hm hsheet patches part hsub hbox hsmall hheight hen (hsf htan) hbed ht ht1 ht2
    obtain rfl := hsame a1 a2
    exact a3

end Verif
