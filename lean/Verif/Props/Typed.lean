import Verif.Props.Again
import Verif.Props.Command
import Verif.Props.MissingExample
import Verif.Props.MissingSupport

/-! # C144: from the arguments typed to the moves printed, with 64 bit integers -/
namespace Verif
open Verif.Go Verif.Model Verif.Spec Verif.Spec.GCode

/-- **C144** The command with 64 bit integers has the same status and leaves the same files as with unbounded integers, for all arguments, if neither the model nor an option is too large. -/
theorem C144_same (ext : Externals) (cl : CommandLine) (w : World) (hl : StaysInside ext.lib) (hopen : OpenClipping ext.lib) (htrig : TurnsBack ext.trig)
    (ho : ∀ o, parseFlags cl = some o → o.goSlice.printVersion = false → PrintFits ext.tan o ∧
      ∀ content, w.files o.goSlice.inputFilePath = some content → MeshSmall ((ext.stl content).map stlTriangleToFace)) :
    (mainM ext cl w).2 = (main ext cl w).2 ∧ (mainM ext cl w).1.files = (main ext cl w).1.files := by
  cases h : parseFlags cl with
  | none =>
    unfold mainM main
    rw [h]
    exact ⟨rfl, rfl⟩
  | some o =>
    cases hv : o.goSlice.printVersion with
    | true =>
      unfold mainM main
      rw [h]
      simp only [hv, if_true]
      exact ⟨trivial, trivial⟩
    | false =>
      by_cases hp : o.goSlice.inputFilePath = []
      · unfold mainM main
        rw [h]
        simp only [hv, hp, if_true, Bool.false_eq_true, if_false]
        exact ⟨trivial, trivial⟩
      · obtain ⟨h1, h2⟩ := ho o h hv
        obtain ⟨e1, e2⟩ := C127_program ext o w hl hopen htrig h1 h2
        rw [mainM_process ext cl w o h hv hp, main_process ext cl w o h hv hp]
        exact ⟨by rw [e1], e2⟩

/-- **C144** The arguments are words as in C142 without the version, with a path, and the options they stand for (C93) are usual. The model in the file, with the triangles `gap` if they
are missing, is a body. Then the command, with 64 bit integers, ends with status 0, and its output file contains a text whose moves print the complete body and its support. -/
theorem C144_command (ext : Externals) {ws : List Word} (hws : ∀ w ∈ ws, w.Valid) {path : Str} (hpath : (ws.flatMap Word.paths).head? = some path) (hne : path ≠ [])
    (hread : ∀ n t, (n, t) ∈ ws.flatMap Word.settings → ∃ name v v', n = String.toList name ∧ optionOf {} name = some v ∧ SameType v v' ∧ ReadsAs t v')
    (hversion : lastText (ws.flatMap Word.settings) "version".toList = none)
    {tol : ℚ} (h0 : 0 ≤ tol) (hlib : GoodLibrary ext.lib tol) (htrig : TurnsBack ext.trig) (w : World) {content : Str} (hfile : w.files path = some content) :
    ∃ o : Options, (∀ n, lastText (ws.flatMap Word.settings) n.toList = none → optionOf o n = defaultOf n) ∧
      (∀ n t, lastText (ws.flatMap Word.settings) n.toList = some t → ∃ v, optionOf o n = some v ∧ ReadsAs t v) ∧ o.goSlice.inputFilePath = path ∧
      ∀ (gap m : Mesh) (lo hi : Vec3), m = (ext.stl content).map stlTriangleToFace → UsualOptions o → PrintFits ext.tan o →
        2 ≤ o.slicing.joinPolygonSnapDistance → o.slicing.joinPolygonSnapDistance < 2 ^ 26 → MeshSmall m → IsSheet o.slicing.meldDistance m → IsBox (vertices m) lo hi →
        SmallBody o.printer.center lo hi → o.print.initialLayerThickness ≤ hi.z - lo.z →
        ∃ t om sliced top, gcodeOf ext o content = .ok t ∧ optimize o m = .ok om ∧ slice ext.lib o om = .ok sliced ∧
          layerHeight o top ≤ hi.z - lo.z ∧ hi.z - lo.z < layerHeight o (top + 1) ∧
          (w.creatable (outFile o.goSlice) = true → t.length ≤ w.space →
            (mainM ext (splitArgs (ws.flatMap Word.texts)) w).2 = 0 ∧ (mainM ext (splitArgs (ws.flatMap Word.texts)) w).1.files (outFile o.goSlice) = some t) ∧
          ∃ body mc moves, t = startText o ++ body ++ endText o ∧ run body = some (mc, moves) ∧
            EndIn ((modelArea o.printer.center lo hi).grow (printMargin o)) moves ∧
            (∀ n, (∀ l ∈ sliced, wallCount ext.lib o l.parts ≤ n) → (5 + n) * tol ≤ 9 * 10 ^ 4 →
              PrintsWhere (GoodGap o (placedBody o.printer.center lo hi gap) (placedBody o.printer.center lo hi m)) o (placedBody o.printer.center lo hi (gap ++ m)) tol n top moves) ∧
            (o.print.support.enabled = true → tol ≤ 10 ^ 4 → o.print.layerThickness * |ext.tan| ≤ (2 : ℚ) ^ 44 →
              -900000 ≤ ((modelArea o.printer.center lo hi).grow (supportMargin o)).minX ∧ ((modelArea o.printer.center lo hi).grow (supportMargin o)).maxX ≤ 900000 ∧
              -900000 ≤ ((modelArea o.printer.center lo hi).grow (supportMargin o)).minY ∧ ((modelArea o.printer.center lo hi).grow (supportMargin o)).maxY ≤ 900000 →
              PrintsSupportWhere (GoodGap o (placedBody o.printer.center lo hi gap) (placedBody o.printer.center lo hi m)) o (placedBody o.printer.center lo hi (gap ++ m)) ext.tan tol top moves) := by
  obtain ⟨o, ho⟩ := C93_accepts { settings := ws.flatMap Word.settings, args := ws.flatMap Word.paths } rfl hread
  have hopt := C93_options _ o ho
  have hin : o.goSlice.inputFilePath = path := by
    rw [hopt.2.2, List.headD_eq_head?_getD, hpath]
    rfl
  have hv : o.goSlice.printVersion = false := by
    have := C93_defaults _ o ho "version" hversion
    exact OptionValue.bool.inj (Option.some.inj this)
  refine ⟨o, fun n hn => C93_defaults _ o ho n hn, hopt.2.1, hin, fun gap m lo hi hm husual hfit hj1 hj2 hmesh hsheet hbox hsmall hheight => ?_⟩
  have harea : ((modelArea o.printer.center lo hi).grow (supportMargin o)).Small := by
    have h1 := hsmall.minX
    have h2 := hsmall.maxX
    have h3 := hsmall.minY
    have h4 := hsmall.maxY
    have h5 : supportMargin o ≤ printMargin o := by unfold printMargin; omega
    have h6 := hfit.margin
    unfold Rect.Small Rect.grow
    simp only
    omega
  obtain ⟨t, om, sliced, top, h1, h2, h3, -, h5, h6, body, mc, moves, h7, h8, h9, h10⟩ := C140_program ext o content h0 hlib htrig husual hj1 hj2 gap m hm hsheet hbox hsmall harea hheight
  refine ⟨t, om, sliced, top, h1, h2, h3, h5, h6, fun hcr hsp => ?_, body, mc, moves, h7, h8, h9, h10, fun hen htol htan hbed => ?_⟩
  case refine_2 =>
    obtain ⟨body', mc', moves', e1, e2, e3⟩ := C140_support ext o content h0 htol hlib htrig husual hj1 hj2 gap m hm hsheet hbox hsmall hheight hen
      ⟨hfit.options.thickness.2, htan, hfit.options.spacing.2.trans (by norm_num), hfit.options.gap.trans (by norm_num)⟩ hbed h1 h5 h6
    rw [h7] at e1
    obtain rfl := body_unique e1
    rw [h8, Option.some.injEq, Prod.mk.injEq] at e2
    rw [e2.2]
    exact e3
  rw [← hin] at hfile
  obtain ⟨t', ht', hdone⟩ := C90_succeeds ext o w content husual.sensible hlib.never hlib.lines hfile m hm hsheet.nonempty hsheet.proper hsheet.separated hsheet.noGap (.inl (by
    have hth := husual.sensible.thickness
    obtain ⟨-, -, -, -, ⟨p, hp, ep⟩, q, hq, eq⟩ := hbox.reached
    exact ⟨q, hq, p, hp, by omega⟩))
  rw [h1] at ht'
  cases ht'
  obtain ⟨d1, d2⟩ := hdone hcr hsp
  rw [C142_words hws]
  obtain ⟨e1, e2⟩ := C144_same ext { settings := ws.flatMap Word.settings, args := ws.flatMap Word.paths } w hlib.area hlib.lines htrig (fun o' ho' _ => by
    rw [ho] at ho'
    cases ho'
    exact ⟨hfit, fun c hc => by
      rw [hfile] at hc
      cases hc
      rw [← hm]
      exact hmesh⟩)
  rw [e1, e2, main_process ext _ w o ho hv (by rw [hin]; exact hne)]
  exact ⟨if_pos d1, d2⟩

theorem lastText_other {a b t : Str} (h : a ≠ b) : lastText [(a, t)] b = none := by
  unfold lastText
  rw [List.filter_cons_of_neg (by simpa using h)]
  rfl

/-- The words of `goslice --support-enabled=false roof.stl`. -/
def roofWords : List Word := [.equals "support-enabled" "false".toList, .path "roof.stl".toList]

theorem roofWords_texts : roofWords.flatMap Word.texts = ["--support-enabled=false".toList, "roof.stl".toList] := rfl

/-- Non-vacuity of `C144_command` and `C144_same`: the pyramid without two triangles. -/
example : ∃ (w : World) (t body : Str) (mc : Machine) (moves : List Move),
    (mainM roofExt (splitArgs ["--support-enabled=false".toList, "roof.stl".toList]) w).2 = 0 ∧
    (mainM roofExt (splitArgs ["--support-enabled=false".toList, "roof.stl".toList]) w).1.files "roof.stl.gcode".toList = some t ∧
    t = startText {} ++ body ++ endText {} ∧ run body = some (mc, moves) ∧ EndIn ((modelArea ⟨100000, 100000, 0⟩ ⟨0, 0, 0⟩ ⟨20000, 20000, 1000⟩).grow 8701) moves := by
  have key := fun n : Nat => C144_command roofExt (ws := roofWords) (path := "roof.stl".toList) (by
      intro w hw
      simp only [roofWords, List.mem_cons, List.not_mem_nil, or_false] at hw
      rcases hw with rfl | rfl
      · simp [Word.Valid, optionOf]
      · exact .inr (by decide)) rfl (by decide) (by
      intro n t h
      have h : (n, t) ∈ [("support-enabled".toList, "false".toList)] := h
      obtain ⟨rfl, rfl⟩ := Prod.mk.inj (List.mem_singleton.1 h)
      exact ⟨"support-enabled", _, .bool false, rfl, rfl, trivial, by unfold ReadsAs BoolText; decide +kernel⟩) (by decide +kernel)
    (tol := 2) (by norm_num) square_good turns_never { files := fun _ => some [], space := n } (content := []) rfl
  have hopt : ∀ o : Options, (∀ n, lastText (roofWords.flatMap Word.settings) n.toList = none → optionOf o n = defaultOf n) →
      (∀ n t, lastText (roofWords.flatMap Word.settings) n.toList = some t → ∃ v, optionOf o n = some v ∧ ReadsAs t v) → o.goSlice.inputFilePath = "roof.stl".toList →
      o = pathOptions "roof.stl".toList := by
    intro o h1 h2 h3
    refine C93_complete _ _ (fun n => ?_) h3
    by_cases hn : n = "support-enabled"
    · subst hn
      obtain ⟨v, hv, hr⟩ := h2 "support-enabled" "false".toList (by decide +kernel)
      have : v = .bool o.print.support.enabled := (Option.some.inj hv).symm
      subst this
      have hb : BoolText "false".toList o.print.support.enabled := hr
      cases he : o.print.support.enabled with
      | false => rw [hv, he]; rfl
      | true =>
        rw [he] at hb
        exact absurd hb (by unfold BoolText; decide +kernel)
    · rw [h1 n (lastText_other fun h => hn (String.toList_inj.1 h).symm)]
      have := C93_defaults { args := ["roof.stl".toList] } (pathOptions "roof.stl".toList) (parseFlags_path _) n rfl
      rw [this]
  have main : ∀ n : Nat, ∃ t body mc moves, gcodeOf roofExt (pathOptions "roof.stl".toList) [] = .ok t ∧
      (t.length ≤ n → (mainM roofExt (splitArgs (roofWords.flatMap Word.texts)) { files := fun _ => some [], space := n }).2 = 0 ∧
        (mainM roofExt (splitArgs (roofWords.flatMap Word.texts)) { files := fun _ => some [], space := n }).1.files "roof.stl.gcode".toList = some t) ∧
      t = startText {} ++ body ++ endText {} ∧ run body = some (mc, moves) ∧ EndIn ((modelArea ⟨100000, 100000, 0⟩ ⟨0, 0, 0⟩ ⟨20000, 20000, 1000⟩).grow 8701) moves := by
    intro n
    obtain ⟨o, h1, h2, h3, h⟩ := key n
    obtain rfl := hopt o h1 h2 h3
    obtain ⟨t, om, sliced, top, e1, -, -, -, -, e6, body, mc, moves, e7, e8, e9, -⟩ := h roofMissing (roof 500) ⟨0, 0, 0⟩ ⟨20000, 20000, 1000⟩ roof_stl.symm (usual_default _)
      (fits_default _ (by show |(1 : ℚ)| ≤ 2 ^ 20; norm_num)) (by decide) (by decide) ⟨by unfold VecIn; decide +kernel, by decide +kernel⟩ roof_sheet roof_box
      ⟨by decide, by decide, by decide, by decide, by decide⟩ (by decide)
    refine ⟨t, body, mc, moves, e1, fun hn => e6 rfl hn, e7, e8, ?_⟩
    have : printMargin {} = 8701 := by decide +kernel
    rw [← this]
    exact e9
  obtain ⟨t, -, -, -, ht, -⟩ := main 0
  obtain ⟨t', body, mc, moves, ht', h1, h2⟩ := main t.length
  rw [ht] at ht'
  cases ht'
  exact ⟨_, t, body, mc, moves, (h1 le_rfl).1, (h1 le_rfl).2, h2⟩

end Verif
