import Verif.Props.Args

/-! # C143: several runs of the command -/
namespace Verif
open Verif.Go Verif.Model Verif.Spec

/-- Nothing outside of the program is different. -/
def SameOutside (w v : World) : Prop := w.files = v.files ∧ w.creatable = v.creatable ∧ w.space = v.space

/-- The files after a run, and whether it succeeds. -/
theorem goSlice_outside (ext : Externals) (o : Options) (w : World) :
    (goSlice ext o w).1.creatable = w.creatable ∧ (goSlice ext o w).1.space = w.space ∧
    ((goSlice ext o w).1.files, (goSlice ext o w).2) =
      match w.files o.goSlice.inputFilePath with
      | none => (w.files, .error (.err "file does not exist"))
      | some content =>
        match gcodeOf ext o content with
        | .error e => (w.files, .error e)
        | .ok t =>
          if w.creatable (outFile o.goSlice) = true then
            (fun p => if p = outFile o.goSlice then some (t.take w.space) else w.files p, if t.length ≤ w.space then .ok () else .error (.err "write failed"))
          else (w.files, .error (.err "file cannot be created")) := by
  simp only [goSlice, process, standardHandlers, Act.andThen, readModel]
  cases h : w.files o.goSlice.inputFilePath with
  | none => exact ⟨rfl, rfl, rfl⟩
  | some content =>
    simp only [gcodeOf, pureAct, runModifiers_pure, bind, Except.bind]
    cases describeMesh ((ext.stl content).map stlTriangleToFace) with
    | error e => exact ⟨rfl, rfl, rfl⟩
    | ok _ =>
      dsimp only
      cases optimize o ((ext.stl content).map stlTriangleToFace) with
      | error e => exact ⟨rfl, rfl, rfl⟩
      | ok om =>
        dsimp only
        cases slice ext.lib o om with
        | error e => exact ⟨rfl, rfl, rfl⟩
        | ok ls =>
          dsimp only
          cases (standardModifiers ext.lib ext.tan o).foldlM (fun ls m => m ls) ls with
          | error e => exact ⟨rfl, rfl, rfl⟩
          | ok ls' =>
            dsimp only
            cases initPatterns ext.lib ext.trig o om with
            | error e => exact ⟨rfl, rfl, rfl⟩
            | ok p =>
              dsimp only
              rcases (generateScripts ext.lib.isCrossingPerimeter o (standardRenderers ext.lib o p) ls'
                (newBuilder o.filament.filamentDiameter o.filament.extrusionMultiplier)).2 with ⟨t, _ | e⟩
              · dsimp only
                rw [outputPath_eq, writeFile]
                dsimp only
                by_cases hc : w.creatable (outFile o.goSlice) = true
                · simp only [if_pos hc, true_and]
                · simp only [if_neg hc, true_and]
              · exact ⟨rfl, rfl, rfl⟩

/-- The command: the same. -/
theorem main_outside (ext : Externals) (cl : CommandLine) (w : World) :
    (main ext cl w = (w, 2) ∧ parseFlags cl = none) ∨ (∃ o, parseFlags cl = some o ∧ main ext cl w = (w, if o.goSlice.printVersion = true then 0 else 1) ∧
      (o.goSlice.printVersion = true ∨ o.goSlice.inputFilePath = [])) ∨
    ∃ o, parseFlags cl = some o ∧ o.goSlice.printVersion = false ∧ o.goSlice.inputFilePath ≠ [] ∧
      main ext cl w = ((goSlice ext o w).1, if (goSlice ext o w).2 = .ok () then 0 else 2) := by
  cases h : parseFlags cl with
  | none => exact .inl ⟨C92_refused ext cl w h, rfl⟩
  | some o =>
    refine .inr ?_
    cases hv : o.goSlice.printVersion with
    | true =>
      refine .inl ⟨o, rfl, ?_, .inl hv⟩
      unfold main
      rw [h]
      simp only [hv, if_true]
    | false =>
      by_cases hp : o.goSlice.inputFilePath = []
      · refine .inl ⟨o, rfl, ?_, .inr hp⟩
        unfold main
        rw [h]
        simp only [hv, hp, if_true, Bool.false_eq_true, if_false]
      · exact .inr ⟨o, rfl, hv, hp, main_process ext cl w o h hv hp⟩

/-- The files after a run, with the text which is written. -/
theorem goSlice_step (ext : Externals) (o : Options) (w : World) :
    ∃ r : Option Str, ∀ v : World, v.files o.goSlice.inputFilePath = w.files o.goSlice.inputFilePath → v.creatable (outFile o.goSlice) = w.creatable (outFile o.goSlice) → v.space = w.space →
      (goSlice ext o v).2 = (goSlice ext o w).2 ∧
      (goSlice ext o v).1.files = fun p => if p = outFile o.goSlice then r.or (v.files p) else v.files p := by
  have h := fun v => (goSlice_outside ext o v).2.2
  cases hi : w.files o.goSlice.inputFilePath with
  | none =>
    refine ⟨none, fun v h1 h2 h3 => ?_⟩
    have hw := h w
    have hv := h v
    rw [hi] at hw
    rw [h1] at hv
    exact ⟨by rw [(Prod.mk.inj hv).2, (Prod.mk.inj hw).2], by rw [(Prod.mk.inj hv).1]; funext p; simp⟩
  | some content =>
    cases hg : gcodeOf ext o content with
    | error e =>
      refine ⟨none, fun v h1 h2 h3 => ?_⟩
      have hw := h w
      have hv := h v
      rw [hi] at hw
      rw [h1] at hv
      simp only [hg] at hw hv
      exact ⟨by rw [(Prod.mk.inj hv).2, (Prod.mk.inj hw).2], by rw [(Prod.mk.inj hv).1]; funext p; simp⟩
    | ok t =>
      by_cases hc : w.creatable (outFile o.goSlice) = true
      · refine ⟨some (t.take w.space), fun v h1 h2 h3 => ?_⟩
        have hw := h w
        have hv := h v
        rw [hi] at hw
        rw [h1] at hv
        simp only [hg, h2, h3, if_pos hc] at hw hv
        exact ⟨by rw [(Prod.mk.inj hv).2, (Prod.mk.inj hw).2], by rw [(Prod.mk.inj hv).1]; funext p; simp⟩
      · refine ⟨none, fun v h1 h2 h3 => ?_⟩
        have hw := h w
        have hv := h v
        rw [hi] at hw
        rw [h1] at hv
        simp only [hg, h2, h3, if_neg hc] at hw hv
        exact ⟨by rw [(Prod.mk.inj hv).2, (Prod.mk.inj hw).2], by rw [(Prod.mk.inj hv).1]; funext p; simp⟩

/-- **C143** What a run writes depends only on the options, on the model file, and on whether the output can be written: not on other files or on what earlier runs of the
same program left in memory (the patterns). -/
theorem C143_depends (ext : Externals) (o : Options) (w v : World) (hi : w.files o.goSlice.inputFilePath = v.files o.goSlice.inputFilePath)
    (hc : w.creatable (outFile o.goSlice) = v.creatable (outFile o.goSlice)) (hs : w.space = v.space) (h : (goSlice ext o w).2 = .ok ()) :
    (goSlice ext o v).2 = .ok () ∧ (goSlice ext o w).1.files (outFile o.goSlice) = (goSlice ext o v).1.files (outFile o.goSlice) := by
  obtain ⟨r, hr⟩ := goSlice_step ext o w
  have h1 := (hr v hi.symm hc.symm hs.symm).1.symm
  refine ⟨by rw [← h1, h], ?_⟩
  obtain ⟨c, t, e1, e2, e3⟩ := C71_written ext o w h
  obtain ⟨c', t', e1', e2', e3'⟩ := C71_written ext o v (by rw [← h1, h])
  rw [e3, e3']
  rw [← hi, e1] at e1'
  cases e1'
  rw [e2] at e2'
  cases e2'
  simp

/-- The tetrahedron: patterns left by other runs do not matter. -/
example : ∃ (n : Nat) (t : Str), ∀ p : Patterns, (goSlice cornerExt {} { files := fun _ => some [], space := n, patterns := p }).2 = .ok () ∧
    (goSlice cornerExt {} { files := fun _ => some [], space := n, patterns := p }).1.files (outFile {}) = some t := by
  have hm : cornerMesh = (cornerExt.stl []).map stlTriangleToFace := by decide +kernel
  have key := fun n : Nat => C90_succeeds cornerExt {} { files := fun _ => some [], space := n } [] sensible_default (fun _ _ _ => rfl) trivial_open rfl cornerMesh hm
    (by decide) (by decide) (by unfold Separated; decide +kernel) corner_noGap (.inr rfl)
  obtain ⟨t, ht, -⟩ := key 0
  obtain ⟨t', ht', h⟩ := key t.length
  rw [ht] at ht'
  cases ht'
  obtain ⟨h1, h2⟩ := h rfl le_rfl
  refine ⟨t.length, t, fun p => ?_⟩
  obtain ⟨a, b⟩ := C143_depends cornerExt {} { files := fun _ => some [], space := t.length } { files := fun _ => some [], space := t.length, patterns := p } rfl rfl rfl h1
  exact ⟨a, by rw [show ({} : GoSliceOptions) = ({} : Options).goSlice from rfl, ← b]; exact h2⟩

/-- **C143** A run with the same options changes nothing if it follows one, unless the output is the model file. -/
theorem C143_again (ext : Externals) (cl : CommandLine) (w : World) (h : ∀ o, parseFlags cl = some o → outFile o.goSlice ≠ o.goSlice.inputFilePath) :
    (main ext cl (main ext cl w).1).2 = (main ext cl w).2 ∧ SameOutside (main ext cl (main ext cl w).1).1 (main ext cl w).1 := by
  rcases main_outside ext cl w with ⟨e, hn⟩ | ⟨o, ho, e, hv⟩ | ⟨o, ho, hv, hp, e⟩
  · rw [e, e]
    exact ⟨rfl, rfl, rfl, rfl⟩
  · rw [e]
    dsimp only
    rw [e]
    exact ⟨rfl, rfl, rfl, rfl⟩
  · rw [e]
    dsimp only
    rw [main_process ext cl _ o ho hv hp]
    dsimp only
    obtain ⟨a1, a2, a3⟩ := goSlice_outside ext o w
    obtain ⟨b1, b2, b3⟩ := goSlice_outside ext o (goSlice ext o w).1
    have hin := (C71_frame ext o w).1 o.goSlice.inputFilePath (Ne.symm (h o ho))
    rw [hin, a1, a2] at b3
    rw [a1] at b1
    rw [a2] at b2
    have key : ((goSlice ext o (goSlice ext o w).1).1.files, (goSlice ext o (goSlice ext o w).1).2) = ((goSlice ext o w).1.files, (goSlice ext o w).2) := by
      rw [b3, a3]
      generalize hf : (goSlice ext o w).1.files = f at *
      generalize (goSlice ext o w).2 = r at *
      split
      · rename_i hc
        simp only [hc] at a3
        rw [← (Prod.mk.inj a3).1]
      · rename_i content hc
        simp only [hc] at a3
        split
        · rename_i he
          simp only [he] at a3
          rw [← (Prod.mk.inj a3).1]
        · rename_i he
          simp only [he] at a3
          split
          · rename_i hcr
            rw [if_pos hcr] at a3
            rw [(Prod.mk.inj a3).1]
            refine Prod.ext (funext fun p => ?_) rfl
            dsimp only
            split <;> rfl
          · rename_i hcr
            rw [if_neg hcr] at a3
            rw [← (Prod.mk.inj a3).1]
    obtain ⟨k1, k2⟩ := Prod.mk.inj key
    rw [k2]
    exact ⟨rfl, k1, by rw [b1, a1], by rw [b2, a2]⟩

/-- **C143** Without the flag `output` the output is never the model file. -/
theorem C143_default (cl : CommandLine) (h : lastText cl.settings "output".toList = none) (o : Options) (ho : parseFlags cl = some o) :
    outFile o.goSlice ≠ o.goSlice.inputFilePath := by
  have h1 : optionOf o "output" = optionOf {} "output" := (C93_options cl o ho).1 "output" h
  have h2 : o.goSlice.outputFilePath = [] := OptionValue.string.inj (Option.some.inj h1)
  unfold outFile
  rw [h2]
  dsimp only
  intro e
  have := congrArg List.length e
  simp at this

example (ext : Externals) (w : World) : (main ext { args := ["m.stl".toList] } (main ext { args := ["m.stl".toList] } w).1).2 = (main ext { args := ["m.stl".toList] } w).2 :=
  (C143_again ext _ w fun o ho => C143_default _ rfl o ho).1

/-- **C143** If the flag `output` names the model file, then the model is lost after a successful run: the file contains the G-code, and the next run takes this as model. -/
theorem C143_overwritten (ext : Externals) (cl : CommandLine) (w : World) (o : Options) (ho : parseFlags cl = some o) (hv : o.goSlice.printVersion = false)
    (hp : o.goSlice.inputFilePath ≠ []) (hout : o.goSlice.outputFilePath = o.goSlice.inputFilePath) (h : (main ext cl w).2 = 0) :
    ∃ content t, w.files o.goSlice.inputFilePath = some content ∧ gcodeOf ext o content = .ok t ∧ (main ext cl w).1.files o.goSlice.inputFilePath = some t ∧
      ((main ext cl (main ext cl w).1).2 = 0 → ∃ t', gcodeOf ext o t = .ok t' ∧ (main ext cl (main ext cl w).1).1.files o.goSlice.inputFilePath = some t') := by
  have he : outFile o.goSlice = o.goSlice.inputFilePath := by
    unfold outFile
    rw [hout]
    cases hc : o.goSlice.inputFilePath with
    | nil => exact absurd hc hp
    | cons c s => rfl
  have step : ∀ v : World, (main ext cl v).2 = 0 → ∃ content t, v.files o.goSlice.inputFilePath = some content ∧ gcodeOf ext o content = .ok t ∧
      (main ext cl v).1.files o.goSlice.inputFilePath = some t := by
    intro v h0
    rw [main_process ext cl v o ho hv hp] at h0 ⊢
    have hok : (goSlice ext o v).2 = .ok () := by
      by_contra hn
      simp only [if_neg hn] at h0
      cases h0
    obtain ⟨content, t, h1, h2, h3⟩ := C71_written ext o v hok
    exact ⟨content, t, h1, h2, by dsimp only; rw [h3, he]; simp⟩
  obtain ⟨content, t, h1, h2, h3⟩ := step w h
  refine ⟨content, t, h1, h2, h3, fun h0 => ?_⟩
  obtain ⟨content', t', e1, e2, e3⟩ := step _ h0
  rw [h3] at e1
  cases e1
  exact ⟨t', e2, e3⟩

theorem corner_apart : Separated 30 cornerMesh := by
  unfold Separated
  decide +kernel

/-- The options of `goslice --output path path`. -/
theorem overwriting_flags (path : Str) : parseFlags { settings := [("output".toList, path)], args := [path] } =
    some { goSlice := { inputFilePath := path, outputFilePath := path } } := rfl

/-- `goslice --output path path` destroys the tetrahedron. -/
example (path : Str) (hpath : path ≠ []) : ∃ (w : World) (content t : Str), w.files path = some content ∧ content ≠ t ∧
    (main cornerExt { settings := [("output".toList, path)], args := [path] } w).1.files path = some t := by
  have hm : cornerMesh = (cornerExt.stl []).map stlTriangleToFace := by decide +kernel
  have ho : Sensible { goSlice := { inputFilePath := path, outputFilePath := path } } := by
    obtain ⟨h1, h2, h3, h4, h5, h6, h7, h8, h9⟩ := sensible_default
    exact ⟨h1, h2, h3, h4, h5, h6, h7, h8, h9⟩
  have key := fun (c : Str) (n : Nat) => C90_succeeds cornerExt { goSlice := { inputFilePath := path, outputFilePath := path } }
    { files := fun _ => some c, space := n } c ho (fun _ _ _ => rfl) trivial_open rfl cornerMesh hm
    (by decide) (by decide) corner_apart corner_noGap (.inr rfl)
  obtain ⟨t, ht, -⟩ := key [] 0
  obtain ⟨t', ht', h⟩ := key ('!' :: t) t.length
  have : gcodeOf cornerExt { goSlice := { inputFilePath := path, outputFilePath := path } } ('!' :: t) = .ok t := by
    rw [← ht]
    unfold gcodeOf
    rw [show cornerExt.stl ('!' :: t) = cornerExt.stl [] from rfl]
  rw [this] at ht'
  cases ht'
  obtain ⟨h1, h2⟩ := h rfl le_rfl
  have hflags := overwriting_flags path
  have hmain := main_process cornerExt _ { files := fun _ => some ('!' :: t), space := t.length } _ hflags rfl hpath
  obtain ⟨c, t', e1, e2, e3, -⟩ := C143_overwritten cornerExt _ { files := fun _ => some ('!' :: t), space := t.length } _ hflags rfl hpath rfl
    (by rw [hmain]; exact if_pos h1)
  cases e1
  rw [this] at e2
  cases e2
  exact ⟨_, '!' :: t, t, rfl, fun h => by simpa using congrArg List.length h, e3⟩

/-- **C143** The order of two runs does not matter if neither writes the model or the output of the other. -/
theorem C143_independent (ext ext' : Externals) (o o' : Options) (w : World) (h1 : outFile o.goSlice ≠ o'.goSlice.inputFilePath)
    (h2 : outFile o'.goSlice ≠ o.goSlice.inputFilePath) (h3 : outFile o.goSlice ≠ outFile o'.goSlice) :
    (goSlice ext' o' (goSlice ext o w).1).2 = (goSlice ext' o' w).2 ∧ (goSlice ext o (goSlice ext' o' w).1).2 = (goSlice ext o w).2 ∧
    SameOutside (goSlice ext' o' (goSlice ext o w).1).1 (goSlice ext o (goSlice ext' o' w).1).1 := by
  obtain ⟨r, hr⟩ := goSlice_step ext o w
  obtain ⟨r', hr'⟩ := goSlice_step ext' o' w
  obtain ⟨a1, a2, -⟩ := goSlice_outside ext o w
  obtain ⟨b1, b2, -⟩ := goSlice_outside ext' o' w
  obtain ⟨c1, c2, -⟩ := goSlice_outside ext' o' (goSlice ext o w).1
  obtain ⟨d1, d2, -⟩ := goSlice_outside ext o (goSlice ext' o' w).1
  obtain ⟨-, f1⟩ := hr w rfl rfl rfl
  obtain ⟨-, f2⟩ := hr' w rfl rfl rfl
  obtain ⟨e1, g1⟩ := hr' (goSlice ext o w).1 (by rw [f1]; exact if_neg (Ne.symm h1)) (by rw [a1]) a2
  obtain ⟨e2, g2⟩ := hr (goSlice ext' o' w).1 (by rw [f2]; exact if_neg (Ne.symm h2)) (by rw [b1]) b2
  refine ⟨e1, e2, ?_, by rw [c1, a1, d1, b1], by rw [c2, a2, d2, b2]⟩
  rw [g1, g2, f1, f2]
  funext p
  by_cases hp : p = outFile o.goSlice
  · subst hp
    simp [h3]
  · by_cases hp' : p = outFile o'.goSlice
    · subst hp'
      simp [Ne.symm h3]
    · simp [hp, hp']

example (ext : Externals) (w : World) : SameOutside
    (goSlice ext { goSlice := { inputFilePath := "b.stl".toList } } (goSlice ext { goSlice := { inputFilePath := "a.stl".toList } } w).1).1
    (goSlice ext { goSlice := { inputFilePath := "a.stl".toList } } (goSlice ext { goSlice := { inputFilePath := "b.stl".toList } } w).1).1 :=
  (C143_independent ext ext _ _ w (by decide) (by decide) (by decide)).2.2

end Verif
