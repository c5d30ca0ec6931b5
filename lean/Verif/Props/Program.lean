import Verif.Props.Process
import Verif.Props.Print
import Verif.Props.Patterns
import Verif.Props.Support
import Verif.Props.Slice

/-! # C71, C72, C89, C90: the program with the built in handlers -/
namespace Verif
open Verif.Go Verif.Model Verif.Spec

/-- The G-code which the program makes from the content of a file, without effects. -/
def gcodeOf (ext : Externals) (o : Options) (content : Str) : Res Str := do
  let m := (ext.stl content).map stlTriangleToFace
  describeMesh m
  let om ← optimize o m
  let ls ← slice ext.lib o om
  let ls ← (standardModifiers ext.lib ext.tan o).foldlM (fun ls m => m ls) ls
  let pt ← initPatterns ext.lib ext.trig o om
  match (generateScripts ext.lib.isCrossingPerimeter o (standardRenderers ext.lib o pt) ls
      (newBuilder o.filament.filamentDiameter o.filament.extrusionMultiplier)).2 with
  | (_, some e) => .error e
  | (t, none) => .ok t

theorem runModifiers_pure (om : OptModel) (ms : List (List Layer → Res (List Layer))) : ∀ (ls : List Layer) (w : World),
    runModifiers om (ms.map fun m => { init := fun _ => pureAct (.ok ()), modify := fun ls => pureAct (m ls) }) ls w =
      (w, ms.foldlM (fun ls m => m ls) ls) := by
  induction ms with
  | nil => intro ls w; rfl
  | cons m ms ih =>
    intro ls w
    rw [List.map_cons, List.foldlM_cons]
    simp only [runModifiers, Act.andThen, pureAct]
    cases m ls with
    | error e => rfl
    | ok ls' => exact ih ls' w

/-- The program reads the input, and writes the G-code made from its content, or does nothing to the files. -/
theorem goSlice_eq (ext : Externals) (o : Options) (w : World) :
    (w.files o.goSlice.inputFilePath = none → goSlice ext o w = (w, .error (.err "file does not exist"))) ∧
    ∀ content, w.files o.goSlice.inputFilePath = some content →
      (∀ e, gcodeOf ext o content = .error e → ∃ w', w'.files = w.files ∧ goSlice ext o w = (w', .error e)) ∧
      ∀ t, gcodeOf ext o content = .ok t → ∃ w', w'.files = w.files ∧ w'.creatable = w.creatable ∧ w'.space = w.space ∧
        goSlice ext o w = writeFile t (outputPath o.goSlice) w' := by
  refine ⟨fun h => ?_, fun content h => ?_⟩
  · simp only [goSlice, process, standardHandlers, Act.andThen, readModel, h]
  · simp only [goSlice, process, standardHandlers, Act.andThen, readModel, h, gcodeOf, pureAct, runModifiers_pure, bind, Except.bind]
    cases describeMesh ((ext.stl content).map stlTriangleToFace) with
    | error e => exact ⟨fun e' he => ⟨w, rfl, by cases he; rfl⟩, fun t ht => nomatch ht⟩
    | ok _ =>
      dsimp only
      cases optimize o ((ext.stl content).map stlTriangleToFace) with
      | error e => exact ⟨fun e' he => ⟨w, rfl, by cases he; rfl⟩, fun t ht => nomatch ht⟩
      | ok om =>
        dsimp only
        cases slice ext.lib o om with
        | error e => exact ⟨fun e' he => ⟨w, rfl, by cases he; rfl⟩, fun t ht => nomatch ht⟩
        | ok ls =>
          dsimp only
          cases (standardModifiers ext.lib ext.tan o).foldlM (fun ls m => m ls) ls with
          | error e => exact ⟨fun e' he => ⟨w, rfl, by cases he; rfl⟩, fun t ht => nomatch ht⟩
          | ok ls' =>
            dsimp only
            cases initPatterns ext.lib ext.trig o om with
            | error e => exact ⟨fun e' he => ⟨w, rfl, by cases he; rfl⟩, fun t ht => nomatch ht⟩
            | ok p =>
              dsimp only
              rcases (generateScripts ext.lib.isCrossingPerimeter o (standardRenderers ext.lib o p) ls'
                (newBuilder o.filament.filamentDiameter o.filament.extrusionMultiplier)).2 with ⟨t, _ | e⟩
              · exact ⟨fun e' he => (nomatch he), fun t' ht => ⟨{ w with patterns := p }, rfl, rfl, rfl, by cases ht; rfl⟩⟩
              · exact ⟨fun e' he => ⟨{ w with patterns := p }, rfl, by cases he; rfl⟩, fun t ht => nomatch ht⟩

theorem outputPath_eq (o : GoSliceOptions) : outputPath o = outFile o := by
  unfold outputPath outFile
  cases o.outputFilePath <;> rfl

/-- **C71** If the program succeeds, then the file at the output path contains exactly the G-code, and no other file has changed. -/
theorem C71_written (ext : Externals) (o : Options) (w : World) (h : (goSlice ext o w).2 = .ok ()) :
    ∃ content t, w.files o.goSlice.inputFilePath = some content ∧ gcodeOf ext o content = .ok t ∧
      (goSlice ext o w).1.files = fun p => if p = outFile o.goSlice then some t else w.files p := by
  obtain ⟨h1, h2⟩ := goSlice_eq ext o w
  cases hc : w.files o.goSlice.inputFilePath with
  | none => rw [h1 hc] at h; cases h
  | some content =>
    obtain ⟨h3, h4⟩ := h2 content hc
    cases hg : gcodeOf ext o content with
    | error e =>
      obtain ⟨w', -, he⟩ := h3 e hg
      rw [he] at h
      cases h
    | ok t =>
      obtain ⟨w', hf, hcr, hs, he⟩ := h4 t hg
      refine ⟨content, t, rfl, hg, ?_⟩
      rw [he] at h ⊢
      rw [outputPath_eq] at *
      unfold writeFile at *
      split at h
      · rename_i hcre
        rw [if_pos hcre]
        dsimp only at h ⊢
        split at h
        · rename_i hsp
          rw [List.take_of_length_le hsp, hf]
        · cases h
      · cases h

/-- **C71** Whether the program succeeds or not, no file other than the output file is changed; and also this one is not, unless all G-code was generated. -/
theorem C71_frame (ext : Externals) (o : Options) (w : World) :
    (∀ p, p ≠ outFile o.goSlice → (goSlice ext o w).1.files p = w.files p) ∧
    ((∃ content t, w.files o.goSlice.inputFilePath = some content ∧ gcodeOf ext o content = .ok t) ∨ (goSlice ext o w).1.files = w.files) := by
  obtain ⟨h1, h2⟩ := goSlice_eq ext o w
  cases hc : w.files o.goSlice.inputFilePath with
  | none => rw [h1 hc]; exact ⟨fun _ _ => rfl, .inr rfl⟩
  | some content =>
    obtain ⟨h3, h4⟩ := h2 content hc
    cases hg : gcodeOf ext o content with
    | error e =>
      obtain ⟨w', hw, he⟩ := h3 e hg
      rw [he]
      exact ⟨fun p _ => by rw [hw], .inr hw⟩
    | ok t =>
      obtain ⟨w', hf, hcr, hs, he⟩ := h4 t hg
      refine ⟨fun p hp => ?_, .inl ⟨content, t, rfl, hg⟩⟩
      rw [he, outputPath_eq]
      unfold writeFile
      split
      · dsimp only
        rw [if_neg hp, hf]
      · rw [hf]

/-- **C72** A missing file is reported as an error, and nothing is written. -/
theorem C72_missing (ext : Externals) (o : Options) (w : World) (h : w.files o.goSlice.inputFilePath = none) :
    goSlice ext o w = (w, .error (.err "file does not exist")) := (goSlice_eq ext o w).1 h

/-- **C72** (violation) A file without a readable triangle makes the program panic instead of returning an error. -/
theorem C72_no_triangles (ext : Externals) (o : Options) (w : World) (content : Str) (h : w.files o.goSlice.inputFilePath = some content)
    (hs : ext.stl content = []) : ∃ m, (goSlice ext o w).2 = .error (.panic m) := by
  have : gcodeOf ext o content = .error (.panic "index out of range") := by
    simp only [gcodeOf, hs]
    rfl
  obtain ⟨w', -, he⟩ := ((goSlice_eq ext o w).2 content h).1 _ this
  exact ⟨_, by rw [he]⟩

/-- **C72** (violation) Errors of the parser are ignored: if the readable triangles before the error are those of another file, then the program makes the same G-code (or failure)
as for that file. -/
theorem C72_parse_error (ext : Externals) (o : Options) (content content' : Str) (hs : ext.stl content = ext.stl content') :
    gcodeOf ext o content = gcodeOf ext o content' := by simp only [gcodeOf, hs]

end Verif
