import Verif.Model.DebugStl
import Verif.Props.Cleaned
import Verif.Props.Program
import Verif.Props.Reader
import Mathlib.Data.Rat.Denumerable
import Mathlib.Logic.Equiv.List

/-! # C110: the STL export -/
namespace Verif
open Verif.Go Verif.Model Verif.Spec

theorem stl_vertex {p : Vec3} (h : |p.x| < 2 ^ 22 ∧ |p.y| < 2 ^ 22 ∧ |p.z| < 2 ^ 22) :
    (⟨toMicrometer (debugVertex p).1, toMicrometer (debugVertex p).2.1, toMicrometer (debugVertex p).2.2⟩ : Vec3) = p := by
  simp only [debugVertex, C01_unit_round_trip _ h.1, C01_unit_round_trip _ h.2.1, C01_unit_round_trip _ h.2.2]

theorem debugTriangle_eq (om : OptModel) (f : OptFace) : debugTriangle om f = (om.facePoints f).map (Tri.map debugVertex) := by
  simp only [debugTriangle, OptModel.facePoints, bind, Except.bind, pure, Except.pure]
  cases index om.points (f.indices.a : Int) <;> cases index om.points (f.indices.b : Int) <;> cases index om.points (f.indices.c : Int) <;> rfl

theorem mapM_except_map {α β γ : Type} (f : α → Res β) (g : β → γ) (l : List α) : l.mapM (fun a => (f a).map g) = (l.mapM f).map (List.map g) := by
  induction l with
  | nil => rfl
  | cons a l ih =>
    simp only [List.mapM_cons, ih, bind, Except.bind, pure, Except.pure]
    cases f a <;> cases l.mapM f <;> rfl

/-- What is written for the triangles of a model. -/
theorem saved {om : OptModel} {fs : List (Tri Vec3)} (hfs : om.faces.mapM om.facePoints = .ok fs) (encode : List StlTriangle → Str) (filename : Str) (w : World) :
    saveDebugSTL encode om filename w = writeFile (encode (fs.map (Tri.map debugVertex))) filename w := by
  have e : om.faces.mapM (debugTriangle om) = .ok (fs.map (Tri.map debugVertex)) := by
    have : debugTriangle om = fun f => (om.facePoints f).map (Tri.map debugVertex) := funext (debugTriangle_eq om)
    rw [this, mapM_except_map, hfs]
    rfl
  simp only [saveDebugSTL, e]

theorem read_saved {fs : List (Tri Vec3)} (hsmall : ∀ p ∈ vertices fs, |p.x| < 2 ^ 22 ∧ |p.y| < 2 ^ 22 ∧ |p.z| < 2 ^ 22) :
    (fs.map (Tri.map debugVertex)).map stlTriangleToFace = fs := by
  rw [List.map_map]
  conv_rhs => rw [← List.map_id fs]
  apply List.map_congr_left
  intro t ht
  have hv : ∀ p ∈ t.corners, |p.x| < 2 ^ 22 ∧ |p.y| < 2 ^ 22 ∧ |p.z| < 2 ^ 22 := fun p hp => hsmall p (List.mem_flatMap.2 ⟨t, ht, hp⟩)
  simp only [Tri.corners, List.mem_cons, List.not_mem_nil, or_false, forall_eq_or_imp, forall_eq] at hv
  simp only [Function.comp, stlTriangleToFace, Tri.map, stl_vertex hv.1, stl_vertex hv.2.1, stl_vertex hv.2.2, id]

/-- **C110** Saving never panics. It changes no other file; it fails if the file cannot be created or there is not enough space. -/
theorem C110_files (encode : List StlTriangle → Str) (o : Options) (m : Mesh) (om : OptModel) (h : optimize o m = .ok om) (filename : Str) (w : World) :
    ∃ content : Str, (∀ p, p ≠ filename → (saveDebugSTL encode om filename w).1.files p = w.files p) ∧
      (w.creatable filename = false → (saveDebugSTL encode om filename w).1 = w ∧ ∃ e, (saveDebugSTL encode om filename w).2 = .error (.err e)) ∧
      (w.creatable filename = true → (saveDebugSTL encode om filename w).1.files filename = some (content.take w.space) ∧
        ((saveDebugSTL encode om filename w).2 = .ok () ↔ content.length ≤ w.space) ∧ ∀ e, (saveDebugSTL encode om filename w).2 ≠ .error (.panic e)) := by
  obtain ⟨fs, -, -, -, hfs, -⟩ := C48_faces o m om h
  refine ⟨encode (fs.map (Tri.map debugVertex)), ?_, ?_, ?_⟩
  · intro p hp
    rw [saved hfs, writeFile]
    split
    · simp only [hp, if_false]
    · rfl
  · intro hc
    rw [saved hfs, writeFile, if_neg (by simp [hc])]
    exact ⟨rfl, _, rfl⟩
  · intro hc
    rw [saved hfs, writeFile, if_pos hc]
    refine ⟨by simp only [if_true], ?_, fun e => ?_⟩
    · simp only
      split <;> simp_all
    · simp only
      split <;> simp

/-- **C110** The file has the triangles of the optimized model in their order: who reads it with a library which understands its own files gets exactly
their corners, if these are less than 4.19 m from the origin. -/
theorem C110_export (encode : List StlTriangle → Str) (stl : Str → List StlTriangle) (hstl : ∀ ts, stl (encode ts) = ts)
    (om : OptModel) (fs : List (Tri Vec3)) (hfs : om.faces.mapM om.facePoints = .ok fs)
    (hsmall : ∀ p ∈ vertices fs, |p.x| < 2 ^ 22 ∧ |p.y| < 2 ^ 22 ∧ |p.z| < 2 ^ 22) (filename : Str) (w : World)
    (hw : (saveDebugSTL encode om filename w).2 = .ok ()) :
    readModel stl filename (saveDebugSTL encode om filename w).1 = ((saveDebugSTL encode om filename w).1, .ok fs) := by
  rw [saved hfs, writeFile] at hw ⊢
  split at hw
  · next hc =>
    simp only at hw
    split at hw
    · next hs => simp only [hc, if_true, readModel, List.take_of_length_le hs, hstl, read_saved hsmall]
    · cases hw
  · cases hw

/-- **C110** The G-code for the exported file is exactly the G-code for the original one, if the size of the model is even in X and Y, its corners are
farther apart than the meld distance, and no corner belongs only to degenerate triangles. -/
theorem C110_gcode (ext : Externals) (encode : List StlTriangle → Str) (hstl : ∀ ts, ext.stl (encode ts) = ts) (o : Options) (content : Str)
    (m : Mesh) (hm : (ext.stl content).map stlTriangleToFace = m) (hs : Separated o.slicing.meldDistance m)
    (hv : ∀ v ∈ vertices m, ∃ t ∈ m, Proper t ∧ v ∈ t.corners) (om : OptModel) (h : optimize o m = .ok om)
    (hx : 2 ∣ om.size.x) (hy : 2 ∣ om.size.y) (fs : List (Tri Vec3)) (hfs : om.faces.mapM om.facePoints = .ok fs)
    (hsmall : ∀ p ∈ vertices fs, |p.x| < 2 ^ 22 ∧ |p.y| < 2 ^ 22 ∧ |p.z| < 2 ^ 22) (filename : Str) (w : World)
    (hw : (saveDebugSTL encode om filename w).2 = .ok ()) :
    ∃ exported, (saveDebugSTL encode om filename w).1.files filename = some exported ∧ gcodeOf ext o exported = gcodeOf ext o content := by
  refine ⟨encode (fs.map (Tri.map debugVertex)), ?_, ?_⟩
  · rw [saved hfs, writeFile] at hw ⊢
    split at hw
    · next hc =>
      simp only at hw
      split at hw
      · next hs => simp only [hc, if_true, List.take_of_length_le hs]
      · cases hw
    · cases hw
  · obtain ⟨om', dx, dy, h1, h2, -, -, h3, h4, h5⟩ := C109_again o m om h fs hfs hs hv
    rw [h4 hx, h5 hy] at h3
    have h3 : om'.faces.mapM om'.facePoints = .ok fs := by
      rw [h3]
      congr 1
      conv_rhs => rw [← List.map_id fs]
      apply List.map_congr_left
      intro t _
      simp [Tri.map]
    have hsame : SameModel om' om := ⟨h2, by rw [h3, hfs], touching_unique o fs m om' om h1 h fs h3 hfs⟩
    have hd : ∀ m : Mesh, m ≠ [] → describeMesh m = .ok () := by
      intro m hm
      cases m with
      | nil => exact absurd rfl hm
      | cons t m => rfl
    have hm1 : m ≠ [] := by rintro rfl; cases h
    have hm2 : fs ≠ [] := by rintro rfl; cases h1
    simp only [gcodeOf, hstl, read_saved hsmall, hm, h, h1, hd m hm1, hd fs hm2, bind, Except.bind, slice_same hsame, initPatterns_same hsame]

/-! ## Examples -/

/-- There is a way to write triangles to a file and to read them again. -/
theorem codec_exists : ∃ (encode : List StlTriangle → Str) (stl : Str → List StlTriangle), ∀ ts, stl (encode ts) = ts := by
  have : Countable StlTriangle := by
    have hi : Function.Injective fun t : StlTriangle => (t.a, t.b, t.c) := by
      rintro ⟨a, b, c⟩ ⟨a', b', c'⟩ h
      simpa using h
    have : Countable Millimeter := inferInstanceAs (Countable ℚ)
    exact hi.countable
  obtain ⟨f, hf⟩ := exists_injective_nat (List StlTriangle)
  exact ⟨fun ts => List.replicate (f ts) 'x', fun s => Function.invFun f s.length, fun ts => by
    simp only [List.length_replicate]
    exact Function.leftInverse_invFun hf ts⟩

theorem save_possible {om : OptModel} {fs : List (Tri Vec3)} (hfs : om.faces.mapM om.facePoints = .ok fs) (encode : List StlTriangle → Str) (filename : Str) :
    ∃ w : World, (saveDebugSTL encode om filename w).2 = .ok () := by
  refine ⟨{ files := fun _ => none, space := (encode (fs.map (Tri.map debugVertex))).length }, ?_⟩
  rw [saved hfs]
  simp [writeFile]

example (lib : ClipperLib) (trig : ℚ → ℚ × ℚ) (tan : ℚ) : ∃ (encode : List StlTriangle → Str) (ext : Externals) (w : World) (om : OptModel) (exported : Str),
    ext.lib = lib ∧ optimize {} messyMesh = .ok om ∧ (saveDebugSTL encode om "test.stl".toList w).1.files "test.stl".toList = some exported ∧
    gcodeOf ext {} exported = gcodeOf ext {} (encode (messyMesh.map (Tri.map debugVertex))) := by
  obtain ⟨encode, stl, hstl⟩ := codec_exists
  obtain ⟨om, hom⟩ := C87_succeeds {} messyMesh (by decide) (by decide)
  obtain ⟨lo, hi, hb, hsz, hfs⟩ := faces_of_separated hom messy_separated
  have hbox : IsBox (vertices messyMesh) ⟨0, 0, 0⟩ ⟨1000, 1000, 1000⟩ := by refine ⟨?_, ?_, ?_, ?_, ?_, ?_, ?_⟩ <;> decide +kernel
  obtain ⟨rfl, rfl⟩ := isBox_unique hbox hb
  have hsmall := read_saved (fs := messyMesh) (by decide +kernel)
  obtain ⟨w, hw⟩ := save_possible hfs encode "test.stl".toList
  obtain ⟨exported, h1, h2⟩ := C110_gcode ⟨lib, stl, trig, tan⟩ encode hstl {} (encode (messyMesh.map (Tri.map debugVertex))) messyMesh
    (by simp only [hstl]; exact hsmall) messy_separated messy_proper om hom (by rw [hsz]; decide) (by rw [hsz]; decide) _ hfs (by decide +kernel)
    "test.stl".toList w hw
  exact ⟨encode, _, w, om, exported, rfl, hom, h1, h2⟩

end Verif
