import Verif.Props.MotionPolygons

/-! # C136: movements of the model move the layers -/
namespace Verif
open Verif.Go Verif.Model Verif.Spec

section
variable (m : Motion)

/-! ## Clipping -/

theorem Spec.Motion.clipperPaths (ps : Paths) : Model.clipperPaths (ps.map m.path) = (Model.clipperPaths ps).map (List.map m.ipt) := by
  simp only [Model.clipperPaths, List.map_map]
  apply List.map_congr_left
  intro p _
  simp only [Function.comp, Model.clipperPath, Motion.path, List.map_map]
  rfl

theorem Spec.Motion.clipperPath (p : Path) : Model.clipperPath (m.path p) = (Model.clipperPath p).map m.ipt := by
  simp only [Model.clipperPath, Motion.path, List.map_map]
  rfl

theorem Spec.Motion.microPath (p : List IntPoint) : (p.map m.ipt).map microPoint = m.path (p.map microPoint) := by
  simp only [Motion.path, List.map_map]
  rfl

theorem Spec.Motion.nodes_eq (cs : List PolyNode) : m.nodes cs = cs.map m.node := by
  induction cs with
  | nil => rfl
  | cons c cs ih => rw [Motion.nodes, ih]; rfl

theorem Spec.Motion.contour (n : PolyNode) : (m.node n).contour = n.contour.map m.ipt := by
  cases n; rfl

theorem Spec.Motion.childs (n : PolyNode) : (m.node n).childs = n.childs.map m.node := by
  cases n with
  | node c cs =>
    rw [Motion.node]
    exact m.nodes_eq cs

theorem Spec.Motion.nodePart (n : PolyNode) : Model.nodePart (m.node n) = m.part (Model.nodePart n) := by
  simp only [Model.nodePart, nodeHoles, m.contour, m.childs, Motion.part, m.microPath, List.map_map, LayerPart.mk.injEq, true_and]
  apply List.map_congr_left
  intro c _
  simp only [Function.comp, m.contour, m.microPath]

theorem Spec.Motion.nextRound (ns : List PolyNode) : Model.nextRound (ns.map m.node) = (Model.nextRound ns).map m.node := by
  simp only [Model.nextRound, List.flatMap_map, List.map_flatMap, m.childs]

theorem Spec.Motion.polyRounds (ns : List PolyNode) (ps : List LayerPart) :
    Model.polyRounds (ns.map m.node) (ps.map m.part) = (Model.polyRounds ns ps).map m.part := by
  induction h : PolyNode.sizes ns using Nat.strong_induction_on generalizing ns ps with
  | _ k ih =>
    by_cases hn : ns = []
    · subst hn
      simp [Model.polyRounds]
    · have h1 := nextRound_lt ns hn
      have e := ih _ (h ▸ h1) (Model.nextRound ns) (ps ++ ns.map Model.nodePart) rfl
      have en : (ns.map m.node).map Model.nodePart = (ns.map Model.nodePart).map m.part := by
        simp only [List.map_map]
        exact List.map_congr_left fun n _ => m.nodePart n
      rw [Model.polyRounds, dif_neg (by simpa using hn)]
      conv_rhs => rw [Model.polyRounds, dif_neg hn]
      show Model.polyRounds _ _ = List.map _ (Model.polyRounds _ _)
      rw [m.nextRound, en, ← List.map_append, e]

theorem Spec.Motion.layerParts (ns : List PolyNode) : polyTreeToLayerParts (m.nodes ns) = (polyTreeToLayerParts ns).map m.part := by
  rw [m.nodes_eq]
  exact m.polyRounds ns []

theorem Spec.Motion.partPaths (p : LayerPart) : ClipperLib.partPaths (m.part p) = (ClipperLib.partPaths p).map (List.map m.ipt) := by
  simp only [ClipperLib.partPaths, Motion.part, m.clipperPaths, m.clipperPath, List.map_cons]

variable {lib : ClipperLib} (hlib : m.Respected lib)
include hlib

theorem Spec.Motion.inset1 (p : LayerPart) (d : ℚ) : lib.inset1 (m.part p) d = (lib.inset1 p d).map m.part := by
  unfold ClipperLib.inset1
  rw [← m.layerParts, ← hlib.offset, List.map_append, ← m.clipperPaths, ← m.clipperPaths]
  rfl

theorem Spec.Motion.insetLoop (p : LayerPart) (d : Micrometer) (n : Nat) : ∀ q : ℚ,
    lib.insetLoop (m.part p) d n q = (lib.insetLoop p d n q).map (List.map m.part) := by
  induction n with
  | zero => intro q; rfl
  | succ n ih =>
    intro q
    rw [ClipperLib.insetLoop, ClipperLib.insetLoop, ih, m.inset1 hlib, List.map_cons]

theorem Spec.Motion.inset (p : LayerPart) (d : Micrometer) (n : Int) (d0 : Micrometer) :
    lib.inset (m.part p) d n d0 = (lib.inset p d n d0).map (List.map m.part) := m.insetLoop hlib p d _ _

theorem Spec.Motion.insetLayer (ps : List LayerPart) (d : Micrometer) (n : Int) (d0 : Micrometer) :
    lib.insetLayer (ps.map m.part) d n d0 = (lib.insetLayer ps d n d0).map (List.map (List.map m.part)) := by
  simp only [ClipperLib.insetLayer, List.map_map]
  exact List.map_congr_left fun p _ => m.inset hlib p d n d0

omit hlib in
theorem toOneDimension_map (f : LayerPart → LayerPart) (r : OffsetResult) : toOneDimension (r.map (List.map (List.map f))) = (toOneDimension r).map f := by
  have h1 : ∀ (is : List (List LayerPart)) (acc : List LayerPart),
      (is.map (List.map f)).foldl (fun result inset => result ++ inset) (acc.map f) = (is.foldl (fun result inset => result ++ inset) acc).map f := by
    intro is
    induction is with
    | nil => intro acc; rfl
    | cons i is ih => intro acc; rw [List.map_cons, List.foldl_cons, ← List.map_append, ih]; rfl
  have h2 : ∀ (acc : List LayerPart), (r.map (List.map (List.map f))).foldl (fun result part => part.foldl (fun result inset => result ++ inset) result) (acc.map f) =
      (r.foldl (fun result part => part.foldl (fun result inset => result ++ inset) result) acc).map f := by
    induction r with
    | nil => intro acc; rfl
    | cons i is ih => intro acc; rw [List.map_cons, List.foldl_cons, h1, ih]; rfl
  exact h2 []

theorem Spec.Motion.runClipper (t : ClipType) (a b : List LayerPart) :
    lib.runClipper t (a.map m.part) (b.map m.part) = (lib.runClipper t a b).map (List.map m.part) := by
  unfold ClipperLib.runClipper
  have e : ∀ ps : List LayerPart, (ps.map m.part).flatMap ClipperLib.partPaths = (ps.flatMap ClipperLib.partPaths).map (List.map m.ipt) := by
    intro ps
    simp only [List.flatMap_map, List.map_flatMap, m.partPaths]
  simp only [List.map_eq_nil_iff, e, hlib.execute]
  split
  · rfl
  · simp only [Option.map_map]
    congr 1
    funext ns
    exact m.layerParts ns

theorem Spec.Motion.difference (a b : List LayerPart) : lib.difference (a.map m.part) (b.map m.part) = (lib.difference a b).map (List.map m.part) :=
  m.runClipper hlib _ a b

theorem Spec.Motion.union (a b : List LayerPart) : lib.union (a.map m.part) (b.map m.part) = (lib.union a b).map (List.map m.part) :=
  m.runClipper hlib _ a b

theorem Spec.Motion.intersection (a b : List LayerPart) : lib.intersection (a.map m.part) (b.map m.part) = (lib.intersection a b).map (List.map m.part) :=
  m.runClipper hlib _ a b

theorem Spec.Motion.hullOf (ps : List LayerPart) : lib.hullOf (ps.map m.part) = m.path (lib.hullOf ps) := by
  unfold ClipperLib.hullOf
  rw [← hlib.hull]
  congr 1
  simp only [List.flatMap_map, Motion.path, List.map_flatMap]
  rfl

theorem Spec.Motion.topLevelPolygons (ps : List LayerPart) : lib.topLevelPolygons (ps.map m.part) = (lib.topLevelPolygons ps).map (List.map m.path) := by
  unfold ClipperLib.topLevelPolygons
  have e : (ps.map m.part).map (fun p => Model.clipperPath p.outline) = (ps.map fun p => Model.clipperPath p.outline).map (List.map m.ipt) := by
    simp only [List.map_map]
    exact List.map_congr_left fun p _ => m.clipperPath p.outline
  have h := hlib.execute .union (ps.map fun p => Model.clipperPath p.outline) []
  rw [List.map_nil] at h
  rw [e, h, Option.map_map, Option.map_map]
  congr 1
  funext ns
  simp only [Function.comp, m.nodes_eq, List.map_map]
  apply List.map_congr_left
  intro n _
  simp only [Function.comp, m.contour, m.microPath]

theorem Spec.Motion.generateLayerParts (ps : Paths) : lib.generateLayerParts (ps.map m.path) = (lib.generateLayerParts ps).map (Option.map (List.map m.part)) := by
  unfold ClipperLib.generateLayerParts
  refine res_bind (List.map m.path) (res_mapM _ _ _ fun p _ => m.simplifyM p _ _) _ fun simple _ => ?_
  rw [List.length_map]
  split
  · rfl
  · have h := hlib.execute .union (Model.clipperPaths simple) []
    rw [List.map_nil] at h
    rw [m.clipperPaths, h, Option.map_map]
    simp only [pure, Except.pure, Except.map, Option.map_map, Except.ok.injEq]
    congr 1
    funext ns
    exact m.layerParts ns

/-! ## The slicer -/

theorem Spec.Motion.finishLayer (o : Options) (om : OptModel) (l : Option SliceLayer) :
    Model.finishLayer lib o (m.model om) (l.map m.slices) = (Model.finishLayer lib o om l).map m.layer := by
  cases l with
  | none => rfl
  | some l =>
    unfold Model.finishLayer
    refine res_bind (List.map m.path) (m.makePolygons o om l) _ fun ps _ => ?_
    refine res_bind _ (m.generateLayerParts hlib ps) _ fun parts _ => ?_
    cases parts <;> rfl

theorem Spec.Motion.sliced (o : Options) (om : OptModel) : Model.slice lib o (m.model om) = (Model.slice lib o om).map (List.map m.layer) := by
  unfold Model.slice
  exact res_bind _ (m.sliceSegments o om) _ fun ls _ => res_mapM _ _ _ fun l _ => m.finishLayer hlib o om l

end
end Verif
