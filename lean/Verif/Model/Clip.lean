import Verif.Model.Machine

/-! # Model of `clip/clip.go`

The external clipper library is a parameter (`ClipperLib`): all theorems hold for every behaviour of the library which satisfies the
assumptions stated in them. -/
namespace Verif.Model
open Verif.Go

/-- `clip/clip.go:48` `OffsetResult`: parts, insets of a part, resulting parts of an inset. A nil slice and an empty one are the same here. -/
abbrev OffsetResult := List (List (List LayerPart))

/-- `clip/clip.go:50-60` `OffsetResult.ToOneDimension`. -/
def toOneDimension (r : OffsetResult) : List LayerPart :=
  r.foldl (fun result part => part.foldl (fun result inset => result ++ inset) result) []

section ForEach
variable {σ : Type} (cb : σ → LayerPart → Nat → Nat → Nat → σ × Bool)

/-- Innermost loop of `clip/clip.go:64-74` `OffsetResult.ForEach`: new state and whether to return. -/
def forEachPart (partNr insetNr : Nat) : σ → Nat → List LayerPart → σ × Bool
  | s, _, [] => (s, false)
  | s, k, p :: ps =>
    let r := cb s p partNr insetNr k
    if r.2 then (r.1, true) else forEachPart partNr insetNr r.1 (k + 1) ps

/-- Middle loop of `clip/clip.go:64-74` `OffsetResult.ForEach`. -/
def forEachInset (partNr : Nat) : σ → Nat → List (List LayerPart) → σ × Bool
  | s, _, [] => (s, false)
  | s, k, i :: is =>
    let r := forEachPart cb partNr k s 0 i
    if r.2 then (r.1, true) else forEachInset partNr r.1 (k + 1) is

/-- Outer loop of `clip/clip.go:64-74` `OffsetResult.ForEach`. -/
def forEachOuter : σ → Nat → OffsetResult → σ × Bool
  | s, _, [] => (s, false)
  | s, k, p :: ps =>
    let r := forEachInset cb k s 0 p
    if r.2 then (r.1, true) else forEachOuter r.1 (k + 1) ps

/-- `clip/clip.go:64-74` `OffsetResult.ForEach`. The callback changes a state (its captured variables) and returns the flag `doBreak`. -/
def forEach (r : OffsetResult) (s : σ) : σ := (forEachOuter cb s 0 r).1

end ForEach

/-- A point of the external library (`clipper.IntPoint`, `CInt` is int64). -/
structure IntPoint where
  x : Int
  y : Int
deriving DecidableEq, Repr, Inhabited

/-- `clip/clip.go:140-145` `clipperPoint`. -/
def clipperPoint (p : Pt) : IntPoint := ⟨p.x, p.y⟩

/-- `clip/clip.go:160-167` `clipperPath`. -/
def clipperPath (p : Path) : List IntPoint := p.map clipperPoint

/-- `clip/clip.go:149-156` `clipperPaths`. -/
def clipperPaths (p : Paths) : List (List IntPoint) := p.map clipperPath

/-- `clip/clip.go:171-173` `microPoint`. -/
def microPoint (p : IntPoint) : Pt := ⟨p.x, p.y⟩

/-- `clip/clip.go:179-189` `microPath`. The simplification (never requested by a caller for results) may panic in the model only. -/
def microPath (p : List IntPoint) (doSimplify : Bool) : Res Path :=
  let result := p.map microPoint
  if doSimplify then simplifyM result (-1) (-1) else .ok result

/-- `clip/clip.go:195-201` `microPaths`. -/
def microPaths (p : List (List IntPoint)) (doSimplify : Bool) : Res Paths := p.mapM (fun q => microPath q doSimplify)

/-- A node of a result tree of the external library (`clipper.PolyNode`): contour and children. -/
inductive PolyNode where
  | node (contour : List IntPoint) (childs : List PolyNode)

namespace PolyNode

def contour : PolyNode → List IntPoint
  | node c _ => c
def childs : PolyNode → List PolyNode
  | node _ cs => cs

mutual
/-- Number of nodes of a tree. -/
def size : PolyNode → Nat
  | node _ cs => 1 + sizes cs
/-- Number of nodes of a list of trees. -/
def sizes : List PolyNode → Nat
  | [] => 0
  | c :: cs => size c + sizes cs
end

theorem sizes_append (a b : List PolyNode) : sizes (a ++ b) = sizes a + sizes b := by
  induction a with
  | nil => simp [sizes]
  | cons x xs ih => simp [sizes, ih]; omega

theorem size_pos (p : PolyNode) : 0 < p.size := by cases p; simp [size]

theorem size_eq (p : PolyNode) : p.size = 1 + sizes p.childs := by cases p; simp [size, childs]

theorem sizes_flatMap_childs_le (l : List PolyNode) : sizes (l.flatMap childs) ≤ sizes l := by
  induction l with
  | nil => simp [sizes]
  | cons x xs ih =>
    simp only [List.flatMap_cons, sizes_append, sizes]
    have := size_eq x
    omega

end PolyNode

/-- The holes of a part: loop over the children in `clip/clip.go:225-257` `polyTreeToLayerParts`. The contours are converted without
simplification, which never fails. -/
def nodeHoles (p : PolyNode) : Paths := p.childs.map (fun child => child.contour.map microPoint)

/-- The part for a node in `clip/clip.go:225-257` `polyTreeToLayerParts`. -/
def nodePart (p : PolyNode) : LayerPart := ⟨p.contour.map microPoint, nodeHoles p⟩

/-- The nodes for the next round in `clip/clip.go:225-257` `polyTreeToLayerParts`: the children of the children, in order. -/
def nextRound (thisRound : List PolyNode) : List PolyNode :=
  thisRound.flatMap (fun p => p.childs.flatMap PolyNode.childs)

theorem nextRound_lt (thisRound : List PolyNode) (h : thisRound ≠ []) : PolyNode.sizes (nextRound thisRound) < PolyNode.sizes thisRound := by
  induction thisRound with
  | nil => exact absurd rfl h
  | cons p ps ih =>
    simp only [nextRound, List.flatMap_cons, PolyNode.sizes_append, PolyNode.sizes]
    have h1 := PolyNode.size_eq p
    have h2 := PolyNode.sizes_flatMap_childs_le p.childs
    by_cases hp : ps = []
    · subst hp; simp [PolyNode.sizes]; omega
    · have := ih hp
      simp only [nextRound] at this
      omega

/-- Outer loop of `clip/clip.go:225-257` `polyTreeToLayerParts`; a nil slice is an empty list. -/
def polyRounds (thisRound : List PolyNode) (layerParts : List LayerPart) : List LayerPart :=
  if h : thisRound = [] then layerParts
  else
    have := nextRound_lt thisRound h
    polyRounds (nextRound thisRound) (layerParts ++ thisRound.map nodePart)
termination_by PolyNode.sizes thisRound

/-- `clip/clip.go:225-257` `polyTreeToLayerParts`, for the children of the root of the tree. -/
def polyTreeToLayerParts (childs : List PolyNode) : List LayerPart := polyRounds childs []

/-- The kinds of clipping used. -/
inductive ClipType where
  | union
  | difference
  | intersection
deriving DecidableEq

/-- The external libraries. Closed paths are used with the even-odd rule, offsets with square joins. A tree is given by the children of
its root. -/
structure ClipperLib where
  /-- `Clipper.Execute2` for closed subject and clip paths; `none` if it fails. -/
  execute : ClipType → (subject clip : List (List IntPoint)) → Option (List PolyNode)
  /-- `Clipper.Execute2` for open subject paths. -/
  executeOpen : ClipType → (subject clip : List (List IntPoint)) → Option (List PolyNode)
  /-- `ClipperOffset.Execute2`. -/
  offset : List (List IntPoint) → ℚ → List PolyNode
  /-- `goconvexhull2d.New` (never nil). -/
  hull : Path → Path

namespace ClipperLib

/-- All contours of a part as given to the library by `clip/clip.go:303-325` `runClipper`. -/
def partPaths (part : LayerPart) : List (List IntPoint) := clipperPath part.outline :: clipperPaths part.holes

/-- One iteration of `clip/clip.go:268-289` `Inset`. -/
def inset1 (lib : ClipperLib) (part : LayerPart) (currentOffset : ℚ) : List LayerPart :=
  polyTreeToLayerParts (lib.offset (clipperPaths [part.outline] ++ clipperPaths part.holes) currentOffset)

/-- Loop of `clip/clip.go:268-289` `Inset` with `n` iterations left. -/
def insetLoop (lib : ClipperLib) (part : LayerPart) (offset : Micrometer) : Nat → ℚ → List (List LayerPart)
  | 0, _ => []
  | n + 1, currentOffset =>
    lib.inset1 part currentOffset :: insetLoop lib part offset n (r64 (currentOffset + r64 ((-offset : Int) : ℚ)))

/-- `clip/clip.go:268-289` `Inset`; offsets are float64. -/
def inset (lib : ClipperLib) (part : LayerPart) (offset : Micrometer) (insetCount : Int) (initialOffset : Micrometer) :
    List (List LayerPart) :=
  lib.insetLoop part offset insetCount.toNat (r64 (initialOffset : ℚ))

/-- `clip/clip.go:259-266` `InsetLayer`. -/
def insetLayer (lib : ClipperLib) (layer : List LayerPart) (offset : Micrometer) (insetCount : Int) (initialOffset : Micrometer) :
    OffsetResult :=
  layer.map (fun part => lib.inset part offset insetCount initialOffset)

/-- `clip/clip.go:303-325` `runClipper`; `none` stands for `ok == false`. An empty slice counts as nil (the shortcut is not taken in Go for two empty,
non-nil slices). -/
def runClipper (lib : ClipperLib) (clipType : ClipType) (parts toClip : List LayerPart) : Option (List LayerPart) :=
  if parts = [] ∧ toClip = [] then some []
  else (lib.execute clipType (parts.flatMap partPaths) (toClip.flatMap partPaths)).map polyTreeToLayerParts

/-- `clip/clip.go:291-293` `Difference`. -/
def difference (lib : ClipperLib) := lib.runClipper .difference
/-- `clip/clip.go:295-297` `Intersection`. -/
def intersection (lib : ClipperLib) := lib.runClipper .intersection
/-- `clip/clip.go:299-301` `Union`. -/
def union (lib : ClipperLib) := lib.runClipper .union

/-- `clip/clip.go:327-347` `IsCrossingPerimeter`: result and ok. -/
def isCrossingPerimeter (lib : ClipperLib) (parts : List LayerPart) (line : Path) : Bool × Bool :=
  match lib.executeOpen .difference [clipperPath line] (parts.flatMap fun p => clipperPaths p.holes ++ [clipperPath p.outline]) with
  | none => (false, false)
  | some tree => (decide (PolyNode.sizes tree > 0), true)

/-- `clip/clip.go:349-362` `Hull`. The type assertion succeeds as the library returns the type it is given. -/
def hullOf (lib : ClipperLib) (parts : List LayerPart) : Path := lib.hull (parts.flatMap LayerPart.outline)

/-- `clip/clip.go:364-382` `TopLevelPolygons`. -/
def topLevelPolygons (lib : ClipperLib) (parts : List LayerPart) : Option Paths :=
  (lib.execute .union (parts.map fun p => clipperPath p.outline) []).map fun tree => tree.map fun c => c.contour.map microPoint

/-- `clip/clip.go:203-222` `GenerateLayerParts`: the parts of the new layer, `none` if the library fails. -/
def generateLayerParts (lib : ClipperLib) (polygons : Paths) : Res (Option (List LayerPart)) := do
  let simple ← polygons.mapM (fun p => simplifyM p (-1) (-1))
  if simple.length = 0 then return some []
  return (lib.execute .union (clipperPaths simple) []).map polyTreeToLayerParts

end ClipperLib
end Verif.Model
