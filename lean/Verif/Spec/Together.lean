import Verif.Spec.Skin
import Verif.Spec.Way
import Verif.Spec.Climb
import Verif.Spec.Generation
import Verif.Spec.PrintArea

/-! # Specification: the print of a closed body as a whole -/
namespace Verif.Spec
open Verif.Go Verif.Model Verif.Spec.GCode

/-! ## The body -/

/-- The triangles of a file are the surface of closed bodies. There may be several of them, but each height of the model is reached by one of them. No triangle is degenerate or repeated, and different corners are farther apart than `d`. -/
structure IsBody (d : Int) (m : Mesh) : Prop where
  nonempty : m ≠ []
  proper : ∀ t ∈ m, Proper t
  different : m.Pairwise fun t u => ¬ SameCorners t u
  separated : Separated d m
  noGap : NoGap m
  closed : ClosedSurface m

/-- The triangles of a file are a part of the surface of bodies, which may have holes. Each height of the model is reached by a triangle. -/
structure IsSheet (d : Int) (m : Mesh) : Prop where
  nonempty : m ≠ []
  proper : ∀ t ∈ m, Proper t
  different : m.Pairwise fun t u => ¬ SameCorners t u
  separated : Separated d m
  noGap : NoGap m

/-- The body at its place on the bed. -/
def placedBody (center lo hi : Vec3) (m : Mesh) : Mesh := m.map (Tri.map (placed center lo hi))

/-- The body has a diagonal of at most 55.1 mm, seen from above, and is printed at most 0.9 m away from the origin. -/
structure SmallBody (center lo hi : Vec3) : Prop where
  size : (hi.x - lo.x + 1) ^ 2 + (hi.y - lo.y + 1) ^ 2 ≤ 3037000499
  minX : -900000 ≤ (modelArea center lo hi).minX
  maxX : (modelArea center lo hi).maxX ≤ 900000
  minY : -900000 ≤ (modelArea center lo hi).minY
  maxY : (modelArea center lo hi).maxY ≤ 900000

/-- The plane of height `z` meets different sides of the surface at points which are more than `d` apart. -/
def SpreadOut (d : ℚ) (z : Int) (fs : List (Tri Vec3)) : Prop :=
  ∀ f ∈ fs, ∀ g ∈ fs, ∀ s ∈ faceSides f, ∀ s' ∈ faceSides g, Up z s → Down z s' → s' ≠ s.swap → ¬ NearPt d (meetPoint z s) (meetPoint z s')

/-- The number of faces which the plane of height `z` cuts. -/
def cutFaces (z : Int) (fs : List (Tri Vec3)) : Nat := fs.countP fun f => decide (Crosses z f)

/-- The plane of height `z` cuts the surface well: no face only touches it from below with a corner, and different sides are met at points which are farther apart than the meld
distance and 4 µm. -/
def CutsWell (o : Options) (z : Int) (fs : List (Tri Vec3)) : Prop := NoTip z fs ∧ SpreadOut (o.slicing.meldDistance + 4) z fs

/-- The plane of layer `n` cuts the surface well, and it cuts less than `k` faces. -/
def GoodPlane (o : Options) (fs : List (Tri Vec3)) (k n : Nat) : Prop := CutsWell o (layerHeight o n) fs ∧ cutFaces (layerHeight o n) fs < k

/-- The point is farther from the surface in the plane of layer `n` than the outlines which are left out because they are too short. -/
def FarEnough (o : Options) (fs : List (Tri Vec3)) (n : Nat) (x : ℚ × ℚ) : Prop :=
  FarFromSurface (2 * max 0 o.slicing.finishPolygonSnapDistance + 2) fs (layerHeight o n) x

/-- In the plane of layer `n` there is a point inside of the body which is not near to the surface. -/
def ReachesInside (o : Options) (fs : List (Tri Vec3)) (tol : ℚ) (k n : Nat) : Prop :=
  ∃ y, InsideSolid fs (layerHeight o n) y ∧ FarFromSurface (tol + 5 * k + 2) fs (layerHeight o n) y ∧ FarEnough o fs n y

/-- The plane of layer `n` cuts the surface well, and it reaches the inside of the body. -/
def HasInside (o : Options) (fs : List (Tri Vec3)) (tol : ℚ) (k n : Nat) : Prop := GoodPlane o fs k n ∧ ReachesInside o fs tol k n

/-! ## The print -/

/-- How far printed lines may be away from the body, for a tolerance `tol` of the library and `w` walls in the layer. -/
def lineReach (o : Options) (tol : ℚ) (k w : Nat) : ℚ := max (82 + 5 * k + (6 + w) * tol) (2 * max 0 o.slicing.finishPolygonSnapDistance + 2)

/-- The distance from the surface at which infill is printed whose lines reach `D` far. -/
def fillDepth (o : Options) (tol : ℚ) (k w : Nat) (D : ℚ) : ℚ :=
  D + 3 / 2 * (o.print.insetCount * o.printer.extrusionWidth + overlapReach o o.print.infillOverlapPercent +
    overlapReach o (o.print.infillOverlapPercent + o.print.additionalInternalInfillOverlapPercent)) +
    (max o.print.numberBottomLayers.toNat o.print.numberTopLayers.toNat + w + 10) * tol + tol + 5 * k + 2

/-- The distance from the surface at which a point is on the side of wall number `j` where it should be. -/
def wallReach (o : Options) (tol : ℚ) (k j : Nat) : ℚ := 3 / 2 * (o.printer.extrusionWidth / 2 + j * o.printer.extrusionWidth) + 2 * tol + 5 * k + 140

/-- The distance of the lines of the internal infill: without gaps, there are as many lines in 10 mm as whole widths; only the given percentage of them is printed. -/
def infillSpacing (o : Options) : Int := 1000000 / (10000 / o.printer.extrusionWidth * o.print.infillPercent)

/-- The layers `i` which matter for the bottom and the top of layer `n`. -/
def Around (o : Options) (top n i : Nat) : Prop := n ≤ i + o.print.numberBottomLayers.toNat ∧ i ≤ n + o.print.numberTopLayers.toNat ∧ i ≤ top

/-- The moves print the body with the surface `fs`; `top` is the number of the last layer. This is said about the layers whose planes are good: `good k n` means that the plane of layer `n` is good
with the bound `k` for the number of cut faces. -/
structure PrintsWhere (good : Nat → Nat → Prop) (o : Options) (fs : List (Tri Vec3)) (tol : ℚ) (w top : Nat) (moves : List Move) : Prop where
  /-- Without brim, skirt and support, everything is printed in the planes of the layers, inside of the body or near to its surface. -/
  near : o.print.brimSkirt.brimCount = 0 → o.print.brimSkirt.skirtCount = 0 → o.print.support.enabled = false →
    ∀ (j : Nat) before line, moves[j]? = some before → moves[j + 1]? = some line → line.hasE = true → (before.after.x ≠ line.after.x ∨ before.after.y ≠ line.after.y) →
    ∃ n ≤ top, before.after.z = some (decimals 2 (toMillimeter (layerHeight o n))) ∧ line.after.z = some (decimals 2 (toMillimeter (layerHeight o n))) ∧
      ∀ k, good k n → ∀ x, Passes before.after line.after x →
        InsideSolid fs (layerHeight o n) x ∨ ∃ y, OnSurface fs (layerHeight o n) y ∧ NearPt (lineReach o tol k w) x y
  /-- Inside of the body and near to its bottom or top, a move passes within half the extrusion width and 9 µm. -/
  solid : ∀ n ≤ top, ∀ k, (∀ i ≤ n, good k i ∧ ReachesInside o fs tol k i) → (∀ i, Around o top n i → good k i) →
    ∀ x, InsideSolid fs (layerHeight o n) x → (∀ i, Around o top n i → FarEnough o fs i x) →
    Skin o.print.numberBottomLayers.toNat o.print.numberTopLayers.toNat (top + 1) (fun i => InsideSolid fs (layerHeight o i) x) n →
    (∀ i, Around o top n i → FarFromSurface (fillDepth o tol k w (o.printer.extrusionWidth / 2 + 5)) fs (layerHeight o i) x) →
    PrintedNear moves (layerHeight o n) (o.printer.extrusionWidth / 2 + 9) x
  /-- Elsewhere inside of the body, a move passes within half the distance of the lines of the infill and 9 µm. -/
  infill : o.print.infillPercent ≠ 0 → ∀ n ≤ top, ∀ k, (∀ i ≤ n, good k i ∧ ReachesInside o fs tol k i) → (∀ i, Around o top n i → good k i) →
    ∀ x, InsideSolid fs (layerHeight o n) x → (∀ i, Around o top n i → FarEnough o fs i x) →
    ¬ Skin o.print.numberBottomLayers.toNat o.print.numberTopLayers.toNat (top + 1) (fun i => InsideSolid fs (layerHeight o i) x) n →
    (∀ i, Around o top n i → FarFromSurface (fillDepth o tol k w (infillSpacing o / 2 + (if o.print.infillZigZag then (o.printer.extrusionWidth : ℚ) / 2 else 0) + 5)) fs (layerHeight o i) x) →
    PrintedNear moves (layerHeight o n) (infillSpacing o / 2 + 9) x
  /-- Every way out of the body crosses each of the walls, which keep their distance from the outside. -/
  walls : ∀ n ≤ top, ∀ k, good k n → ∀ x y way, WayFrom x y way → InsideSolid fs (layerHeight o n) x → ¬ InsideSolid fs (layerHeight o n) y →
    (∀ q ∈ [x, y], FarEnough o fs n q) → ∀ j : Nat, j < o.print.insetCount → (∀ q ∈ [x, y], FarFromSurface (wallReach o tol k j) fs (layerHeight o n) q) →
    ∃ z, OnWay way z ∧ PrintedNear moves (layerHeight o n) 8 z ∧
      ∀ q, ¬ InsideSolid fs (layerHeight o n) q → FarFromSurface (tol + 5 * k + 2) fs (layerHeight o n) q → FarEnough o fs n q →
        Apart (((o.printer.extrusionWidth / 2 + j * o.printer.extrusionWidth : Int) : ℚ) - tol - 69) z q
  /-- No move goes below something printed before, and none goes higher than the last layer and the lift. -/
  height : NeverBelow moves ∧ ∀ mv ∈ moves, ∃ z, mv.after.z = some z ∧ z ≤ decimals 2 (toMillimeter (layerHeight o top + toMicrometer (max 0 o.filament.retractionZHop)))

/-- The moves print the closed body with the surface `fs`, in the layers whose planes cut it well. -/
abbrev PrintsBody (o : Options) (fs : List (Tri Vec3)) (tol : ℚ) (w top : Nat) (moves : List Move) : Prop := PrintsWhere (GoodPlane o fs) o fs tol w top moves

/-- Apart from at most two moves at the origin before everything else, all moves end in the rectangle. -/
def EndIn (R : Rect) (moves : List Move) : Prop :=
  ∃ start rest, moves = start ++ rest ∧ start.length ≤ 2 ∧ (∀ mv ∈ start, mv.after.x = some 0 ∧ mv.after.y = some 0) ∧ ∀ mv ∈ rest, EndsIn R mv

end Verif.Spec
