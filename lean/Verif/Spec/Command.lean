import Verif.Spec.Together
import Verif.Spec.Column

/-! # Specification: support of a closed body -/
namespace Verif.Spec
open Verif.Go Verif.Model Verif.Spec.GCode

/-- The distance from the surface at which support is printed whose lines reach `D` far: three quarters of the enlargement of the support, of the part of a layer which may stick out
(`tan` is the tangent of the angle) and of the gap are added, and the tolerance of the library for each of the layers. -/
def columnDepth (o : Options) (tan tol : ℚ) (top k : Nat) (D : ℚ) : ℚ :=
  D + 3 / 4 * (3 * toMicrometer o.print.support.patternSpacing + (o.print.layerThickness * |tan| + 1) + |(toMicrometer o.print.support.gap : ℚ)|) + (2 * (top + 2) + 4) * tol + 5 * k + 2

/-- The moves print the support of the body with the surface `fs`; `top` is the number of the last layer. This is said about columns through layers whose planes are good, as in `PrintsWhere`. Below an overhang, with the gap at the top, there is a column of
support down to the next solid or the bed; it is printed in its lower part with lines of the distance of the support, in the uppermost layers (the interface) without gaps. -/
structure PrintsSupportWhere (good : Nat → Nat → Prop) (o : Options) (fs : List (Tri Vec3)) (tan tol : ℚ) (top : Nat) (moves : List Move) : Prop where
  interface : ∀ n k, n + 2 ≤ top → 1 ≤ n ∨ o.print.brimSkirt.brimCount = 0 → (∀ i, n ≤ i → i ≤ top → good k i) →
    ∀ x, (∀ i, n ≤ i → i ≤ top → FarEnough o fs i x) →
    Column o.print.support.topGapLayers.toNat (top + 1) (fun i => InsideSolid fs (layerHeight o i) x) n →
    ¬ ColumnAbove o.print.support.interfaceLayers (top + 1) (Column o.print.support.topGapLayers.toNat (top + 1) fun i => InsideSolid fs (layerHeight o i) x) n →
    (∀ i, n ≤ i → i ≤ top → FarFromSurface (columnDepth o tan tol top k (o.printer.extrusionWidth + 5)) fs (layerHeight o i) x) →
    PrintedNear moves (layerHeight o n) (o.printer.extrusionWidth / 2 + 9) x
  column : ∀ n k, n + 2 ≤ top → 1 ≤ n ∨ o.print.brimSkirt.brimCount = 0 → (∀ i, n ≤ i → i ≤ top → good k i) →
    ∀ x, (∀ i, n ≤ i → i ≤ top → FarEnough o fs i x) →
    Column o.print.support.topGapLayers.toNat (top + 1) (fun i => InsideSolid fs (layerHeight o i) x) n →
    ColumnAbove o.print.support.interfaceLayers (top + 1) (Column o.print.support.topGapLayers.toNat (top + 1) fun i => InsideSolid fs (layerHeight o i) x) n →
    (∀ i, n ≤ i → i ≤ top →
      FarFromSurface (columnDepth o tan tol top k (toMicrometer o.print.support.patternSpacing / 2 + o.printer.extrusionWidth / 2 + 5)) fs (layerHeight o i) x) →
    PrintedNear moves (layerHeight o n) (toMicrometer o.print.support.patternSpacing / 2 + 9) x

/-- The moves print the support of the body with the surface `fs`, as far as the planes of the layers cut it well. -/
abbrev PrintsSupport (o : Options) (fs : List (Tri Vec3)) := PrintsSupportWhere (GoodPlane o fs) o fs

end Verif.Spec
