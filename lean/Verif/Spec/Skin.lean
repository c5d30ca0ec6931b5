import Verif.Spec.Solid
import Verif.Spec.Slice
import Verif.Spec.Polygons

/-! # Specification: which places of a layer belong to the bottom or the top of the solid -/
namespace Verif.Spec
open Verif.Model Verif.Go

/-- At a place, layer `n` of `count` layers is less than `b` layers above the bottom or less than `t` layers below the top: it is one of the `b` lowest or `t` highest layers, or
the place is not inside of the solid in one of the `b` layers below or `t` layers above. -/
def Skin (b t count : Nat) (inside : Nat → Prop) (n : Nat) : Prop :=
  n < b ∨ count ≤ n + t ∨ ∃ i, n ≤ i + b ∧ i ≤ n + t ∧ i < count ∧ ¬ inside i

/-- The segments of layer `n` can be joined in exactly one way, no face only touches its plane from below with a corner, and `Simplify` removes at most `k` points of an outline. -/
def WellSliced (o : Options) (om : OptModel) (fs : List (Tri Vec3)) (segs : List (Option SliceLayer)) (k n : Nat) : Prop :=
  ∃ layer, segs[n]? = some (some layer) ∧ NoTip (heightOf o.print.initialLayerThickness o.print.layerThickness n) fs ∧
    (∀ a b b', Follows o.slicing.meldDistance om layer a b → Follows o.slicing.meldDistance om layer a b' → b = b') ∧
    ∀ paths simple, makePolygons o om layer = .ok paths → paths.mapM (fun p => simplifyM p (-1) (-1)) = .ok simple → Removed k paths simple

/-- How far the border of the infill may be moved for an overlap of `pc` percent. -/
def overlapReach (o : Options) (pc : Int) : ℚ := o.printer.extrusionWidth * |100 - pc| / 100

end Verif.Spec
