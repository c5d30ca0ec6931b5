import Verif.Props.MissingWhole
import Verif.Props.Command

/-! # C140: the support of a body with missing triangles -/
namespace Verif
open Verif.Go Verif.Model Verif.Spec Verif.Spec.GCode

/-- **C140** The support of a body with missing triangles is printed like that of the complete one, below overhangs where the planes of all layers above leave no gap which is too wide. -/
theorem C140_support (ext : Externals) (o : Options) (content : Str) {tol : ℚ} (h0 : 0 ≤ tol) (h1 : tol ≤ 10 ^ 4) (hlib : GoodLibrary ext.lib tol) (htrig : TurnsBack ext.trig) (ho : UsualOptions o)
    (hjoin : 2 ≤ o.slicing.joinPolygonSnapDistance) (hjs : o.slicing.joinPolygonSnapDistance < 2 ^ 26)
    (gap m : Mesh) (hm : m = (ext.stl content).map stlTriangleToFace) (hsheet : IsSheet o.slicing.meldDistance m) {lo hi : Vec3} (hbox : IsBox (vertices m) lo hi)
    (hsmall : SmallBody o.printer.center lo hi) (hheight : o.print.initialLayerThickness ≤ hi.z - lo.z)
    (hen : o.print.support.enabled = true) (hfit : SupportFits ext.tan o)
    (hbed : -900000 ≤ ((modelArea o.printer.center lo hi).grow (supportMargin o)).minX ∧ ((modelArea o.printer.center lo hi).grow (supportMargin o)).maxX ≤ 900000 ∧
      -900000 ≤ ((modelArea o.printer.center lo hi).grow (supportMargin o)).minY ∧ ((modelArea o.printer.center lo hi).grow (supportMargin o)).maxY ≤ 900000)
    {t : Str} (ht : gcodeOf ext o content = .ok t) {top : Nat} (ht1 : layerHeight o top ≤ hi.z - lo.z) (ht2 : hi.z - lo.z < layerHeight o (top + 1)) :
    ∃ body mc moves, t = startText o ++ body ++ endText o ∧ run body = some (mc, moves) ∧
      PrintsSupportWhere (GoodGap o (placedBody o.printer.center lo hi gap) (placedBody o.printer.center lo hi m)) o (placedBody o.printer.center lo hi (gap ++ m)) ext.tan tol top moves := by
  obtain ⟨om, sliced, lo', hi', body, mc, moves, hom, hsl, hlen, hlo, hhi, b1, b2, b3⟩ :=
    support_prints ext o content h0 h1 hlib htrig ho m hm hsheet hbox hsmall hheight hen hfit hbed ht ht1 ht2
  refine ⟨body, mc, moves, b1, b2, b3 _ _ fun k n l hn hg hl => ?_⟩
  obtain ⟨segs, hseg, -⟩ := bind_ok.1 hsl
  obtain ⟨layer, hlay⟩ := segments_exist hseg hsl (show n < sliced.length by omega)
  rw [show placedBody o.printer.center lo hi (gap ++ m) = placedBody o.printer.center lo hi gap ++ placedBody o.printer.center lo hi m from List.map_append]
  exact slicedAs_missing hom (body_faces hsheet hbox hom) (smallSurface_placed hbox hsmall) ho.meld hjoin hjs ho.sensible.thickness ho.finish hseg hlay hg hlib.sides h0 hsl hl hlo hhi

end Verif
