import Verif.Spec.Region
import Verif.Spec.Request
import Verif.Model.Options
import Mathlib.Analysis.SpecialFunctions.Trigonometric.Basic
import Mathlib.Algebra.Order.Floor.Ring
import Mathlib.Data.Rat.Floor

/-! # Specification of the area used by a print -/
namespace Verif.Spec
open Verif.Go Verif.Model

/-- A rectangle parallel to the axes, with its border. -/
structure Rect where
  minX : Int
  maxX : Int
  minY : Int
  maxY : Int

namespace Rect

/-- The point is in the rectangle. -/
def Has (R : Rect) (x y : Int) : Prop := R.minX ≤ x ∧ x ≤ R.maxX ∧ R.minY ≤ y ∧ y ≤ R.maxY

/-- The rectangle with a margin of `n` on each side. -/
def grow (R : Rect) (n : Int) : Rect := ⟨R.minX - n, R.maxX + n, R.minY - n, R.maxY + n⟩

/-- All points of a path are in the rectangle. -/
def HasPath (R : Rect) (p : Path) : Prop := ∀ q ∈ p, R.Has q.x q.y

/-- All points of a part are in the rectangle. -/
def HasPart (R : Rect) (p : LayerPart) : Prop := R.HasPath p.outline ∧ ∀ h ∈ p.holes, R.HasPath h

/-- All parts are in the rectangle. -/
def HasParts (R : Rect) (ps : List LayerPart) : Prop := ∀ p ∈ ps, R.HasPart p

/-- All points of contours of the library are in the rectangle. -/
def HasContours (R : Rect) (cs : List (List IntPoint)) : Prop := ∀ c ∈ cs, ∀ q ∈ c, R.Has q.x q.y

end Rect

/-- How far an offset of `d` micrometers may move the border of an area to the outside: not at all for an inset. Square joins reach `√2 * d`, which is below
`3/2 * d`, and the coordinates of the result are rounded. -/
def reach (d : ℚ) : Int := if d ≤ 0 then 0 else ⌈3 / 2 * d⌉ + 1

/-- Assumptions about the libraries: results do not leave the rectangles in which the areas are from which they are made. (Intersection points are rounded to
whole coordinates, so they do not leave a rectangle with whole coordinates.) A line cut by contours does not leave a half plane which contains the contours, up to the
rounding of both coordinates (at most `√2/2`, which is below `71/100`), and vertical lines remain vertical. -/
structure StaysInside (lib : ClipperLib) : Prop where
  union : ∀ (R : Rect) s c tree, lib.execute .union s c = some tree → R.HasContours s → R.HasContours c → R.HasContours (treesContours tree)
  difference : ∀ (R : Rect) s c tree, lib.execute .difference s c = some tree → R.HasContours s → R.HasContours (treesContours tree)
  intersection : ∀ (R : Rect) s c tree, lib.execute .intersection s c = some tree → R.HasContours c → R.HasContours (treesContours tree)
  offset : ∀ (R : Rect) s d, R.HasContours s → (R.grow (reach d)).HasContours (treesContours (lib.offset s d))
  hull : ∀ (R : Rect) p, R.HasPath p → R.HasPath (lib.hull p)
  lines : ∀ (a b c : ℝ) s clip tree, a ^ 2 + b ^ 2 = 1 → lib.executeOpen .intersection s clip = some tree →
    (∀ contour ∈ clip, ∀ q ∈ contour, a * q.x + b * q.y ≤ c) → ∀ n ∈ tree, ∀ q ∈ n.contour, a * q.x + b * q.y ≤ c + 71 / 100
  vertical : ∀ s clip tree, lib.executeOpen .intersection s clip = some tree → (∀ l ∈ s, ∀ p ∈ l, ∀ q ∈ l, p.x = q.x) →
    ∀ n ∈ tree, ∀ p ∈ n.contour, ∀ q ∈ n.contour, p.x = q.x

/-- Sine and cosine of an angle and of the opposite angle are accurate to `2^-48`, as in C11. -/
def TurnsBack (trig : ℚ → ℚ × ℚ) : Prop := ∀ d, ∃ θ : ℝ,
  |((trig d).1 : ℝ) - Real.sin θ| ≤ 1 / 2 ^ 48 ∧ |((trig d).2 : ℝ) - Real.cos θ| ≤ 1 / 2 ^ 48 ∧
  |((trig (-d)).1 : ℝ) - Real.sin (-θ)| ≤ 1 / 2 ^ 48 ∧ |((trig (-d)).2 : ℝ) - Real.cos (-θ)| ≤ 1 / 2 ^ 48

/-- The rectangle is at most 274 km away from the origin. -/
def Rect.Small (R : Rect) : Prop := -2 ^ 38 ≤ R.minX ∧ R.maxX ≤ 2 ^ 38 ∧ -2 ^ 38 ≤ R.minY ∧ R.maxY ≤ 2 ^ 38

/-- The width of the brim. -/
def brimWidth (o : Options) : Int := o.print.brimSkirt.brimCount * o.printer.extrusionWidth

/-- How far support may reach beyond the model: one and a half times the spacing of its lines. -/
def supportMargin (o : Options) : Int :=
  if o.print.support.enabled then reach ((3 * toMicrometer o.print.support.patternSpacing / 2 : Int) : ℚ) else 0

/-- How far the outermost line of the skirt is away from what it surrounds. -/
def skirtMargin (o : Options) : Int :=
  if o.print.brimSkirt.skirtCount ≤ 0 then 0
  else reach ((toMicrometer o.print.brimSkirt.skirtDistance + brimWidth o + o.print.brimSkirt.skirtCount * o.printer.extrusionWidth : Int) : ℚ)

/-- How far a print may reach beyond its model: the brim, or the support (and one micrometer for the rotation of its lines), or the skirt around the support. -/
def printMargin (o : Options) : Int :=
  max (reach (brimWidth o)) (supportMargin o + max 1 (skirtMargin o))

/-- The area on the bed on which a model is placed: its size around the center (rounded up). -/
def modelArea (center lo hi : Vec3) : Rect :=
  ⟨center.x - (hi.x - lo.x + 1) / 2, center.x + (hi.x - lo.x + 1) / 2, center.y - (hi.y - lo.y + 1) / 2, center.y + (hi.y - lo.y + 1) / 2⟩

/-- The move ends in the rectangle: its coordinates, rounded as they are written, are between those of the borders. -/
def EndsIn (R : Rect) (mv : GCode.Move) : Prop := ∃ x y, mv.after.x = some x ∧ mv.after.y = some y ∧
  decimals 2 (toMillimeter R.minX) ≤ x ∧ x ≤ decimals 2 (toMillimeter R.maxX) ∧ decimals 2 (toMillimeter R.minY) ≤ y ∧ y ≤ decimals 2 (toMillimeter R.maxY)

end Verif.Spec
