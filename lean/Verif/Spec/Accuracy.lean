import Verif.Spec.Inside
import Verif.Spec.Drawn
import Verif.Spec.Clip

/-! # Specification: how far a print is away from its outlines -/
namespace Verif.Spec
open Verif.Go Verif.Model Verif.Spec.GCode

/-- The point `x` is on the line from `a` to `b`. -/
def OnSegment (a b x : ℚ × ℚ) : Prop := ∃ t, 0 ≤ t ∧ t ≤ 1 ∧ x = lineAt a b t

/-- The point `x` is on a line of the path. -/
def OnPath (isOpen : Bool) (path : Path) (x : ℚ × ℚ) : Prop := ∃ a b, (a, b) ∈ pathLines isOpen path ∧ OnSegment (exactPt a) (exactPt b) x

/-- The distance is at least `d`. -/
def Apart (d : ℚ) (p q : ℚ × ℚ) : Prop := d ≤ 0 ∨ d ^ 2 ≤ (p.1 - q.1) ^ 2 + (p.2 - q.2) ^ 2

/-- One of the areas of a result of the library: a contour of even depth with the holes in it. -/
def IsArea (tree : List PolyNode) (area : List (List IntPoint)) : Prop :=
  ∃ root ∈ tree, ∃ n, EvenBelow root n ∧ area = n.contour :: n.childs.map PolyNode.contour

/-- The contours are one of the areas in a result of the library. They do not overlap then, other than arbitrary contours (the library's offsets are not based on the even-odd rule). -/
def LibArea (lib : ClipperLib) (area : List (List IntPoint)) : Prop :=
  ∃ tree, ((∃ t s c, lib.execute t s c = some tree) ∨ ∃ s d, tree = lib.offset s d) ∧ IsArea tree area

/-- The library's insets keep their distance: every point of a contour which results from an inset of an area by `d` has at least the distance `d - tol` from
everything outside of the given contours. -/
def InsetsKeep (inside : List IntPoint → Set (ℚ × ℚ)) (lib : ClipperLib) (tol : ℚ) : Prop :=
  ∀ paths d, LibArea lib paths → 0 ≤ d → ∀ c ∈ treesContours (lib.offset paths (-d)), ∀ x, OnPath false (c.map fun p => ⟨p.x, p.y⟩) x →
    ∀ q, q ∉ evenOdd inside paths → Apart (d - tol) x q

/-- Between two positions the machine moves straight and passes the point `x` (in micrometres). -/
def Passes (m m' : Machine) (x : ℚ × ℚ) : Prop :=
  ∃ ax ay bx «by», m.x = some ax ∧ m.y = some ay ∧ m'.x = some bx ∧ m'.y = some «by» ∧
    OnSegment (1000 * ax, 1000 * ay) (1000 * bx, 1000 * «by») x

end Verif.Spec
