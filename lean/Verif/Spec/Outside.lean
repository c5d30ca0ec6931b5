import Verif.Spec.Accuracy

/-! # Specification: nothing is printed outside -/
namespace Verif.Spec
open Verif.Model

section
variable (inside : List IntPoint → Set (ℚ × ℚ))

/-- The point belongs to the closed area of the contours: it is enclosed by an odd number of them, or on one of them. -/
def Touches (cs : List (List IntPoint)) (x : ℚ × ℚ) : Prop := x ∈ evenOdd inside cs ∨ ∃ c ∈ cs, OnPath false (asPath c) x

/-- The distance of the point from the closed area of the contours is at most `tol`. -/
def NearArea (tol : ℚ) (cs : List (List IntPoint)) (x : ℚ × ℚ) : Prop := ∃ y, Touches inside cs y ∧ NearPt tol x y

/-- Up to a tolerance, the results of the library are not outside of what they are made from: each area of an intersection is near the clip areas, each area of a difference
or of an inset of such an area near the given ones, each area of a union near one of them. Lines cut by an area are near the area (and vertical lines remain vertical), and a line of which nothing
is left by a difference is near the area. The tolerance contains the rounding to whole coordinates. -/
structure NothingOutside (lib : ClipperLib) (tol : ℚ) : Prop where
  intersection : ∀ s c tree, lib.execute .intersection s c = some tree → ∀ a, IsArea tree a → ∀ x, Touches inside a x → NearArea inside tol c x
  difference : ∀ s c tree, lib.execute .difference s c = some tree → ∀ a, IsArea tree a → ∀ x, Touches inside a x → NearArea inside tol s x
  union : ∀ s c tree, lib.execute .union s c = some tree → ∀ a, IsArea tree a → ∀ x, Touches inside a x → NearArea inside tol s x ∨ NearArea inside tol c x
  inset : ∀ s d, LibArea lib s → d ≤ 0 → ∀ a, IsArea (lib.offset s d) a → ∀ x, Touches inside a x → NearArea inside tol s x
  cut : ∀ lines c tree, lib.executeOpen .intersection lines c = some tree → ∀ n ∈ tree, ∀ x, OnPath true (asPath n.contour) x → NearArea inside tol c x
  left : ∀ a b c, a ≠ b → lib.executeOpen .difference [[a, b]] c = some [] → ∀ x, OnPath true (asPath [a, b]) x → NearArea inside tol c x
  vertical : ∀ lines c tree, lib.executeOpen .intersection lines c = some tree → (∀ l ∈ lines, ∀ p ∈ l, ∀ q ∈ l, p.x = q.x) →
    ∀ n ∈ tree, ∀ p ∈ n.contour, ∀ q ∈ n.contour, p.x = q.x

end

end Verif.Spec
