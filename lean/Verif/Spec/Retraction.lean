import Verif.Spec.Travel
import Verif.Spec.Calls

/-! # Specification: when the filament is pulled back -/
namespace Verif.Spec
open Verif.Go Verif.Model

/-- Moves which start at `p` with the filament pulled back (at some place) or not. As long as it is not pulled back, the head only makes ways which are
easy and lines which have to be printed. It is pulled back only if it is not, and pushed back only if it is, by the same amount, standing still, after a hard
way from the place where it was pulled back. While it is pulled back nothing is extruded. In the end it is not pulled back. -/
def Orderly (easy hard line : Vec3 → Vec3 → Prop) (amount : ℚ) (speed : Int) : Option Vec3 → Vec3 → List Request → Prop
  | pulled, _, [] => pulled = none
  | none, p, r :: rs =>
    (r.extrusion = -amount ∧ r.speed = speed ∧ r.target = p ∧ Orderly easy hard line amount speed (some p) p rs) ∨
    (r.extrusion = 0 ∧ easy p r.target ∧ Orderly easy hard line amount speed none r.target rs) ∨
    (0 ≤ r.extrusion ∧ line p r.target ∧ Orderly easy hard line amount speed none r.target rs)
  | some start, p, r :: rs =>
    (r.extrusion = amount ∧ r.speed = speed ∧ r.target = p ∧ hard start p ∧ Orderly easy hard line amount speed none p rs) ∨
    (r.extrusion = 0 ∧ Orderly easy hard line amount speed (some start) r.target rs)

/-- The straight way from `p` to `q` stays inside of the parts, seen from above. -/
def WayInside (inside : List IntPoint → Set (ℚ × ℚ)) (parts : List LayerPart) (p q : Vec3) : Prop :=
  ∀ x, OnLine ⟨p.x, p.y⟩ ⟨q.x, q.y⟩ x → x ∈ region inside parts

end Verif.Spec
