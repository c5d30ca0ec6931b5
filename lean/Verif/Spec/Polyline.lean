import Verif.Model.Micrometer
import Mathlib.Data.Rat.Defs
import Mathlib.Algebra.Order.Field.Rat

/-! # Specification vocabulary for poly lines

Only the data type `Pt` is shared with the model. -/
namespace Verif.Spec
open Verif.Model

/-- Exact squared distance of `p` to the infinite line through `a` and `b` (to the point `a` if `a = b`). -/
def lineDist2 (a b p : Pt) : ℚ :=
  if a = b then ((p.x - a.x : Int) : ℚ) ^ 2 + ((p.y - a.y : Int) : ℚ) ^ 2
  else (((b.x - a.x) * (p.y - a.y) - (b.y - a.y) * (p.x - a.x) : Int) : ℚ) ^ 2 /
    (((b.x - a.x : Int) : ℚ) ^ 2 + ((b.y - a.y : Int) : ℚ) ^ 2)

/-- `Thinned ok path res`: `res` arises from `path` by dropping points, both ends are kept, and every dropped point `p`
between two neighbouring kept points `a`, `b` satisfies `ok a b p`. -/
inductive Thinned (ok : Pt → Pt → Pt → Prop) : List Pt → List Pt → Prop
  | single (a : Pt) : Thinned ok [a] [a]
  | step (a b : Pt) (dropped rest res : List Pt) :
      (∀ p ∈ dropped, ok a b p) → Thinned ok (b :: rest) (b :: res) →
      Thinned ok (a :: (dropped ++ b :: rest)) (a :: b :: res)

end Verif.Spec
