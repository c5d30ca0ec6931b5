import Verif.Go.Base
import Verif.Go.Float

/-!
# Model of `data/data.go` and `data/micrometer.go`

Simplification used everywhere: `Micrometer` (int64) is modelled by the unbounded `Int`; the theorems in
`Verif.Props.Machine` relate this to 64 bit arithmetic.
-/
namespace Verif.Model
open Verif.Go

/-- `data/data.go:19` `Micrometer`. -/
scoped notation "Micrometer" => Int

/-- `data/data.go:12` `Millimeter`, as a rational number (the value of the float32). -/
scoped notation "Millimeter" => ℚ

/-- `data/data.go:21` `MaxMicrometer`. -/
def maxMicrometer : Int := 9223372036854775807
/-- `data/data.go:22` `MinMicrometer`. -/
def minMicrometer : Int := -9223372036854775808

/-- `data/data.go:14-16` `Millimeter.ToMicrometer`: `m * 1000` is a float32 product; the conversion to float64 is exact. -/
def toMicrometer (m : Millimeter) : Micrometer := roundEven (r32 (m * 1000))

/-- `data/data.go:24-26` `Micrometer.ToMillimeter`: conversion to float64, division in float64, conversion to float32. -/
def toMillimeter (m : Micrometer) : Millimeter := r32 (r64 (r64 (m : ℚ) / 1000))

/-- `data/micrometer.go:251-253` `microPoint`, with `data/micrometer.go:255-275` (`NewMicroPoint`, getters and setters). Modelled as an immutable value; `Verif.Model.Ptr` has the version with pointers. -/
structure Pt where
  x : Micrometer
  y : Micrometer
deriving DecidableEq, Repr, Inhabited

/-- `data/micrometer.go:75-77` `microVec3`. Made by `data/micrometer.go:80-86` `NewMicroVec3`. -/
structure Vec3 where
  x : Micrometer
  y : Micrometer
  z : Micrometer
deriving DecidableEq, Repr, Inhabited

/-- `data/layer.go:9` `Path`. -/
abbrev Path := List Pt
/-- `data/layer.go:202` `Paths`. -/
abbrev Paths := List Path

/-- `data/micrometer.go:88-93` `Max`. -/
def maxM (a b : Micrometer) : Micrometer := if a > b then a else b
/-- `data/micrometer.go:95-100` `Min`. -/
def minM (a b : Micrometer) : Micrometer := if a < b then a else b

namespace Pt
/-- `data/micrometer.go:277-282` `microPoint.Add`. -/
def add (p q : Pt) : Pt := ⟨p.x + q.x, p.y + q.y⟩
/-- `data/micrometer.go:284-289` `microPoint.Sub`. -/
def sub (p q : Pt) : Pt := ⟨p.x - q.x, p.y - q.y⟩
/-- `data/micrometer.go:291-296` `microPoint.Mul`. -/
def mul (p : Pt) (v : Micrometer) : Pt := ⟨p.x * v, p.y * v⟩
/-- `data/micrometer.go:298-303` `microPoint.Div`; Go's integer division truncates, and panics for 0. -/
def div (p : Pt) (v : Micrometer) : Res Pt :=
  if v = 0 then .error (.panic "integer divide by zero") else .ok ⟨p.x.tdiv v, p.y.tdiv v⟩
/-- `data/micrometer.go:328-330` `microPoint.Size2`. -/
def size2 (p : Pt) : Micrometer := p.x * p.x + p.y * p.y
/-- `data/micrometer.go:319-326` `microPoint.ShorterThanOrEqual`. -/
def shorterThanOrEqual (p : Pt) (length : Micrometer) : Bool :=
  if p.x > length ∨ p.x < -length ∨ p.y > length ∨ p.y < -length then false
  else decide (p.size2 ≤ length * length)
/-- `data/micrometer.go:332-334` `microPoint.Size`: the truncated float64 square root of the float64 of `Size2`. -/
def size (p : Pt) : Micrometer := truncZ (fsqrt64 (r64 (p.size2 : ℚ)))
/-- `data/micrometer.go:336-340` `microPoint.SizeMM`: float32 products and sum (no fused operations), float64 root, float32 result. -/
def sizeMM (p : Pt) : Millimeter :=
  let x := toMillimeter p.x
  let y := toMillimeter p.y
  r32 (fsqrt64 (r32 (r32 (x * x) + r32 (y * y))))
/-- `data/micrometer.go:305-314` `microPoint.Rotate`. `sn`, `cs` are the float64 results of `math.Sin(rad)`, `math.Cos(rad)`;
products and sums are rounded to float64 (no fused operations). -/
def rotate (sn cs : ℚ) (p : Pt) : Pt :=
  ⟨roundEven (r64 (r64 (r64 (p.x : ℚ) * cs) - r64 (r64 (p.y : ℚ) * sn))),
   roundEven (r64 (r64 (r64 (p.x : ℚ) * sn) + r64 (r64 (p.y : ℚ) * cs)))⟩
end Pt

namespace Vec3
/-- `data/micrometer.go:126-131` `PointXY`. -/
def pointXY (v : Vec3) : Pt := ⟨v.x, v.y⟩
/-- `data/micrometer.go:133-139` `microVec3.Add`. -/
def add (v w : Vec3) : Vec3 := ⟨v.x + w.x, v.y + w.y, v.z + w.z⟩
/-- `data/micrometer.go:141-147` `microVec3.Sub`. -/
def sub (v w : Vec3) : Vec3 := ⟨v.x - w.x, v.y - w.y, v.z - w.z⟩
/-- `data/micrometer.go:149-155` `microVec3.Mul`. -/
def mul (v : Vec3) (a : Micrometer) : Vec3 := ⟨v.x * a, v.y * a, v.z * a⟩
/-- `data/micrometer.go:157-163` `microVec3.Div`. -/
def div (v : Vec3) (a : Micrometer) : Res Vec3 :=
  if a = 0 then .error (.panic "integer divide by zero") else .ok ⟨v.x.tdiv a, v.y.tdiv a, v.z.tdiv a⟩
/-- `data/micrometer.go:165-173` `microVec3.Max`. -/
def max (v : Vec3) : Micrometer :=
  if v.x > v.y ∧ v.x > v.z then v.x else if v.y > v.z then v.y else v.z
/-- `data/micrometer.go:179-181` `microVec3.Size2`. -/
def size2 (v : Vec3) : Micrometer := v.x * v.x + v.y * v.y + v.z * v.z
/-- `data/micrometer.go:175-177` `microVec3.ShorterThanOrEqual`. -/
def shorterThanOrEqual (v : Vec3) (length : Micrometer) : Bool := decide (v.size2 ≤ length * length)
/-- `data/micrometer.go:183-185` `microVec3.Size`. -/
def size (v : Vec3) : Micrometer := truncZ (fsqrt64 (r64 (v.size2 : ℚ)))
end Vec3

end Verif.Model
