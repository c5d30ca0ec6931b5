import Verif.Model.Machine
import Verif.Model.Slicer

/-! # `SliceFace` with int64 arithmetic -/
namespace Verif.Model
open Verif.Go

/-- One coordinate in `slicer/segment.go:18-31` `SliceFace` with int64 arithmetic. -/
def interpolateM (z a0 z0 a1 z1 : Micrometer) : Res Micrometer := do
  let q ← quo (wrap (wrap (a1 - a0) * wrap (z - z0))) (wrap (z1 - z0))
  return wrap (a0 + wrap q)

/-- `slicer/segment.go:18-31` `SliceFace` with int64 arithmetic. -/
def sliceFaceM (z : Micrometer) (p0 p1 p2 : Vec3) : Res (Pt × Pt) := do
  let sx ← interpolateM z p0.x p0.z p1.x p1.z
  let sy ← interpolateM z p0.y p0.z p1.y p1.z
  let ex ← interpolateM z p0.x p0.z p2.x p2.z
  let ey ← interpolateM z p0.y p0.z p2.y p2.z
  return (⟨sx, sy⟩, ⟨ex, ey⟩)

end Verif.Model
