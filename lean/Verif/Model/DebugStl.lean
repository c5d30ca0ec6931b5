import Verif.Model.Process

/-! # Model of the STL export for debugging -/
namespace Verif.Model
open Verif.Go

/-- A corner in `optimizer/model.go:93-135` `SaveDebugSTL`: three float32 coordinates in millimeters. -/
def debugVertex (p : Vec3) : Millimeter × Millimeter × Millimeter := (toMillimeter p.x, toMillimeter p.y, toMillimeter p.z)

/-- The body of the loop in `optimizer/model.go:93-135` `SaveDebugSTL`. The normal (always 0) and the attributes are left out. -/
def debugTriangle (om : OptModel) (f : OptFace) : Res StlTriangle := do
  let a ← index om.points (f.indices.a : Int)
  let b ← index om.points (f.indices.b : Int)
  let c ← index om.points (f.indices.c : Int)
  return ⟨debugVertex a.pos, debugVertex b.pos, debugVertex c.pos⟩

/-- `optimizer/model.go:93-135` `SaveDebugSTL`. `encode` is what `Solid.WriteFile` of the package stl writes for triangles; its errors are those of the
file system. -/
def saveDebugSTL (encode : List StlTriangle → Str) (om : OptModel) (filename : Str) : Act World Unit := fun w =>
  match om.faces.mapM (debugTriangle om) with
  | .error e => (w, .error e)
  | .ok triangles => writeFile (encode triangles) filename w

end Verif.Model
