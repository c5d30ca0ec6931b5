import Verif.Model.Modifiers
import Verif.Model.Optimizer

/-! # Specification: movements in the plane

Written without the model of the program (apart from the types of its data): a quarter turn or none, then a shift. -/
namespace Verif.Spec
open Verif.Go Verif.Model

/-- A movement of the plane: turned by a multiple of 90 degrees with cosine `c` and sine `s`, then shifted. -/
structure Motion where
  c : Int
  s : Int
  shift : Pt
  quarter : (c = 1 ∧ s = 0) ∨ (c = 0 ∧ s = 1) ∨ (c = -1 ∧ s = 0) ∨ (c = 0 ∧ s = -1)

namespace Motion

/-- The shift by a vector. -/
def by_ (d : Pt) : Motion := ⟨1, 0, d, .inl ⟨rfl, rfl⟩⟩

variable (m : Motion)

/-- A moved point. -/
def pt (p : Pt) : Pt := ⟨m.c * p.x - m.s * p.y + m.shift.x, m.s * p.x + m.c * p.y + m.shift.y⟩

/-- A moved point of the clipper library. -/
def ipt (p : IntPoint) : IntPoint := ⟨m.c * p.x - m.s * p.y + m.shift.x, m.s * p.x + m.c * p.y + m.shift.y⟩

/-- A moved point in space; the height stays. -/
def vec (p : Vec3) : Vec3 := ⟨m.c * p.x - m.s * p.y + m.shift.x, m.s * p.x + m.c * p.y + m.shift.y, p.z⟩

def path (p : Path) : Path := p.map m.pt

def part (p : LayerPart) : LayerPart := ⟨m.path p.outline, p.holes.map m.path⟩

mutual
/-- A tree of moved contours. -/
def node : PolyNode → PolyNode
  | .node c cs => .node (c.map m.ipt) (nodes cs)
def nodes : List PolyNode → List PolyNode
  | [] => []
  | c :: cs => node c :: nodes cs
end

/-- A moved attribute. -/
def attr : Attr → Attr
  | .offsetResult r => .offsetResult (r.map (List.map (List.map m.part)))
  | .partLists r => .partLists (r.map (List.map m.part))
  | .parts r => .parts (r.map m.part)
  | .other n => .other n

/-- A moved layer: its parts and all attributes. -/
def layer (l : Layer) : Layer := { parts := l.parts.map m.part, attrs := l.attrs.map fun a name => (a name).map m.attr }

/-- The results of the clipper library do not depend on the place (and direction) of its arguments. -/
structure Respected (lib : ClipperLib) : Prop where
  execute : ∀ t a b, lib.execute t (a.map (List.map m.ipt)) (b.map (List.map m.ipt)) = (lib.execute t a b).map m.nodes
  executeOpen : ∀ t a b, lib.executeOpen t (a.map (List.map m.ipt)) (b.map (List.map m.ipt)) = (lib.executeOpen t a b).map m.nodes
  offset : ∀ a d, lib.offset (a.map (List.map m.ipt)) d = m.nodes (lib.offset a d)
  hull : ∀ p, lib.hull (m.path p) = m.path (lib.hull p)

/-- The faces of a mesh moved. -/
def mesh (fs : List (Tri Vec3)) : List (Tri Vec3) := fs.map (Tri.map m.vec)

/-- The same turn, but about the given point. -/
def about (center : Vec3) : Motion :=
  ⟨m.c, m.s, ⟨center.x - (m.c * center.x - m.s * center.y), center.y - (m.s * center.x + m.c * center.y)⟩, m.quarter⟩

end Motion

/-- The options with another place for the middle of the model. -/
def recentered (d : Pt) (o : Options) : Options :=
  { o with printer := { o.printer with center := ⟨o.printer.center.x + d.x, o.printer.center.y + d.y, o.printer.center.z⟩ } }

/-- A quarter turn of 90 degrees about the origin. -/
example : (⟨0, 1, ⟨0, 0⟩, by simp⟩ : Motion).path [⟨1, 0⟩, ⟨0, 1⟩, ⟨-3, 2⟩] = [⟨0, 1⟩, ⟨-1, 0⟩, ⟨-2, -3⟩] := by decide

end Verif.Spec
