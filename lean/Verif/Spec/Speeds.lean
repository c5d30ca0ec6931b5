import Verif.Spec.Drawn
import Verif.Model.Renderers

/-! # Specification: the speed of each kind of line -/
namespace Verif.Spec
open Verif.Go Verif.Model Verif.Spec.GCode

/-- The speed in force after all walls of a layer are drawn. The outermost wall of a part is drawn last, so it is the speed for outer walls if the
last part which has walls has an outer one. Nothing sets the speed back before the infill (C76). -/
def fillSpeed (o : Options) (l : Layer) : ℚ :=
  match l.perimeters with
  | .error _ => o.print.layerSpeed
  | .ok walls =>
    match (walls.filter fun part => !part.flatten.isEmpty).getLast? with
    | some ((_ :: _) :: _) => o.print.outerPerimeterSpeed
    | _ => o.print.layerSpeed

/-- A path belongs to layer `n` and has to be printed with a speed: walls with the speed for outer or inner walls, brim and skirt with the
layer speed, the lines of the patterns with `fillSpeed`. -/
inductive PrintedWith (lib : ClipperLib) (o : Options) (pt : Patterns) (n : Nat) (l : Layer) : Bool → Path → ℚ → Prop
  | outerWall {walls part inset rest p path} (hw : l.perimeters = .ok walls) (hpart : part ∈ walls) (hi : part = inset :: rest) (hp : p ∈ inset)
      (hc : path ∈ p.holes ++ [p.outline]) : PrintedWith lib o pt n l false path o.print.outerPerimeterSpeed
  | innerWall {walls part first rest inset p path} (hw : l.perimeters = .ok walls) (hpart : part ∈ walls) (hi : part = first :: rest)
      (hr : inset ∈ rest) (hp : p ∈ inset) (hc : path ∈ p.holes ++ [p.outline]) : PrintedWith lib o pt n l false path o.print.layerSpeed
  | brim {brim p} (hb : l.brim = .ok brim) (hp : p ∈ brim.flatten.flatten) : PrintedWith lib o pt n l false p.outline o.print.layerSpeed
  | skirt {walls support p} (hn : n = 0) (hs : o.print.brimSkirt.skirtCount ≠ 0) (hw : l.perimeters = .ok walls) (hu : l.fullSupport = .ok support)
      (hp : p ∈ (skirtLines lib o support walls).flatten) : PrintedWith lib o pt n l false p.outline o.print.layerSpeed
  | infill {fill name parts part lines path} (hk : (some fill, name) ∈ [(pt.support, "support"), (pt.supportInterface, "supportInterface"),
      (pt.bottom, "bottom"), (pt.top, "top"), (pt.infill, "infill")]) (hp : l.partsAttribute name = .ok parts) (hpart : part ∈ parts)
      (hl : fill n part = .ok lines) (hpath : path ∈ lines) : PrintedWith lib o pt n l true path (fillSpeed o l)

/-- Speeds are whole mm/s; the first layer has its own speed if that is at least 1 mm/s. -/
def lineSpeed (o : Options) (n : Nat) (speed : ℚ) : Int :=
  if n = 0 ∧ 0 < truncZ o.print.initialLayerSpeed then truncZ o.print.initialLayerSpeed else truncZ speed

/-- The machine moves with a speed in mm/s (the feed rate is in mm per minute). A speed of 0 is not written before the first positive one. -/
def Moves (m : Machine) (speed : Int) : Prop := m.f = some ((60 * speed : Int) : ℚ) ∨ speed = 0 ∧ m.f = none

end Verif.Spec
