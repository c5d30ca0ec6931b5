import Verif.Spec.Request
import Verif.Model.Calls

/-! # Specification: which moves the calls of a G-code builder ask for -/
namespace Verif.Spec
open Verif.Go Verif.Model Verif.Spec.GCode

/-- The settings in force. Speeds are whole mm/s (the fraction is dropped). -/
structure Settings where
  moveSpeed : Int := 0
  extrudeSpeed : Int := 0
  override : Int := 0
  retractionSpeed : Int := 0
  retractionAmount : ℚ := 0
  zHop : ℚ := 0
  perMM : ℚ := 0

/-- Speed of a normal move: a positive override wins for extruding moves. -/
def Settings.speed (s : Settings) (extrusion : ℚ) : Int :=
  if extrusion = 0 then s.moveSpeed else if 0 < s.override then s.override else s.extrudeSpeed

/-- A move with the normal speed. -/
def Settings.move (s : Settings) (p : Vec3) (extrusion : ℚ) : Request := ⟨p, extrusion, s.speed extrusion⟩

/-- Filament for a line (float32): length times filament per millimetre. -/
def Settings.filament (s : Settings) (a b : Pt) : ℚ := r32 ((b.sub a).sizeMM * s.perMM)

/-- One extruding move per point. -/
def Settings.lines (s : Settings) (z : Int) : Pt → Path → List Request
  | _, [] => []
  | a, b :: rest => s.move ⟨b.x, b.y, z⟩ (s.filament a b) :: s.lines z b rest

/-- The way to the first point of a polygon. When crossing a perimeter the filament is retracted before and restored after it, and the
head is lifted if a hop is configured. -/
def Settings.approach (s : Settings) (crosses : Bool) (last : Vec3) (p0 : Pt) (z : Int) : List Request :=
  if crosses then
    if 0 < s.zHop then
      [⟨last, -s.retractionAmount, s.retractionSpeed⟩,
       s.move ⟨last.x, last.y, z + toMicrometer s.zHop⟩ 0,
       s.move ⟨p0.x, p0.y, z + toMicrometer s.zHop⟩ 0,
       s.move ⟨p0.x, p0.y, z⟩ 0,
       ⟨⟨p0.x, p0.y, z⟩, s.retractionAmount, s.retractionSpeed⟩]
    else
      [⟨last, -s.retractionAmount, s.retractionSpeed⟩,
       s.move ⟨p0.x, p0.y, z⟩ 0,
       ⟨⟨p0.x, p0.y, z⟩, s.retractionAmount, s.retractionSpeed⟩]
  else [s.move ⟨p0.x, p0.y, z⟩ 0]

/-- The way back to the first point. -/
def Settings.closing (s : Settings) (z : Int) (p0 last : Pt) : Request := s.move ⟨p0.x, p0.y, z⟩ (s.filament last p0)

/-- All moves for a polygon with the points `p0 :: rest`. -/
def Settings.draw (s : Settings) (crosses : Bool) (last : Vec3) (p0 : Pt) (rest : Path) (z : Int) (isOpen : Bool) : List Request :=
  s.approach crosses last p0 z ++ s.lines z p0 rest ++ (if isOpen then [] else [s.closing z p0 (rest.getLastD p0)])

/-- The settings and everything requested so far. -/
structure Plan where
  settings : Settings := {}
  requests : List Request := []

/-- Where the head is according to the requests; the origin if there was none. -/
def Plan.last (p : Plan) : Vec3 := (p.requests.getLast?.map Request.target).getD ⟨0, 0, 0⟩

/-- A retraction is made if the travel crosses a perimeter of the given layer and retraction is configured. -/
def Plan.retracts (p : Plan) (crossing : List LayerPart → Path → Bool × Bool) (layer : Option (List LayerPart)) (p0 : Pt) : Bool :=
  match layer with
  | none => false
  | some parts => decide (p.settings.retractionSpeed ≠ 0 ∧ p.settings.retractionAmount ≠ 0) &&
      (crossing parts [⟨p.last.x, p.last.y⟩, p0]).1

/-- What has to be drawn for a polygon. The polygon drawn is the smoothed one (its relation to the given one is the
subject of C04 to C06). -/
def Plan.polygon (crossing : List LayerPart → Path → Bool × Bool) (p : Plan) (layer : Option (List LayerPart)) (polygon : Path) (z : Int)
    (isOpen : Bool) : List Request :=
  match douglasPeuckerM polygon (-1) with
  | [] => []
  | p0 :: rest => p.settings.draw (p.retracts crossing layer p0) p.last p0 rest z isOpen

/-- What a call means. `flow` gives the filament per millimetre (C28). -/
def Plan.call (crossing : List LayerPart → Path → Bool × Bool) (flow : Int → Int → ℚ) (p : Plan) : Call → Plan
  | .setExtrusion t w => { p with settings := { p.settings with perMM := flow t w } }
  | .setMoveSpeed v => { p with settings := { p.settings with moveSpeed := truncZ v } }
  | .setExtrudeSpeed v => { p with settings := { p.settings with extrudeSpeed := truncZ v } }
  | .setExtrudeSpeedOverride v => { p with settings := { p.settings with override := truncZ v } }
  | .disableExtrudeSpeedOverride => { p with settings := { p.settings with override := 0 } }
  | .setRetractionSpeed v => { p with settings := { p.settings with retractionSpeed := truncZ v } }
  | .setRetractionAmount v => { p with settings := { p.settings with retractionAmount := v } }
  | .setRetractionZHop v => { p with settings := { p.settings with zHop := v } }
  | .command _ => p
  | .comment _ => p
  | .text _ => p
  | .moveSpeed q e s => { p with requests := p.requests ++ [⟨q, e, s⟩] }
  | .move q e => { p with requests := p.requests ++ [p.settings.move q e] }
  | .polygon layer polygon z isOpen => { p with requests := p.requests ++ p.polygon crossing layer polygon z isOpen }

/-- What a history means. -/
def plan (crossing : List LayerPart → Path → Bool × Bool) (flow : Int → Int → ℚ) (cs : List Call) : Plan :=
  cs.foldl (Plan.call crossing flow) {}

/-- A text which contains no percent sign and no line that moves the head. -/
def Harmless (t : Str) : Prop :=
  '%' ∉ t ∧ ∀ l ∈ split '\n' t, (split ' ' l).head? ≠ some ['G', '0'] ∧ (split ' ' l).head? ≠ some ['G', '1']

/-- All additional texts of a call are harmless. -/
def Call.Harmless : Call → Prop
  | .command t => Spec.Harmless t
  | .comment t => Spec.Harmless (';' :: t)
  | .text t => Spec.Harmless t
  | _ => True

end Verif.Spec
