import Verif.Model.Slicer

/-! # Specification of the polygons of a layer -/
namespace Verif.Spec
open Verif.Model

/-- The distance of the points is at most `d` (never for a negative `d`). -/
def Within (p q : Pt) (d : Int) : Prop := 0 ≤ d ∧ (p.x - q.x) ^ 2 + (p.y - q.y) ^ 2 ≤ d ^ 2

instance (p q : Pt) (d : Int) : Decidable (Within p q d) := by unfold Within; infer_instance

/-- The faces of the segments `i` and `j` touch, and segment `j` starts where segment `i` ends (up to the meld distance). -/
def Follows (meld : Int) (om : OptModel) (layer : SliceLayer) (i j : Nat) : Prop :=
  ∃ s s' f, layer.segments[i]? = some s ∧ layer.segments[j]? = some s' ∧ om.faces[s.faceIndex]? = some f ∧ (s'.faceIndex : Int) ∈ f.touching.corners ∧
    Within s.finish s'.start meld

/-- The map from faces to segments is right, and all faces exist. -/
structure GoodLayer (om : OptModel) (layer : SliceLayer) : Prop where
  map : ∀ i k, layer.faceToSegmentIndex i = some k ↔ (layer.segments[k]?).map SliceSegment.faceIndex = some i
  face : ∀ s ∈ layer.segments, s.faceIndex < om.faces.length

/-- The path along segments: the start of the first one and all ends. -/
def pathOf : List SliceSegment → Path
  | [] => []
  | s :: ss => s.start :: (s :: ss).map SliceSegment.finish

/-- The segments with the given numbers. -/
def segmentsOf (layer : SliceLayer) (c : List Nat) : List SliceSegment := c.filterMap (layer.segments[·]?)

/-- The polygon consists of the segments with the numbers `c`: each one follows the one before; it is closed exactly if the first follows the last. -/
structure IsChainOf (meld : Int) (om : OptModel) (layer : SliceLayer) (c : List Nat) (p : Poly) : Prop where
  nonempty : c ≠ []
  linked : c.IsChain (Follows meld om layer)
  path : p.path = some (pathOf (segmentsOf layer c))
  closed : p.closed = true ↔ ∃ a b, c.head? = some a ∧ c.getLast? = some b ∧ Follows meld om layer b a

/-- Polygons end only where necessary: all segments following the last one of a polygon are in this polygon or in an earlier one. -/
def EndsLate (meld : Int) (om : OptModel) (layer : SliceLayer) (chains : List (List Nat)) : Prop :=
  ∀ (k : Nat) c b, chains[k]? = some c → c.getLast? = some b → ∀ j, Follows meld om layer b j → j ∈ (chains.take (k + 1)).flatten

/-- The sum of the lengths of the lines of a path. -/
def pathLength : Path → Int
  | p :: q :: rest => (q.sub p).size + pathLength (q :: rest)
  | _ => 0

/-- Path `b` starts near the end of path `a`. -/
def Continues (d : Int) (a b : Path) : Prop := ∃ x y, a.getLast? = some x ∧ b.head? = some y ∧ Within x y d

instance (d : Int) (a b : Path) : Decidable (Continues d a b) :=
  match ha : a.getLast?, hb : b.head? with
  | some x, some y => decidable_of_iff (Within x y d) (by simp [Continues, ha, hb])
  | none, _ => .isFalse (by simp [Continues, ha])
  | _, none => .isFalse (by simp [Continues, hb])

/-- The paths of the polygons with the given numbers. -/
def pathsOf (polys : List Poly) (g : List Nat) : List Path := g.filterMap fun k => (polys[k]?).bind Poly.path

/-- The polygon `p` was joined from the polygons with the numbers `g`: its path is made of their paths without losing a point, and each path starts near the end of the one
before. Only open polygons are joined. A joined polygon is closed if it ends near its own start. Nothing is left of a polygon joined to another one. -/
structure IsJoinOf (join : Int) (polys : List Poly) (g : List Nat) (p : Poly) : Prop where
  none : g = [] → p.path = none
  one : ∀ k, g = [k] → polys[k]? = some p
  path : g ≠ [] → p.path = some (pathsOf polys g).flatten
  linked : (pathsOf polys g).IsChain (Continues join)
  isOpen : 2 ≤ g.length → ∀ k ∈ g, ∃ q, polys[k]? = some ⟨some q, false⟩
  closed : 2 ≤ g.length → (p.closed = true ↔ Continues join (pathsOf polys g).flatten (pathsOf polys g).flatten)

/-- The polygon number `b` is open, not number `i`, and its path `q` starts near `last`. -/
def Joinable (join : Int) (polys : List Poly) (i : Nat) (last : Pt) (b : Nat) (q : Path) : Prop :=
  polys[b]? = some ⟨some q, false⟩ ∧ i ≠ b ∧ ∃ first, q.head? = some first ∧ Within last first join

/-- The score of a path: its distance, less 10 µm for each of its points. -/
def score (last : Pt) (q : Path) : Int := (last.sub (q.headD ⟨0, 0⟩)).size - (q.length * 10 : Nat)

/-- Two polygons are joined: an open one, and the one with the lowest score among the open ones which start near its end. -/
def JoinStep (join : Int) (polys polys' : List Poly) : Prop :=
  ∃ i p b q last cl, polys[i]? = some ⟨some p, false⟩ ∧ p.getLast? = some last ∧ Joinable join polys i last b q ∧
    (∀ c q', Joinable join polys i last c q' → score last q ≤ score last q') ∧
    (cl = true ↔ Continues join (p ++ q) (p ++ q)) ∧ polys' = (polys.set i ⟨some (p ++ q), cl⟩).set b ⟨none, false⟩

/-- The polygon leaves the slicer: it is closed, or ends near its start, and its lines are longer than `finish` in total. -/
def Delivered (finish : Int) (p : Poly) (path : Path) : Prop :=
  p.path = some path ∧ (p.closed = true ∨ Continues finish path path) ∧ finish < pathLength path

instance (finish : Int) (p : Poly) (path : Path) : Decidable (Delivered finish p path) := by unfold Delivered; infer_instance

/-- A path made of chains of segments: each segment follows the one before, and each chain starts near the end of the one before. -/
structure IsOutline (meld join : Int) (om : OptModel) (layer : SliceLayer) (cs : List (List Nat)) (path : Path) : Prop where
  nonempty : cs ≠ []
  chains : ∀ c ∈ cs, c ≠ [] ∧ c.IsChain (Follows meld om layer)
  path : path = (cs.map fun c => pathOf (segmentsOf layer c)).flatten
  linked : (cs.map fun c => pathOf (segmentsOf layer c)).IsChain (Continues join)

end Verif.Spec
