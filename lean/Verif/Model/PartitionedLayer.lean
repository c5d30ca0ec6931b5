import Verif.Model.Clip

/-! # Model of layers with attributes: `data.PartitionedLayer`, `modifier/modifier.go` and the attribute accessors -/
namespace Verif.Model
open Verif.Go

/-- The value of an attribute. The dynamic types used by the code are `clip.OffsetResult`, `[][]data.LayerPart` and `[]data.LayerPart`;
`other` stands for any other type. -/
inductive Attr where
  | offsetResult (r : OffsetResult)
  | partLists (r : List (List LayerPart))
  | parts (r : List LayerPart)
  | other (n : Nat)

/-- A Go map from names to attribute values. -/
abbrev AttrMap := String → Option Attr

/-- Assignment to a map entry. -/
def AttrMap.insert (m : AttrMap) (k : String) (v : Attr) : AttrMap := fun k' => if k' = k then some v else m k'

/-- `data/layer.go:278-291` `PartitionedLayer`: `partitionedLayer` has no attribute map (`none`), the `extendedLayer` of
`modifier/modifier.go:9-13` `extendedLayer` has one. Its unused field `typ` is dropped. The bounds are determined by the parts
(`layerBounds`). Made by `data/layer.go:327-331` `NewPartitionedLayer`; the getters are `data/layer.go:333-339` and, for extended layers, `modifier/modifier.go:37-39`. -/
structure Layer where
  parts : List LayerPart
  attrs : Option AttrMap := none

namespace Layer

/-- Reading an entry of `layer.Attributes()`; reading a nil map gives nothing. -/
def attr (l : Layer) (name : String) : Option Attr := l.attrs.bind (fun m => m name)

/-- `modifier/modifier.go:19-35` `newExtendedLayer`. -/
def extend (l : Layer) : Layer := { parts := l.parts, attrs := some (l.attrs.getD fun _ => none) }

/-- `newLayer.attributes[name] = v` for an extended layer. -/
def set (l : Layer) (name : String) (v : Attr) : Layer := { l with attrs := l.attrs.map fun m => AttrMap.insert m name v }

/-- Effect of `newExtendedLayer(l).attributes[name] = v` on `l` itself, if the new layer is not stored: the map is shared, if there is one. -/
def setShared (l : Layer) (name : String) (v : Attr) : Layer := l.set name v

/-- `modifier/modifier.go:46-57` `PartsAttribute`. No attribute gives nil, which is the empty list here. -/
def partsAttribute (l : Layer) (name : String) : Res (List LayerPart) :=
  match l.attr name with
  | none => .ok []
  | some (.parts r) => .ok r
  | some _ => .error (.err ("the attribute " ++ name ++ " has the wrong datatype"))

/-- `modifier/perimeter.go:31-42` `OverlapPerimeters`. -/
def overlapPerimeters (l : Layer) : Res (List (List LayerPart)) :=
  match l.attr "overlapPerimeters" with
  | none => .ok []
  | some (.partLists r) => .ok r
  | some _ => .error (.err "the attribute overlapPerimeters has the wrong datatype")

/-- `modifier/perimeter.go:48-59` `Perimeters`. -/
def perimeters (l : Layer) : Res OffsetResult :=
  match l.attr "perimeters" with
  | none => .ok []
  | some (.offsetResult r) => .ok r
  | some _ => .error (.err "the attribute perimeters has the wrong datatype")

/-- `modifier/brim.go:40-51` `Brim`. -/
def brim (l : Layer) : Res OffsetResult :=
  match l.attr "brim" with
  | none => .ok []
  | some (.offsetResult r) => .ok r
  | some _ => .error (.err "the attribute 'brim' has the wrong datatype")

/-- `modifier/brim.go:60-71` `BrimOuterDimension`. -/
def brimOuterDimension (l : Layer) : Res (List LayerPart) :=
  match l.attr "outerBrim" with
  | none => .ok []
  | some (.parts r) => .ok r
  | some _ => .error (.err "the attribute 'outerbrim' has the wrong datatype")

/-- `modifier/support.go:20-31` `FullSupport`. -/
def fullSupport (l : Layer) : Res (List LayerPart) :=
  match l.attr "fullSupport" with
  | none => .ok []
  | some (.parts r) => .ok r
  | some _ => .error (.err "the attribute fullSupport has the wrong datatype")

end Layer
end Verif.Model
