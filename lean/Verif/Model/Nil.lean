import Verif.Model.Clip

/-! # Nil and empty slices in `clip/clip.go`

In the other files a nil slice is an empty list. Here a slice is `none` if it is nil. -/
namespace Verif.Model
open Verif.Go

/-- `clip/clip.go:225-257` `polyTreeToLayerParts`: `layerParts` is nil until a part is appended. -/
def polyTreeToLayerPartsNil (childs : List PolyNode) : Option (List LayerPart) :=
  if polyTreeToLayerParts childs = [] then none else some (polyTreeToLayerParts childs)

/-- `clip/clip.go:303-325` `runClipper`, with nil slices: the shortcut is taken only if both slices are nil. The outer `none` stands for `ok == false`. -/
def ClipperLib.runClipperNil (lib : ClipperLib) (clipType : ClipType) (parts toClip : Option (List LayerPart)) : Option (Option (List LayerPart)) :=
  match parts, toClip with
  | none, none => some none
  | _, _ => (lib.execute clipType ((parts.getD []).flatMap partPaths) ((toClip.getD []).flatMap partPaths)).map polyTreeToLayerPartsNil

end Verif.Model
