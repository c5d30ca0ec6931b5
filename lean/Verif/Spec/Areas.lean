import Verif.Spec.Region
import Verif.Model.PartitionedLayer

/-! # Areas for solid infill -/
namespace Verif.Spec
open Verif.Model

variable {X : Type} (inside : List IntPoint → Set X)

/-- The area of a part which is a bottom, for `n` bottom layers: all of it on the lowest `n` layers, and what is not covered by one
of the `n` layers below. -/
def bottomArea (layers : List Layer) (layerNr n : Nat) (part : LayerPart) : Set X :=
  {x | x ∈ region inside [part] ∧ ∃ i < n, i = layerNr ∨
    ∃ below, i + 1 ≤ layerNr ∧ layers[layerNr - 1 - i]? = some below ∧ x ∉ region inside below.parts}

/-- The area of a part which is a top, for `n` top layers. -/
def topArea (layers : List Layer) (layerNr n : Nat) (part : LayerPart) : Set X :=
  {x | x ∈ region inside [part] ∧ ∃ i < n, layerNr + i + 1 = layers.length ∨
    ∃ above, layers[layerNr + 1 + i]? = some above ∧ x ∉ region inside above.parts}

/-- The region of an attribute of layer number `k` (empty if there is no such layer or attribute). -/
def attrArea (layers : List Layer) (k : Nat) (name : String) : Set X :=
  {x | ∃ l ps, layers[k]? = some l ∧ l.attr name = some (.parts ps) ∧ x ∈ region inside ps}

end Verif.Spec
