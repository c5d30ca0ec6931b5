import Verif.Model.PartitionedLayer

/-! # Specification for modifiers: what may change in a list of layers -/
namespace Verif.Spec
open Verif.Model

/-- The layer `l'` has the parts of `l`, and all attributes not named in `names` are the same. -/
def SameBut (names : List String) (l l' : Layer) : Prop := l'.parts = l.parts ∧ ∀ n, n ∉ names → l'.attr n = l.attr n

/-- Same number of layers, which are the same one by one except for the named attributes. -/
def SameLayersBut (names : List String) (ls ls' : List Layer) : Prop := List.Forall₂ (SameBut names) ls ls'

/-- The area of the attribute is a list of parts (or not there at all). -/
def HasParts (l : Layer) (name : String) (ps : List LayerPart) : Prop := l.attr name = some (.parts ps) ∨ l.attr name = none ∧ ps = []

end Verif.Spec
