import Verif.Go.Strconv
import Verif.Spec.Mesh

/-! # Specification of the log -/
namespace Verif.Spec
open Verif.Go Verif.Model

instance {α : Type} [DecidableEq α] (t : Tri α) (s : α × α) : Decidable (HasSide t s) := by unfold HasSide; infer_instance

/-- The number of sides of the faces which no other face has. -/
def openSides (fs : List (Tri Vec3)) : Nat :=
  (fs.zipIdx.map fun p => (List.range 3).countP fun n => ∀ q ∈ fs.zipIdx, q.2 ≠ p.2 → ¬ HasSide q.1 (faceSide p.1 n)).sum

/-- A vector in the log. -/
def vecText (v : Vec3) : Str := formatInt v.x ++ ['_'] ++ formatInt v.y ++ ['_'] ++ formatInt v.z

/-- The lines about the model which was read. -/
def loadText (path : Str) : Str := "Load model ".toList ++ path ++ "\n".toList
@[inherit_doc loadText]
def loadedText (faces : Nat) (lo hi : Vec3) : Str :=
  "Model loaded.\n".toList ++ ("Face count: ".toList ++ formatInt faces ++ "\n".toList) ++ ("Size: min: ".toList ++ vecText lo ++ " max ".toList ++ vecText hi ++ "\n".toList)

/-- The lines about the optimized model. -/
def optimizedText (sides : Nat) : Str := ("Number of open faces: ".toList ++ formatInt sides ++ "\n".toList) ++ "Model optimized\n".toList

/-- The line about the sliced model. -/
def slicedText (layers : Nat) : Str := "Model sliced to ".toList ++ formatInt layers ++ " layers\n".toList

/-- The lines about the first `k` modifiers. -/
def modifiersText (k : Nat) : Str :=
  (["Modifier Perimeter applied\n", "Modifier Infill applied\n", "Modifier InternalInfill applied\n", "Modifier Brim applied\n", "Modifier SupportDetector applied\n",
    "Modifier SupportGenerator applied\n"].take k).flatMap String.toList

/-- The line about all modifiers. -/
def modifiedText (layers : Nat) : Str := "Layers modified ".toList ++ formatInt layers ++ "\n".toList

/-- The lines about the first `k` of the layers. -/
def layersText (layers k : Nat) : Str :=
  (List.range k).flatMap fun (n : Nat) => "Render layer ".toList ++ formatInt n ++ "/".toList ++ formatInt ((layers : Int) - 1) ++ "\n".toList

/-- The line at the end. -/
def timeText (time : Str) : Str := "full processing time: ".toList ++ time ++ "\n".toList

end Verif.Spec
