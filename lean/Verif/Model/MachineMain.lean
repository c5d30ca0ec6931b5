import Verif.Model.Flags
import Verif.Model.MachineProcess

/-! # The command with int64 arithmetic -/
namespace Verif.Model
open Verif.Go

/-- `cmd/goslice/main.go:16-37` `main` with int64 arithmetic, with the simplifications of `main`. -/
def mainM (ext : Externals) (cl : CommandLine) (w : World) : World × Nat :=
  match parseFlags cl with
  | none => (w, 2)
  | some o =>
    if o.goSlice.printVersion then (w, 0)
    else if o.goSlice.inputFilePath = [] then (w, 1)
    else
      match goSliceM ext o w with
      | (w, .ok _) => (w, 0)
      | (w, .error _) => (w, 2)

end Verif.Model
