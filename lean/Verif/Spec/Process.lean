import Verif.Model.Process

/-! # Specification of the order of the steps -/
namespace Verif.Spec
open Verif.Go Verif.Model

/-- A step of the program: a method with its arguments. Modifiers are given by their number. -/
inductive Step (M OM L : Type) where
  | read (path : Str)
  | describe (m : M)
  | optimize (m : M)
  | slice (om : OM)
  | modifierInit (nr : Nat) (om : OM)
  | modify (nr : Nat) (layers : L)
  | generatorInit (om : OM)
  | generate (layers : L)
  | write (gcode path : Str)

/-- The outcome of a step. -/
inductive Outcome (M OM L : Type) where
  | failed (e : Fault)
  | done
  | model (m : M)
  | optimized (om : OM)
  | layers (ls : L)
  | text (t : Str)

/-- A log of the steps done, with their outcomes. -/
abbrev StepLog (M OM L : Type) := List (Step M OM L × Outcome M OM L)

section
variable {W M OM L : Type}

/-- The latest layers in a log. -/
def latestLayers (log : StepLog M OM L) : Option L :=
  (log.filterMap fun e => match e.2 with | .layers ls => some ls | _ => none).getLast?

/-- The latest optimized model in a log. -/
def latestModel (log : StepLog M OM L) : Option OM :=
  (log.filterMap fun e => match e.2 with | .optimized om => some om | _ => none).getLast?

/-- The step which has to follow after the steps in the log, if there are `n` modifiers: none after a failure and at the end. -/
def nextStep (path out : Str) (n : Nat) (log : StepLog M OM L) : Option (Step M OM L) :=
  match log.getLast? with
  | none => some (.read path)
  | some (.read _, .model m) => some (.describe m)
  | some (.describe m, .done) => some (.optimize m)
  | some (.optimize _, .optimized om) => some (.slice om)
  | some (.slice om, .layers _) => some (if n = 0 then .generatorInit om else .modifierInit 0 om)
  | some (.modifierInit k _, .done) => (latestLayers log).map (.modify k)
  | some (.modify k _, .layers _) => (latestModel log).map fun om => if k + 1 = n then .generatorInit om else .modifierInit (k + 1) om
  | some (.generatorInit _, .done) => (latestLayers log).map .generate
  | some (.generate _, .text t) => some (.write t out)
  | _ => none

/-- At each time the step which follows in the log is the one which has to follow; in particular nothing is missing at the end. -/
def Correct (path out : Str) (n : Nat) (log : StepLog M OM L) : Prop :=
  ∀ k ≤ log.length, nextStep path out n (log.take k) = (log[k]?).map Prod.fst

/-- The outcome of a method, where `f` gives the outcome for a result. -/
def outcome {α : Type} (f : α → Outcome M OM L) : Res α → Outcome M OM L
  | .ok a => f a
  | .error e => .failed e

/-- A method which additionally writes itself and its outcome to the log. -/
def noted {α : Type} (s : Step M OM L) (f : α → Outcome M OM L) (a : Act W α) : Act (W × StepLog M OM L) α := fun w =>
  (((a w.1).1, w.2 ++ [(s, outcome f (a w.1).2)]), (a w.1).2)

/-- Handlers which additionally write a log. -/
def noting (h : Handlers W M OM L) : Handlers (W × StepLog M OM L) M OM L where
  read p := noted (.read p) .model (h.read p)
  describe m := noted (.describe m) (fun _ => .done) (h.describe m)
  optimize m := noted (.optimize m) .optimized (h.optimize m)
  slice om := noted (.slice om) .layers (h.slice om)
  modifiers := h.modifiers.zipIdx.map fun x =>
    { init := fun om => noted (.modifierInit x.2 om) (fun _ => .done) (x.1.init om), modify := fun ls => noted (.modify x.2 ls) .layers (x.1.modify ls) }
  generatorInit om := noted (.generatorInit om) (fun _ => .done) (h.generatorInit om)
  generate ls := noted (.generate ls) .text (h.generate ls)
  write t p := noted (.write t p) (fun _ => .done) (h.write t p)

/-- The step succeeded. -/
def Outcome.Fine : Outcome M OM L → Prop
  | .failed _ => False
  | _ => True

/-- A step which writes the output. -/
def Step.IsWrite : Step M OM L → Prop
  | .write _ _ => True
  | _ => False

end

/-- The output path as documented: the given one, or the input path with the suffix .gcode. -/
def outFile (o : GoSliceOptions) : Str :=
  match o.outputFilePath with
  | [] => o.inputFilePath ++ ['.', 'g', 'c', 'o', 'd', 'e']
  | c :: cs => c :: cs

end Verif.Spec
