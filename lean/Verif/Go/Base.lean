/-!
# Go run-time outcomes

A Go function that may return an `error` or panic is modelled as a function into `Except Fault α`.
-/
namespace Verif.Go

/-- The two ways a modelled Go function can fail: a returned `error` value, or a run-time panic
(index out of range, nil dereference, integer division by zero, explicit `panic`). -/
inductive Fault where
  | err (msg : String)
  | panic (msg : String)
deriving DecidableEq, Repr

/-- Result of a Go function which may return an error or panic. -/
abbrev Res (α : Type) := Except Fault α

deriving instance DecidableEq for Except

/-- `s[i]` with Go's bounds check. -/
def index {α : Type} (l : List α) (i : Int) : Res α :=
  if 0 ≤ i then
    match l[i.toNat]? with
    | some a => .ok a
    | none => .error (.panic "index out of range")
  else .error (.panic "index out of range")

/-- Integer division `a / b`: truncates, panics for `b = 0`. -/
def quo (a b : Int) : Res Int :=
  if b = 0 then .error (.panic "integer divide by zero") else .ok (a.tdiv b)

end Verif.Go
