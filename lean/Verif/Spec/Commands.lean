import Verif.Spec.GCode

/-! # Specification: heater and fan commands of a G-code text

Written from the usual meaning of the M-codes, independently of the code under verification. -/
namespace Verif.Spec.GCode
open Verif.Go

/-- The words of a line, without its comment. -/
def words (l : Str) : List Str := (split ' ' (l.takeWhile (fun c => c ≠ ';'))).filter (fun w => w ≠ [])

/-- Commands for heaters and fan. -/
inductive Command where
  | hotend (wait : Bool) (temperature : ℚ)
  | bed (wait : Bool) (temperature : ℚ)
  | fan (speed : ℚ)
deriving DecidableEq, Repr

/-- Value of a word with the letter S. -/
def sValue : Str → Option ℚ
  | 'S' :: s => number s
  | _ => none

/-- The command of a line. Without an S word the heaters get 0 and the fan runs at full speed. -/
def command (l : Str) : Option Command :=
  match words l with
  | [] => none
  | code :: args =>
    let s := args.findSome? sValue
    if code = ['M', '1', '0', '4'] then some (.hotend false (s.getD 0))
    else if code = ['M', '1', '0', '9'] then some (.hotend true (s.getD 0))
    else if code = ['M', '1', '4', '0'] then some (.bed false (s.getD 0))
    else if code = ['M', '1', '9', '0'] then some (.bed true (s.getD 0))
    else if code = ['M', '1', '0', '6'] then some (.fan (s.getD 255))
    else if code = ['M', '1', '0', '7'] then some (.fan 0)
    else none

/-- All heater and fan commands of a text. -/
def commands (text : Str) : List Command := (split '\n' text).filterMap command

/-- The temperature of a hot end command. -/
def Command.hotend? : Command → Option ℚ
  | .hotend _ t => some t
  | _ => none

/-- The temperature of a bed command. -/
def Command.bed? : Command → Option ℚ
  | .bed _ t => some t
  | _ => none

/-- The speed of a fan command. -/
def Command.fan? : Command → Option ℚ
  | .fan v => some v
  | _ => none

/-- The target temperature of the hot end after commands. -/
def hotendTarget (cs : List Command) : Option ℚ := (cs.filterMap Command.hotend?).getLast?

/-- The target temperature of the bed after commands. -/
def bedTarget (cs : List Command) : Option ℚ := (cs.filterMap Command.bed?).getLast?

end Verif.Spec.GCode
