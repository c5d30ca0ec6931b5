import Verif.Go.Strconv
import Verif.Model.Micrometer

/-! # Model of the option types in `data/option.go` -/
namespace Verif.Model
open Verif.Go

/-- `data/option.go:18-20` `Micrometer.String`. -/
def micrometerString (m : Micrometer) : Str := formatInt m

/-- `data/option.go:22-26` `Micrometer.Set`: the new value and the error. The value is assigned even if there is an error. -/
def micrometerSet (s : Str) : Micrometer × Option NumError := parseInt true s

/-- `data/option.go:46-48` `microVec3.String`. -/
def vec3String (v : Vec3) : Str :=
  micrometerString v.x ++ '_' :: micrometerString v.y ++ '_' :: micrometerString v.z

/-- `data/option.go:50-76` `microVec3.Set`: the new state of the vector and whether there was an error. -/
def vec3Set (v : Vec3) (s : Str) : Vec3 × Bool :=
  let parts := split '_' s
  match parts with
  | [a, b, c] =>
    let rx := micrometerSet a
    if rx.2.isSome then (v, true)
    else
      let ry := micrometerSet b
      if ry.2.isSome then (v, true)
      else
        let rz := micrometerSet c
        if rz.2.isSome then (v, true)
        else ({ v with x := rx.1, y := ry.1, z := rz.1 }, false)
  | _ => (v, true)

/-- `data/option.go:320` the map `LayerToSpeedLUT map[int]int` as a partial function. -/
abbrev Lut := Int → Option Int

/-- Map assignment `m[k] = v`. -/
def Lut.insert (m : Lut) (k v : Int) : Lut := fun k' => if k' = k then some v else m k'

/-- `strconv.Atoi`. -/
def atoi (s : Str) : Int × Option NumError := parseInt false s

/-- `data/option.go:95-101` `FanSpeedOptions.String`; `order` is the order in which the map iteration yields the entries. -/
def fanString (order : List (Int × Int)) : Str :=
  join ',' (order.map fun kv => formatInt kv.1 ++ '=' :: formatInt kv.2)

/-- The loop of `data/option.go:106-126` `FanSpeedOptions.Set`; `none` is the error. -/
def fanLoop : List Str → Lut → Option Lut
  | [], lut => some lut
  | kvp :: rest, lut =>
    match split '=' kvp with
    | [k, v] =>
      let layer := atoi k
      let speed := atoi v
      if layer.2.isSome ∨ speed.2.isSome ∨ layer.1 < 0 ∨ speed.1 < 0 ∨ speed.1 > 255 then none
      else fanLoop rest (lut.insert layer.1 speed.1)
    | _ => none

/-- `data/option.go:106-126` `FanSpeedOptions.Set`: the new table and whether there was an error. -/
def fanSet (f : Lut) (s : Str) : Lut × Bool :=
  match fanLoop (split ',' s) (fun _ => none) with
  | some lut => (lut, false)
  | none => (f, true)

/-- `data/option.go:176-178` `GCodeHunk.String`, for `GCodeLines = lines`. -/
def hunkString (lines : List Str) : Str := join '\n' lines

/-- `data/option.go:181-196` `GCodeHunk.Set`: the new lines and whether there was an error. -/
def hunkSet (lines : List Str) (s : Str) : List Str × Bool :=
  if !contains s ['\n'] then (lines, true)
  else ((split '\n' s).filter (fun row => decide ((trimSpace row).length > 0)), false)

/-- First word of an instruction: `strings.Split(strings.TrimSpace(instruction), " ")[0]`. -/
def firstWord (instruction : Str) : Res Str := index (split ' ' (trimSpace instruction)) 0

/-- `data/option.go:140-149` `GCodeHunk.GetInstructionCode`; `code[0]` panics on the empty string. -/
def getInstructionCode : List Str → Res (List Str)
  | [] => .ok []
  | instruction :: rest => do
    let code ← firstWord instruction
    let c ← index code 0
    let codes ← getInstructionCode rest
    return if c = 'G' ∨ c = 'M' then code :: codes else codes

/-- `data/option.go:153-168` `GCodeHunk.DoesInstructionContainCodes`. -/
def doesInstructionContainCodes (targetCodes : List Str) : List Str → Res Bool
  | [] => .ok false
  | instruction :: rest => do
    let code ← firstWord instruction
    if targetCodes.any (fun targetCode => contains code targetCode) then return true
    else doesInstructionContainCodes targetCodes rest

end Verif.Model
