import Verif.Model.Flags

/-! # All values of lengths in the options, also infinity and NaN -/
namespace Verif.Model
open Verif.Go

/-- Values of the Go type `float32`, without the distinction of the two zeros. -/
inductive F32 where
  | finite (x : ℚ)
  | inf (negative : Bool)
  | nan
  deriving DecidableEq

/-- Capital letters as small letters, in `commonPrefixLenIgnoreCase` of `strconv`. -/
def smallLetter (c : Char) : Char := if 'A' ≤ c ∧ c ≤ 'Z' then Char.ofNat (c.toNat + 32) else c

/-- `commonPrefixLenIgnoreCase` of `strconv`: how many characters at the beginning are those of the second text (in small letters), in small or capital letters. -/
def commonPrefixLen : Str → Str → Nat
  | c :: s, d :: t => if smallLetter c = d then commonPrefixLen s t + 1 else 0
  | _, _ => 0

/-- The case for infinity in `special` of `strconv`, after the sign. -/
def specialInf (negative : Bool) (nsign : Nat) (s : Str) : Option (F32 × Nat) :=
  let n := commonPrefixLen s "infinity".toList
  let n := if 3 < n ∧ n < 8 then 3 else n
  if n = 3 ∨ n = 8 then some (.inf negative, nsign + n) else none

/-- `special` of `strconv`: the value and the number of characters read. -/
def special : Str → Option (F32 × Nat)
  | [] => none
  | c :: s =>
    if c = '+' then specialInf false 1 s
    else if c = '-' then specialInf true 1 s
    else if c = 'i' ∨ c = 'I' then specialInf false 0 (c :: s)
    else if c = 'n' ∨ c = 'N' then (if commonPrefixLen (c :: s) "nan".toList = 3 then some (.nan, 3) else none)
    else none

/-- `strconv.ParseFloat(s, 32)`: value and error. The limit for exponents is added in `parseFloat32Limit`. -/
def parseFloat32Full (s : Str) : F32 × Option NumError :=
  match special s with
  | some (v, n) => if n = s.length then (v, none) else (.finite 0, some .syntaxError)
  | none =>
    match readFloat s with
    | none => (.finite 0, some .syntaxError)
    | some x => if |r32 x| < 2 ^ 128 then (.finite (r32 x), none) else (.inf (decide (x < 0)), some .range)

/-- The value of the digits of an exponent in `readFloat` of `strconv`: digits after 10000 is reached are ignored. -/
def expVal (s : Str) : Nat := s.foldl (fun e c => if e < 10000 then e * 10 + dval c else e) 0

/-- `readExponent`, with another way to get the value of the digits. -/
def readExponentBy (val : Str → Nat) : Str → Option Int
  | [] => some 0
  | c :: s =>
    if c = 'e' ∨ c = 'E' then
      let r := readSign s
      if r.2 = [] ∨ !r.2.all Char.isDigit then none
      else some (if r.1 then -(val r.2 : Int) else val r.2)
    else none

/-- `readDecimal`, with another way to get the value of the exponent. -/
def readDecimalBy (val : Str → Nat) (s : Str) : Option ℚ :=
  let sign := readSign s
  let int := leadingDigits sign.2
  let frac := readFraction int.2
  if int.1 = [] ∧ frac.1 = [] then none
  else (readExponentBy val frac.2).map fun e =>
    (if sign.1 then -1 else 1) * (digitsVal (int.1 ++ frac.1) : ℚ) * 10 ^ (e - (frac.1.length : Int))

/-- `readHexExponent`, with another way to get the value of the digits. -/
def readHexExponentBy (val : Str → Nat) : Str → Option Int
  | [] => none
  | c :: s => if c = 'p' ∨ c = 'P' then readExponentBy val ('e' :: s) else none

/-- `readHex`, with another way to get the value of the exponent. -/
def readHexBy (val : Str → Nat) (s : Str) : Option ℚ :=
  let int := leadingHex s
  let frac := readHexFraction int.2
  if int.1 = [] ∧ frac.1 = [] then none
  else (readHexExponentBy val frac.2).map fun e => (hexVal (int.1 ++ frac.1) : ℚ) * 2 ^ (e - 4 * (frac.1.length : Int))

/-- `readFloat`, with another way to get the value of the exponent. -/
def readFloatBy (val : Str → Nat) (s : Str) : Option ℚ :=
  let sign := readSign s
  if '_' ∈ s ∧ !underscoreOK sign.2 then none
  else
    match sign.2 with
    | '0' :: c :: d :: t =>
      if c = 'x' ∨ c = 'X' then (readHexBy val ((d :: t).filter (· ≠ '_'))).map fun x => (if sign.1 then -1 else 1) * x
      else readDecimalBy val (s.filter (· ≠ '_'))
    | _ => readDecimalBy val (s.filter (· ≠ '_'))

/-- `strconv.ParseFloat(s, 32)` with the limit for exponents: value and error. -/
def parseFloat32Limit (s : Str) : F32 × Option NumError :=
  match special s with
  | some (v, n) => if n = s.length then (v, none) else (.finite 0, some .syntaxError)
  | none =>
    match readFloatBy expVal s with
    | none => (.finite 0, some .syntaxError)
    | some x => if |r32 x| < 2 ^ 128 then (.finite (r32 x), none) else (.inf (decide (x < 0)), some .range)

/-- `data/option.go:36-40` `Millimeter.Set`, with the limit for exponents: the new value and the error. -/
def millimeterSetLimit (s : Str) : F32 × Option NumError := parseFloat32Limit s

/-- `data/option.go:36-40` `Millimeter.Set`: the new value and the error. -/
def millimeterSetFull (s : Str) : F32 × Option NumError := parseFloat32Full s

/-- `data/option.go:32-34` `Millimeter.String`, with the texts of `strconv.FormatFloat` for infinity and NaN. -/
def millimeterStringFull : F32 → Str
  | .finite x => millimeterString x
  | .inf false => "+Inf".toList
  | .inf true => "-Inf".toList
  | .nan => "NaN".toList

end Verif.Model
