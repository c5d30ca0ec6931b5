import Verif.Spec.GCode

/-! # Specification: the grammar of a printed layer, and the labels of moves

Written from the usual form of G-code files and the labels which viewers of such files read. -/
namespace Verif.Spec.GCode
open Verif.Go

/-- A non-empty sequence of decimal digits. -/
def Digits (s : Str) : Prop := s ≠ [] ∧ ∀ c ∈ s, '0' ≤ c ∧ c ≤ '9'

/-- A whole number: digits, optionally after a minus sign. -/
def Whole (s : Str) : Prop := Digits s ∨ ∃ t, s = '-' :: t ∧ Digits t

/-- A number with exactly `k` decimals. -/
def Fixed (k : Nat) (s : Str) : Prop := ∃ a b, s = a ++ '.' :: b ∧ Whole a ∧ Digits b ∧ b.length = k

/-- A word with this letter, or nothing. -/
def Optionally (letter : Char) (value : Str → Prop) (s : Str) : Prop := s = [] ∨ ∃ t, s = ' ' :: letter :: t ∧ value t

/-- A line with a move: `G0` with at least one coordinate and without E, or `G1` with E as last word. The words are in the order X, Y, Z, F, E, each at most
once, without exponents, with two decimals for coordinates, none for the feed rate and four for the filament. -/
def MoveLine (l : Str) : Prop :=
  ∃ x y z f, Optionally 'X' (Fixed 2) x ∧ Optionally 'Y' (Fixed 2) y ∧ Optionally 'Z' (Fixed 2) z ∧ Optionally 'F' Whole f ∧
    ((l = 'G' :: '0' :: (x ++ y ++ z ++ f) ∧ x ++ y ++ z ≠ []) ∨ ∃ e, Fixed 4 e ∧ l = 'G' :: '1' :: (x ++ y ++ z ++ f ++ ' ' :: 'E' :: e))

/-- A text with these lines, each with its newline. -/
def textOf (ls : List Str) : Str := ls.flatMap (· ++ ['\n'])

/-- The comments which tell what is drawn. -/
def typeComments : List Str :=
  [";TYPE:SKIRT".toList, ";TYPE:WALL-OUTER".toList, ";TYPE:WALL-INNER".toList, ";TYPE:SUPPORT".toList, ";TYPE:FILL".toList, ";BOTTOM-FILL".toList,
   ";TOP-FILL".toList, ";INTERNAL-FILL".toList]

/-- The lines which change fan and temperatures. -/
def ControlLine (l : Str) : Prop :=
  l = "M107 ; disable fan".toList ∨ l = ";SET_TEMP".toList ∨
    ∃ v, Whole v ∧ (l = "M106 S".toList ++ v ++ "; change fan speed".toList ∨ l = "M140 S".toList ++ v ∨ l = "M104 S".toList ++ v)

/-- The lines of layer `n`: its number, changes of fan and temperatures, then only moves and comments which tell what is drawn. -/
def LayerLines (n : Nat) (ls : List Str) : Prop :=
  ∃ v control drawing, ls = (";LAYER:".toList ++ v) :: (control ++ drawing) ∧ Digits v ∧ number v = some (n : ℚ) ∧ (∀ l ∈ control, ControlLine l) ∧
    ∀ l ∈ drawing, l ∈ typeComments ∨ MoveLine l

/-- The labels at a place of a text. -/
structure Label where
  layer : Option Str := none
  kind : Option Str := none
deriving DecidableEq

/-- The labels after a line: comments with a layer number or a type change them. -/
def Label.read (lab : Label) (l : Str) : Label :=
  if ";LAYER:".toList.isPrefixOf l then { lab with layer := some (l.drop 7) }
  else if ";TYPE:".toList.isPrefixOf l then { lab with kind := some (l.drop 6) }
  else lab

/-- A line is a move if its first word is `G0` or `G1`. -/
def isMove (l : Str) : Bool := (split ' ' l).head? = some ['G', '0'] ∨ (split ' ' l).head? = some ['G', '1']

/-- The labels of all moves of a text, given the labels before it. -/
def labelsFrom : Label → List Str → List Label
  | _, [] => []
  | lab, l :: ls => (if isMove l then [lab.read l] else []) ++ labelsFrom (lab.read l) ls

/-- The labels of all moves of a text. -/
def labels (text : Str) : List Label := labelsFrom {} (split '\n' text)

example : labels ";LAYER:3\n;TYPE:FILL\nG0 X1.00\n;TOP\nG1 X2.00 E1.0000\n;TYPE:WALL\nM107\nG1 X3.00 E2.0000\n".toList =
    [⟨some ['3'], some "FILL".toList⟩, ⟨some ['3'], some "FILL".toList⟩, ⟨some ['3'], some "WALL".toList⟩] := by decide

end Verif.Spec.GCode
