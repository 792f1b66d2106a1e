/-
Specification vocabulary for thresholds such as ">=273.15".
-/
import Verif.Model.Thresh

namespace Metcalcpy.Spec

/-- How an operator is written. -/
def opText : Option ThrOp → List Char
  | none => []
  | some .lt => ['<']
  | some .le => ['<', '=']
  | some .eq => ['=', '=']
  | some .ge => ['>', '=']
  | some .gt => ['>']

/-- Position of an operator in the order <, <=, ==, >=, >; no operator means ==. -/
def opRank : Option ThrOp → ℕ
  | some .lt => 0
  | some .le => 1
  | some .eq => 2
  | none => 2
  | some .ge => 3
  | some .gt => 4

/-- `num` begins like a number: minus signs, then a digit. -/
def LooksNumeric (num : List Char) : Prop :=
  ∃ (k : ℕ) (d : Char) (rest : List Char), num = List.replicate k '-' ++ d :: rest ∧ d.isDigit = true

/-- `s` is an operator followed by a numeral that denotes `v`. -/
def IsThreshold (float : List Char → Option ℚ) (s : String) (op : Option ThrOp) (v : ℚ) : Prop :=
  ∃ num, s.toList = opText op ++ num ∧ LooksNumeric num ∧ float num = some v

/-- `s` is an operator followed by a text that is not numeric and does not begin like an operator. -/
def IsTextThreshold (s : String) (op : Option ThrOp) (text : String) : Prop :=
  s.toList = opText op ++ text.toList ∧ ¬ LooksNumeric text.toList ∧
    ∀ c ∈ text.toList.head?, c ≠ '<' ∧ c ≠ '=' ∧ c ≠ '>'

/-- Order of thresholds: value first, then operator. -/
def ThreshLE {κ : Type} [LT κ] (a b : κ × Option ThrOp) : Prop :=
  a.1 < b.1 ∨ (a.1 = b.1 ∧ opRank a.2 ≤ opRank b.2)

/-- Same position in that order. -/
def SameThresh {κ : Type} (a b : κ × Option ThrOp) : Prop := a.1 = b.1 ∧ opRank a.2 = opRank b.2

end Metcalcpy.Spec
