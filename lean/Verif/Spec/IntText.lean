/-
Specification vocabulary: texts that Python reads as integers.
-/
import Mathlib.Data.Nat.Digits.Defs
import Mathlib.Data.Int.Basic

namespace Metcalcpy.Spec

/-- The text is made of these digits (in this order), with at most one underscore between two of them. -/
inductive DigitText : List Char → List Char → Prop
  | one {c : Char} : c.isDigit = true → DigitText [c] [c]
  | digit {c : Char} {text digits : List Char} : c.isDigit = true → DigitText text digits →
      DigitText (c :: text) (c :: digits)
  | underscore {c : Char} {text digits : List Char} : c.isDigit = true → DigitText text digits →
      DigitText (c :: '_' :: text) (c :: digits)

/-- The number written by a list of decimal digits. -/
def decimalNumber (ds : List Char) : ℕ := Nat.ofDigits 10 (ds.reverse.map (fun c => c.toNat - 48))

/-- The text is an integer, possibly with a sign and with blanks around it, and `z` is its value. -/
def IsIntText (s : String) (z : ℤ) : Prop :=
  ∃ before after text digits : List Char,
    (∀ c ∈ before ++ after, c = ' ' ∨ c = '\t' ∨ c = '\n' ∨ c = '\r') ∧ DigitText text digits ∧
    ((s.toList = before ++ text ++ after ∧ z = decimalNumber digits) ∨
     (s.toList = before ++ '+' :: text ++ after ∧ z = decimalNumber digits) ∨
     (s.toList = before ++ '-' :: text ++ after ∧ z = - decimalNumber digits))

end Metcalcpy.Spec
