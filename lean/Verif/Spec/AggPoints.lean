/-
Specification vocabulary for the rows of an aggregation plot: what a requested value means and which input rows belong
to a point.
-/
import Verif.Spec.Frame
import Verif.Spec.Ungroup
import Mathlib.Data.Nat.Digits.Defs

namespace Metcalcpy.Spec
open Metcalcpy

/-- A requested text stands for these values: joined with ':' (a group) or, without ':', joined with ';'; a text with
neither stands for itself. -/
def StandsFor (v : String) (vals : List String) : Prop :=
  (':' ∈ v.toList ∧ IsGroup v vals) ∨
  (':' ∉ v.toList ∧ vals ≠ [] ∧ v.toList = [';'].intercalate (vals.map String.toList) ∧ ∀ w ∈ vals, ';' ∉ w.toList)

/-- The number written by a list of digits. -/
def digitsNumber (cs : List Char) : ℚ := (Nat.ofDigits 10 (cs.reverse.map (fun c => c.toNat - 48)) : ℕ)

/-- The text is a decimal number with a point, and `q` is its value. -/
def IsDecimal (s : String) (q : ℚ) : Prop :=
  ∃ a b : List Char, (∀ c ∈ a ++ b, c.isDigit = true) ∧ a ++ b ≠ [] ∧
    ((s.toList = a ++ '.' :: b ∧ q = digitsNumber (a ++ b) / 10 ^ b.length) ∨
     (s.toList = '-' :: (a ++ '.' :: b) ∧ q = - (digitsNumber (a ++ b) / 10 ^ b.length)))

/-- A cell has a requested value: texts that are integers or decimal numbers are compared as numbers, all others as
texts. -/
def CellIs (v : Val) (p : String) : Prop :=
  (∃ z : ℤ, IsIntText p z ∧ ∃ t, v = .num z t) ∨
  (∃ q : ℚ, IsDecimal p q ∧ ∃ t, v = .num q t) ∨
  ((∀ z, ¬ IsIntText p z) ∧ (∀ q, ¬ IsDecimal p q) ∧ v = .str p)

/-- A cell has one of the values a requested text stands for. -/
def CellAmong (v : Val) (request : String) : Prop :=
  ∃ vals, StandsFor request vals ∧ ∃ p ∈ vals, CellIs v p

/-- The input row `r` belongs to a point given as pairs (field, requested text): every field that is a column of the
input has one of the requested values, and the forecast variable is the given one. -/
def RowOf (f : Frame) (request : List (String × String)) (fcst : Option String) (r : List Val) : Prop :=
  (∀ q ∈ request, q.1 ∈ f.cols → ∃ v, HasCell f r q.1 v ∧ CellAmong v q.2) ∧
  (∀ x, fcst = some x → "fcst_var" ∈ f.cols → HasCell f r "fcst_var" (.str x))

end Metcalcpy.Spec
