/-
Basic vocabulary of the model: Python exceptions, cells, tables.
-/
import Mathlib.Data.Rat.Floor
import Mathlib.Algebra.Order.Floor.Ring
import Mathlib.Algebra.Order.Field.Basic

namespace Metcalcpy

/-- Python exceptions that escape a modelled function. -/
inductive PyErr
  | indexError | typeError | valueError | zeroDivisionError | attributeError
  | keyError | nameError | overflowError | unboundLocalError | systemExit
  | unsortedArray | incompatibleLengths | assertionError
  deriving DecidableEq, Repr

/-- A numeric cell of a data frame; `none` is NaN / None / NA.
Simplification: doubles are exact rationals, infinities are not modelled. -/
abbrev Cell := Option ℚ

/-- Division of two Python/NumPy numbers inside the `try` blocks of the statistics.  A zero divisor
raises (ZeroDivisionError for Python floats, a RuntimeWarning turned into an exception by
`warnings.filterwarnings('error')` for NumPy scalars) and the handler returns `None`. -/
def pyDiv (a b : ℚ) : Option ℚ := if b = 0 then none else some (a / b)

end Metcalcpy
