/-
Richardson's (2000) relative economic value of a yes/no forecast, from expected expenses
(loss = 1, cost = cl).
-/
import Mathlib.Algebra.Order.Field.Basic
import Mathlib.Data.Rat.Defs

namespace Metcalcpy.Spec

/-- Mean expense of a user of the forecast: hits and false alarms cost `cl`, misses lose 1. -/
def expenseForecast (F H s cl : ℚ) : ℚ := H * s * cl + F * (1 - s) * cl + (1 - H) * s
/-- Mean expense with climatology: always protect (cl) or never protect (s), whichever is cheaper. -/
def expenseClimate (s cl : ℚ) : ℚ := min cl s
/-- Mean expense with a perfect forecast: protect exactly when the event occurs. -/
def expensePerfect (s cl : ℚ) : ℚ := s * cl
/-- Relative economic value. -/
def economicValueOf (F H s cl : ℚ) : ℚ :=
  (expenseClimate s cl - expenseForecast F H s cl) / (expenseClimate s cl - expensePerfect s cl)

end Metcalcpy.Spec
