/-
Specification of calendar days.
-/
import Verif.Model.Base
import Mathlib.Logic.Function.Iterate

namespace Metcalcpy.Spec

/-- The days of month `m` of year `y` in the Gregorian calendar. -/
def monthDays (y m : ℕ) : ℕ :=
  if m = 2 then (if 4 ∣ y ∧ (¬ 100 ∣ y ∨ 400 ∣ y) then 29 else 28)
  else if m = 4 ∨ m = 6 ∨ m = 9 ∨ m = 11 then 30 else 31

/-- `(y, m, d)` is a day of the calendar. -/
def IsDay (t : ℕ × ℕ × ℕ) : Prop := 1 ≤ t.1 ∧ 1 ≤ t.2.1 ∧ t.2.1 ≤ 12 ∧ 1 ≤ t.2.2 ∧ t.2.2 ≤ monthDays t.1 t.2.1

/-- The day after a day. -/
def dayAfter (t : ℕ × ℕ × ℕ) : ℕ × ℕ × ℕ :=
  if t.2.2 < monthDays t.1 t.2.1 then (t.1, t.2.1, t.2.2 + 1)
  else if t.2.1 < 12 then (t.1, t.2.1 + 1, 1)
  else (t.1 + 1, 1, 1)

end Metcalcpy.Spec
