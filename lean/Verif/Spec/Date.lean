/-
Day numbers of calendar dates.
-/
import Verif.Model.Validate

namespace Metcalcpy.Spec
open Metcalcpy

/-- Days of the year before the first of a month. -/
def daysBefore (y m : ℕ) : ℕ :=
  ([31, 28 + (if isLeap y then 1 else 0), 31, 30, 31, 30, 31, 31, 30, 31, 30].take (m - 1)).sum

/-- Number of a day, counted from 1 January of year 1 (proleptic Gregorian calendar). -/
def dayNumber (t : Date) : ℕ :=
  365 * (t.year - 1) + (t.year - 1) / 4 - (t.year - 1) / 100 + (t.year - 1) / 400 + daysBefore t.year t.month + t.day

end Metcalcpy.Spec
