/-
metcalcpy/bootstrap.py:67-76: width of the interval of a bootstrap result, absolute and relative.
-/
import Verif.Model.Bootstrap

namespace Metcalcpy

/-- bootstrap.py:67-69 error_width; a missing bound is a TypeError. -/
def errorWidth (r : BootResult) : Except PyErr ℚ :=
  match r.upper, r.lower with
  | some u, some l => .ok (u - l)
  | _, _ => .error .typeError

/-- A float that may be infinite. -/
inductive Fraction where
  | inf
  | num (q : ℚ)
  deriving DecidableEq, Repr

/-- bootstrap.py:71-76 error_fraction; a missing value divides as None (TypeError). -/
def errorFraction (r : BootResult) : Except PyErr Fraction :=
  if r.value = some 0 then .ok .inf
  else do
    let w ← errorWidth r
    match r.value with
    | none => .error .typeError
    | some v => .ok (.num (w / v))

end Metcalcpy
