/-
metcalcpy/util/sl1l2_statistics.py and metcalcpy/util/sal1l2_statistics.py

`none` is the result `None`.  The statistics that take square roots are over ℝ.  A statistic that calls
another statistic continues with the warning filter 'ignore' (the inner call resets it), so that an invalid
square root or a division by zero of NumPy numbers after an inner call gives NaN or infinity instead of an
exception; `round_half_up` then raises ValueError / OverflowError, which these functions do not
handle.  Such functions return `Except PyErr (Option _)`.
-/
import Verif.Model.Round
import Verif.Model.Table
import Mathlib.Analysis.Real.Sqrt

namespace Metcalcpy

/-- Common body of calculate_fbar 22-44, obar 47-69, fobar 132-154, ffbar 157-179, oobar 182-204,
mae 207-229 of sl1l2_statistics.py. -/
def slMean (column : String) (t : Table) (aggregation : Bool) : Option ℚ := do
  let total ← getTotalValues t aggregation
  let q ← pyDiv (← sumColumn t column) total
  some (roundHalfUp q PRECISION)

/-- sl1l2_statistics.py:232-259 calculate_mbias. -/
def slMbias (t : Table) (aggregation : Bool) : Option ℚ := do
  let total ← getTotalValues t aggregation
  let obar ← pyDiv (← sumColumn t "obar") total
  if obar = 0 then none else do
    let fbar ← pyDiv (← sumColumn t "fbar") total
    let q ← pyDiv fbar obar
    some (roundHalfUp q PRECISION)

/-- sl1l2_statistics.py:301-325 calculate_fe. -/
def slFe (t : Table) (aggregation : Bool) : Option ℚ := do
  let total ← getTotalValues t aggregation
  let fbar ← pyDiv (← sumColumn t "fbar") total
  let obar ← pyDiv (← sumColumn t "obar") total
  let q ← pyDiv (fbar - obar) fbar
  some (roundHalfUp q PRECISION)

/-- sl1l2_statistics.py:328-352 calculate_me. -/
def slMe (t : Table) (aggregation : Bool) : Option ℚ := do
  let total ← getTotalValues t aggregation
  let fbar ← pyDiv (← sumColumn t "fbar") total
  let obar ← pyDiv (← sumColumn t "obar") total
  some (roundHalfUp (fbar - obar) PRECISION)

/-- sl1l2_statistics.py:355-377 calculate_me2. -/
def slMe2 (t : Table) (aggregation : Bool) : Option ℚ := do
  let me ← slMe t aggregation
  some (roundHalfUp (me ^ 2) PRECISION)

/-- sl1l2_statistics.py:380-405 calculate_mse. -/
def slMse (t : Table) (aggregation : Bool) : Option ℚ := do
  let total ← getTotalValues t aggregation
  let ffbar ← pyDiv (← sumColumn t "ffbar") total
  let oobar ← pyDiv (← sumColumn t "oobar") total
  let fobar ← pyDiv (← sumColumn t "fobar") total
  some (roundHalfUp (ffbar + oobar - 2 * fobar) PRECISION)

/-- sl1l2_statistics.py:511-534 calculate_bcmse. -/
def slBcmse (t : Table) (aggregation : Bool) : Option ℚ := do
  let mse ← slMse t aggregation
  let me ← slMe t aggregation
  some (roundHalfUp (mse - me ^ 2) PRECISION)

/-- sl1l2_statistics.py:561-580 calculate_stddev, called with the strict warning filter: a division by
zero (n = 1) is an exception, handled by the callers. -/
noncomputable def slStddev (sumTotal sumSq n : ℚ) : Option ℝ :=
  if n < 1 then none
  else do
    let w ← pyDiv (sumTotal * sumTotal) n
    let v ← pyDiv (sumSq - w) (n - 1)
    if v < 0 then none else some (Real.sqrt v)

/-- Common body of sl1l2_statistics.py:72-99 calculate_fstdev and 102-129 calculate_ostdev. -/
noncomputable def slStdevOf (mean square : String) (t : Table) (aggregation : Bool) : Option ℝ := do
  let total ← sumColumn t "total"
  let total1 := if aggregation then total else 1
  let m ← pyDiv (← sumColumn t mean) total1
  let s ← pyDiv (← sumColumn t square) total1
  let r ← slStddev (m * total) (s * total) total
  some (roundHalfUp r PRECISION)

noncomputable def slFstdev := slStdevOf "fbar" "ffbar"
noncomputable def slOstdev := slStdevOf "obar" "oobar"

/-- sl1l2_statistics.py:262-298 calculate_pr_corr.  `np.sqrt` of a negative number and the division by a
zero root raise under the strict filter (handled). -/
noncomputable def slPrCorr (t : Table) (aggregation : Bool) : Option ℝ := do
  let total ← sumColumn t "total"
  let total1 := if aggregation then total else 1
  let ffbar ← pyDiv (← sumColumn t "ffbar") total1
  let fbar ← pyDiv (← sumColumn t "fbar") total1
  let oobar ← pyDiv (← sumColumn t "oobar") total1
  let obar ← pyDiv (← sumColumn t "obar") total1
  let fobar ← pyDiv (← sumColumn t "fobar") total1
  let v := (total ^ 2 * ffbar - total ^ 2 * fbar ^ 2) * (total ^ 2 * oobar - total ^ 2 * obar ^ 2)
  let c : ℚ := total ^ 2 * fobar - total ^ 2 * fbar * obar
  if v < 0 then none                                 -- np.sqrt
  else if v = 0 then none                            -- division
  else
    let r : ℝ := (c : ℝ) / Real.sqrt (v : ℝ)
    if v ≤ 0 ∨ r > 1 then none else some (roundHalfUp r PRECISION)

/-- sl1l2_statistics.py:408-431 calculate_msess (rounded inner values are Python floats; ZeroDivisionError
is handled). -/
noncomputable def slMsess (t : Table) (aggregation : Bool) : Option ℝ := do
  let ostdev ← slOstdev t aggregation
  let mse ← slMse t aggregation
  if ostdev ^ 2 = 0 then none
  else some (roundHalfUp (1 - (mse : ℝ) / ostdev ^ 2) PRECISION)

/-- `round_half_up(np.sqrt(x), PRECISION)` with the lenient warning filter. -/
noncomputable def lenientSqrt (x : ℚ) : Except PyErr ℝ :=
  if x < 0 then .error .valueError else .ok (roundHalfUp (Real.sqrt (x : ℝ)) PRECISION)

/-- sl1l2_statistics.py:434-455 calculate_rmse. -/
noncomputable def slRmse (t : Table) (aggregation : Bool) : Except PyErr (Option ℝ) :=
  match slMse t aggregation with
  | none => .ok none
  | some mse => (lenientSqrt mse).map some

/-- sl1l2_statistics.py:537-558 calculate_bcrmse. -/
noncomputable def slBcrmse (t : Table) (aggregation : Bool) : Except PyErr (Option ℝ) :=
  match slBcmse t aggregation with
  | none => .ok none
  | some x => (lenientSqrt x).map some

/-- sl1l2_statistics.py:458-481 calculate_si: the division of two Python floats by zero is not handled. -/
noncomputable def slSi (t : Table) (aggregation : Bool) : Except PyErr (Option ℝ) := do
  let rmse ← slRmse t aggregation
  match rmse, slMean "obar" t aggregation with
  | some r, some o =>
    if o = 0 then .error .zeroDivisionError
    else .ok (some (roundHalfUp (r / (o : ℝ)) PRECISION))
  | _, _ => .ok none

/-- sl1l2_statistics.py:484-508 calculate_estdev.  `calculate_me` and `calculate_mse` are called without
`aggregation` (lines 501-502). For n = 1 the division by zero gives NaN or ±infinity. -/
noncomputable def slEstdev (t : Table) (_aggregation : Bool) : Except PyErr (Option ℝ) :=
  match sumColumn t "total", slMe t false, slMse t false with
  | some n, some me, some mse =>
    if n < 1 then .ok none
    else
      let x := mse * n - (me * n) * (me * n) / n
      if n = 1 then
        if x < 0 then .ok none
        else if x = 0 then .error .valueError else .error .overflowError
      else if x / (n - 1) < 0 then .ok none
      else .ok (some (roundHalfUp (Real.sqrt ((x / (n - 1) : ℚ) : ℝ)) PRECISION))
  | _, _, _ => .ok none

/-- metcalcpy/util/sal1l2_statistics.py:22-57 calculate_anom_corr. -/
noncomputable def salAnomCorr (t : Table) (aggregation : Bool) : Option ℝ := do
  let total ← getTotalValues t aggregation
  let ffbar ← pyDiv (← sumColumn t "ffabar") total
  let fbar ← pyDiv (← sumColumn t "fabar") total
  let oobar ← pyDiv (← sumColumn t "ooabar") total
  let obar ← pyDiv (← sumColumn t "oabar") total
  let fobar ← pyDiv (← sumColumn t "foabar") total
  let v := (total ^ 2 * ffbar - total ^ 2 * fbar ^ 2) * (total ^ 2 * oobar - total ^ 2 * obar ^ 2)
  let c : ℚ := total ^ 2 * fobar - total ^ 2 * fbar * obar
  if v ≤ 0 then none
  else
    let r : ℝ := (c : ℝ) / Real.sqrt (v : ℝ)
    if r > 1 then none else some (roundHalfUp r PRECISION)

/-- metcalcpy/util/sal1l2_statistics.py:60-94 calculate_anom_corr_raw. -/
noncomputable def salAnomCorrRaw (t : Table) (aggregation : Bool) : Option ℝ := do
  let total ← getTotalValues t aggregation
  let ffbar ← pyDiv (← sumColumn t "ffabar") total
  let oobar ← pyDiv (← sumColumn t "ooabar") total
  let fobar ← pyDiv (← sumColumn t "foabar") total
  let v := ffbar * oobar
  if v < 0 then none
  else if v = 0 then none                             -- division by a zero root: RuntimeWarning, handled
  else
    let r : ℝ := (fobar : ℝ) / Real.sqrt (v : ℝ)
    let c : ℝ := if r > 1 then 1 else if r < -1 then -1 else r
    some (roundHalfUp c PRECISION)

/-- Common body of metcalcpy/util/sal1l2_statistics.py:97-124 calculate_rmsfa and 127-154
calculate_rmsoa. -/
noncomputable def salRms (column : String) (t : Table) (aggregation : Bool) : Option ℝ := do
  let total ← getTotalValues t aggregation
  let x ← pyDiv (← sumColumn t column) total
  if x < 0 then none else some (roundHalfUp (Real.sqrt (x : ℝ)) PRECISION)

end Metcalcpy
