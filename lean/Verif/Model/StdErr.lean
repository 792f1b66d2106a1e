/-
metcalcpy/util/utils.py:856-983, 1354-1385: standard errors of time series.
-/
import Verif.Model.Bootstrap
import Mathlib.Analysis.SpecialFunctions.Sqrt
import Mathlib.Analysis.Real.Pi.Bounds

namespace Metcalcpy

/-- `statistics.mean`. -/
def listMean (xs : List ℚ) : ℚ := xs.sum / xs.length

/-- `statistics.variance`: StatisticsError (a ValueError) for fewer than two values. -/
def stVariance (xs : List ℚ) : Except PyErr ℚ :=
  if xs.length < 2 then .error .valueError
  else .ok ((xs.map (fun x => (x - listMean xs) ^ 2)).sum / ((xs.length : ℚ) - 1))

/-- Division of Python numbers. -/
def pyDivE (a b : ℚ) : Except PyErr ℚ := if b = 0 then .error .zeroDivisionError else .ok (a / b)

/-- metcalcpy/util/utils.py:1354-1385 autocor_coef, for data without missing values; `none` for fewer than
two values (1363-1364). -/
def autocorCoef (data : List ℚ) : Except PyErr (Option ℚ) :=
  if data.length < 2 then .ok none
  else do
    let m := listMean data
    let x := data.dropLast.map (fun v => v - m)
    let y := data.tail.map (fun v => v - m)
    let sx := x.sum
    let sy := y.sum
    let sxx := (x.map (fun v => v ^ 2)).sum
    let sxy := (List.zipWith (fun a b => a * b) x y).sum
    let n : ℚ := data.length
    let a ← pyDivE (sx * sy) (sx - (n - 1) * sxx)
    let c ← pyDivE (sx * sx) (n - 1)
    let b ← pyDivE sxy (sxx - c)
    .ok (some (a + b))

/-- Result of the four functions: standard error, flag, AR1 coefficient, number of values. -/
structure StdErr where
  err : ℝ
  flag : ℕ
  ar1 : ℚ
  n : ℕ

/-- metcalcpy/util/utils.py:870-886 (and 936-953): variance inflation factor and flag.  The square root is
taken of a non-negative ratio. -/
noncomputable def inflation (ar1 : ℚ) : Except PyErr (ℝ × ℕ) := do
  let ratio ← pyDivE (1 + ar1) (1 - ar1)
  let p : ℚ × ℕ := if ratio < 0 then (1, 1) else (ratio, 0)
  if ar1 < 3 / 10 ∨ ar1 ≥ 99 / 100 then .ok (1, p.2) else .ok (Real.sqrt (p.1 : ℝ), p.2)

/-- The coefficient as used in the arithmetic: `None` raises TypeError. -/
def needAr (c : Option ℚ) : Except PyErr ℚ :=
  match c with
  | some x => .ok x
  | none => .error .typeError

/-- metcalcpy/util/utils.py:856-894 compute_std_err_from_mean, for data without missing values. -/
noncomputable def stdErrFromMean (data : List ℚ) : Except PyErr StdErr := do
  let variance ← stVariance data
  if variance > 0 ∧ data.length > 2 then do
    let c ← autocorCoef data
    let ar1 ← needAr c
    let v ← inflation ar1
    .ok ⟨v.1 * Real.sqrt variance / Real.sqrt data.length, v.2, ar1, data.length⟩
  else .ok ⟨0, 0, 0, data.length⟩

/-- `stats.iqr(data, interpolation='linear')`; NaN (here 0) for no data. -/
def iqr (data : List ℚ) : Except PyErr ℚ :=
  if data.isEmpty then .ok 0 else do
    let hi ← percentile data (3 / 4)
    let lo ← percentile data (1 / 4)
    .ok (hi - lo)

/-- metcalcpy/util/utils.py:897-919 compute_std_err_from_median_no_variance_inflation_factor. -/
noncomputable def stdErrFromMedian (data : List Cell) : Except PyErr StdErr := do
  let valid := data.filterMap id
  let q ← iqr valid
  if q > 0 ∧ valid.length > 2 then
    .ok ⟨(q * Real.sqrt (Real.pi / 2)) / (1.349 * Real.sqrt valid.length), 0, 0, valid.length⟩
  else .ok ⟨0, 0, 0, valid.length⟩

/-- metcalcpy/util/utils.py:922-968 compute_std_err_from_median_variance_inflation_factor, for data without
missing values. -/
noncomputable def stdErrFromMedianVif (data : List ℚ) : Except PyErr StdErr := do
  let q ← iqr data
  if q > 0 ∧ data.length > 2 then do
    let c ← autocorCoef data
    let ar1 ← needAr c
    let v ← inflation ar1
    .ok ⟨v.1 * (q * Real.sqrt (Real.pi / 2)) / (1.349 * Real.sqrt data.length), v.2, ar1, data.length⟩
  else .ok ⟨0, 0, 0, data.length⟩

/-- metcalcpy/util/utils.py:971-983 compute_std_err_from_sum. -/
noncomputable def stdErrFromSum (data : List ℚ) : Except PyErr StdErr := do
  let r ← stdErrFromMean data
  .ok ⟨r.err * data.length, r.flag, r.ar1, r.n⟩

end Metcalcpy
