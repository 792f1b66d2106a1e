/-
metcalcpy/util/wald_wolfowitz_runs_test.py
-/
import Verif.Model.Base
import Verif.Model.StdErr
import Mathlib.Data.List.Sort
import Mathlib.Analysis.SpecialFunctions.Sqrt

namespace Metcalcpy

/-- metcalcpy/util/correlation.py:1170-1178 remove_none. -/
def removeNone (x : List Cell) : List ℚ := x.filterMap id

/-- `statistics.median` (Python standard library): the middle element of the sorted list, or the mean of
the two middle ones; StatisticsError (a ValueError) on an empty list. -/
def pyMedian (l : List ℚ) : Except PyErr ℚ :=
  if l = [] then .error .valueError
  else
    let s := l.insertionSort (· ≤ ·)
    let n := s.length
    .ok (if n % 2 = 1 then (s[n / 2]?).getD 0 else ((s[n / 2 - 1]?).getD 0 + (s[n / 2]?).getD 0) / 2)

/-- `statistics.mean`; StatisticsError (a ValueError) on an empty list. -/
def pyMean (l : List ℚ) : Except PyErr ℚ := if l = [] then .error .valueError else .ok (listMean l)

/-- `np.sign(q - t)`. -/
def signOf (t q : ℚ) : ℤ := if q - t > 0 then 1 else if q - t < 0 then -1 else 0

/-- `[(k, sum(1 for i in g)) for k, g in itertools.groupby(s)]`. -/
def groupRuns : List ℤ → List (ℤ × ℕ)
  | [] => []
  | a :: l =>
    match groupRuns l with
    | [] => [(a, 1)]
    | (k, c) :: m => if a = k then (k, c + 1) :: m else (a, 1) :: (k, c) :: m

/-- The dictionary returned by runs_test when it is filled. -/
structure RunsResult where
  statistic : ℝ
  pValue : ℝ
  runs : ℕ
  mean : ℚ
  variance : ℚ

/-- metcalcpy/util/wald_wolfowitz_runs_test.py:56-97, once the threshold is known; `phi` is
`scipy.stats.norm.cdf`.  Simplification: exact arithmetic instead of doubles. -/
noncomputable def runsCore (phi : ℝ → ℝ) (x : List ℚ) (threshold : ℚ) (alternative : String) :
    Except PyErr RunsResult :=
  let x := x.filter (fun elem => decide (elem ≠ threshold))
  let s := x.map (signOf threshold)
  let n1 := s.countP (fun num => decide (num > 0))
  let n2 := s.countP (fun num => decide (num < 0))
  let runs := groupRuns s
  let r1 := runs.countP (fun run => decide (run.1 = 1))
  let r2 := runs.countP (fun run => decide (run.1 = -1))
  let n := n1 + n2
  if n1 + n2 = 0 then .error .zeroDivisionError
  else
    let mean : ℚ := 1 + 2 * n1 * n2 / (n1 + n2)
    if n * n * (n - 1) = 0 then .error .zeroDivisionError
    else
      let variance : ℚ := 2 * n1 * n2 * (2 * n1 * n2 - n1 - n2) / (n * n * (n - 1))
      if variance < 0 then .error .valueError
      else if variance = 0 then .error .zeroDivisionError
      else
        let rr := r1 + r2
        let statistic : ℝ := ((rr : ℝ) - (mean : ℝ)) / Real.sqrt (variance : ℝ)
        let pv0 := phi statistic
        let pv := if alternative = "two.sided" then 2 * min pv0 (1 - pv0)
          else if alternative = "left.sided" then pv0
          else if alternative = "right.sided" then 1 - pv0
          else 0
        .ok ⟨statistic, pv, rr, mean, variance⟩

/-- metcalcpy/util/wald_wolfowitz_runs_test.py:20-99 runs_test.  `none` is the dictionary of Nones returned
for an invalid alternative or an empty series.  A threshold other than 'median' and 'mean' is None, and the
subtraction raises a TypeError (or nothing is left and the division raises a ZeroDivisionError). -/
noncomputable def runsTest (phi : ℝ → ℝ) (x : List Cell) (alternative threshold : String) :
    Except PyErr (Option RunsResult) :=
  if alternative ≠ "two.sided" ∧ alternative ≠ "left.sided" ∧ alternative ≠ "right.sided" then .ok none
  else if x.length = 0 then .ok none
  else
    let x := removeNone x
    if threshold = "median" then do
      let t ← pyMedian x
      let r ← runsCore phi x t alternative
      .ok (some r)
    else if threshold = "mean" then do
      let t ← pyMean x
      let r ← runsCore phi x t alternative
      .ok (some r)
    else if x = [] then .error .zeroDivisionError
    else .error .typeError

end Metcalcpy
