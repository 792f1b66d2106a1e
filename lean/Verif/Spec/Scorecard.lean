/-
Critical values and the interval of the EMC scorecard.
-/
import Mathlib.Analysis.SpecialFunctions.Sqrt
import Mathlib.Algebra.BigOperators.Group.List.Basic

namespace Metcalcpy.Spec

/-- Two-sided critical values of the t distribution at 95%, 99% and 99.9%, by the smallest number of days they
are used for. -/
def criticalValues : List (ℕ × ℚ × ℚ × ℚ) :=
  [(80, 1.96, 2.576, 3.291), (40, 2, 2.66, 3.46), (20, 2.042, 2.75, 3.646), (0, 2.228, 3.169, 4.587)]

/-- The critical values for a number of days: the first line of the table whose bound is reached. -/
def IsCritical (ndays : ℕ) (t95 t99 t999 : ℚ) : Prop :=
  ∃ i : ℕ, ∃ days, criticalValues[i]? = some (days, t95, t99, t999) ∧ days ≤ ndays ∧
    ∀ j < i, ∀ d a b c, criticalValues[j]? = some (d, a, b, c) → ndays < d

/-- Mean of a list. -/
noncomputable def meanOf (l : List ℝ) : ℝ := l.sum / l.length

/-- Standard error of the mean: sample standard deviation divided by the root of the number of values. -/
noncomputable def standardError (l : List ℝ) : ℝ :=
  Real.sqrt ((l.map (fun x => (x - meanOf l) ^ 2)).sum / ((l.length : ℝ) - 1)) / Real.sqrt l.length

end Metcalcpy.Spec
