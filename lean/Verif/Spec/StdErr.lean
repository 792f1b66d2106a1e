/-
Specification vocabulary for standard errors and autocorrelation.
-/
import Mathlib.Analysis.SpecialFunctions.Sqrt
import Mathlib.Algebra.BigOperators.Group.List.Basic

namespace Metcalcpy.Spec

def mean (xs : List ℚ) : ℚ := xs.sum / xs.length

/-- Unbiased sample variance. -/
def seriesVariance (xs : List ℚ) : ℚ :=
  (xs.map (fun x => (x - mean xs) ^ 2)).sum / ((xs.length : ℚ) - 1)

/-- Classical standard error of the mean. -/
noncomputable def classicalSE (xs : List ℚ) : ℝ := √(seriesVariance xs : ℝ) / √(xs.length : ℝ)

/-- Consecutive pairs of a series. -/
def lagPairs (xs : List ℚ) : List (ℚ × ℚ) := xs.zip xs.tail

/-- `b` is the slope of the least-squares line through the points: it satisfies the normal equation
`b * Σ (x - x̄)² = Σ (x - x̄)(y - ȳ)`. -/
def IsSlope (ps : List (ℚ × ℚ)) (b : ℚ) : Prop :=
  b * (ps.map (fun p => (p.1 - mean (ps.map Prod.fst)) ^ 2)).sum =
    (ps.map (fun p => (p.1 - mean (ps.map Prod.fst)) * (p.2 - mean (ps.map Prod.snd)))).sum

end Metcalcpy.Spec
