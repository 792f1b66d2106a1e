/-
Specification vocabulary for the paired equivalence test.
-/
import Verif.Model.Tost

namespace Metcalcpy.Spec

/-- The significance level in force. -/
noncomputable def level (a : TostArgs) : ℝ := a.alpha.getD 0.05

/-- Admissible arguments. -/
structure TostValid (a : TostArgs) : Prop where
  n : 2 ≤ a.n
  alpha_pos : 0 < level a
  alpha_lt : level a < 1
  sd1 : 0 < a.sd1
  sd2 : 0 < a.sd2
  r12 : |a.r12| ≤ 1

/-- Variance of the difference of two variables with the given deviations and correlation. -/
def diffVariance (a : TostArgs) : ℝ := a.sd1 ^ 2 + a.sd2 ^ 2 - 2 * a.r12 * a.sd1 * a.sd2

/-- Standard error of the mean difference. -/
noncomputable def diffSE (a : TostArgs) : ℝ := √(diffVariance a) / √a.n

/-- Two-sided p-value of "no difference". -/
noncomputable def pDiff (D : TDist) (a : TostArgs) : ℝ :=
  2 * (1 - D.cdf |(a.m1 - a.m2) / diffSE a| (a.n - 1))

/-- The larger of the two one-sided p-values: difference at or below the lower, at or above the upper
equivalence bound. -/
noncomputable def pEqv (D : TDist) (a : TostArgs) : ℝ :=
  max (1 - D.cdf ((a.m1 - a.m2 - a.low * √(diffVariance a)) / diffSE a) (a.n - 1))
    (D.cdf ((a.m1 - a.m2 - a.high * √(diffVariance a)) / diffSE a) (a.n - 1))

/-- The documented meaning of the four outcomes. -/
def OutcomeMeans (o : Outcome) (diff eqv : Prop) : Prop :=
  (o = .diffEqv ∧ diff ∧ eqv) ∨ (o = .diffNoEqv ∧ diff ∧ ¬ eqv) ∨
  (o = .noDiffEqv ∧ ¬ diff ∧ eqv) ∨ (o = .noDiffNoEqv ∧ ¬ diff ∧ ¬ eqv)

/-- What is used about the t-distribution with `df` degrees of freedom: an increasing symmetric distribution function
and its inverse. -/
structure IsSymmetricDist (D : TDist) (df : ℝ) : Prop where
  mono : ∀ x y, x < y → D.cdf x df < D.cdf y df
  symm : ∀ x, D.cdf (-x) df = 1 - D.cdf x df
  inv : ∀ p, 0 < p → p < 1 → D.cdf (D.ppf p df) df = p

/-- Half the width of the two-sided confidence interval with upper tail probability `tail`. -/
noncomputable def halfWidth (D : TDist) (a : TostArgs) (tail : ℝ) : ℝ := D.ppf (1 - tail) (a.n - 1) * diffSE a

/-- The value in a report of an exact number. -/
noncomputable def reported (x : ℝ) : ℝ := roundHalfUp x 7

end Metcalcpy.Spec
