/-
metcalcpy/util/correlation.py:476-550: Shepherd's pi correlation and the bootstrapped Mahalanobis distances; 553-685: the Bayes factor
of a correlation.
-/
import Verif.Model.CorrTable
import Mathlib.Analysis.SpecialFunctions.Gamma.Basic
import Mathlib.Analysis.SpecialFunctions.OrdinaryHypergeometric

namespace Metcalcpy

/-- metcalcpy/util/correlation.py:541-545: sums of the products of the deviations of a resample from its mean. -/
def scatter (s : List (ℚ × ℚ)) : ℚ × ℚ × ℚ :=
  let mx := (s.map Prod.fst).sum / s.length
  let my := (s.map Prod.snd).sum / s.length
  ((s.map fun p => (p.1 - mx) ^ 2).sum, (s.map fun p => (p.1 - mx) * (p.2 - my)).sum, (s.map fun p => (p.2 - my) ^ 2).sum)

/-- metcalcpy/util/correlation.py:545-548: with `X - mu = Q R`, the squares of the solution of `R.T z = p - mu` sum to the quadratic form
of the inverse of `R.T R`, the matrix of `scatter`; the system has no solution when that matrix is singular (LinAlgError, a ValueError).
Simplification: exact arithmetic (a rounded R may be regular although the matrix is singular). -/
def mahalColumn (n : ℕ) (s a : List (ℚ × ℚ)) : Except PyErr (List ℚ) :=
  let (sxx, sxy, syy) := scatter s
  let mx := (s.map Prod.fst).sum / s.length
  let my := (s.map Prod.snd).sum / s.length
  if sxx * syy - sxy * sxy = 0 then .error .valueError
  else .ok (a.map fun p => (syy * (p.1 - mx) ^ 2 - 2 * sxy * ((p.1 - mx) * (p.2 - my)) + sxx * (p.2 - my) ^ 2) /
    (sxx * syy - sxy * sxy) * ((n : ℚ) - 1))

/-- metcalcpy/util/correlation.py:517-550 bsmahal(X, X, n_boot): `draws` are the rows of `xB` (positions drawn with replacement). `none`: NaN,
the mean of no values (n_boot = 0). -/
def bsmahal (X : List (ℚ × ℚ)) (draws : List (List ℕ)) : Except PyErr (List (Option ℚ)) := do
  let md ← draws.mapM fun d => mahalColumn X.length (d.map fun i => X.getD i (0, 0)) X
  .ok ((List.range X.length).map fun i => if md.length = 0 then none else some ((md.map fun c => c.getD i 0).sum / md.length))

/-- metcalcpy/util/correlation.py:476-514 shepherd: the rank correlation of the pairs that are no outliers, and the outliers. -/
def shepherd (spearman : List ℚ → List ℚ → Except PyErr (Option CorrResult)) (x y : List ℚ) (draws : List (List ℕ)) :
    Except PyErr (Option CorrResult × List Bool) := do
  let m ← bsmahal (x.zip y) draws
  let outliers := m.map fun q => match q with
    | none => false
    | some q => decide (6 ≤ q)
  let kept := ((x.zip y).zip outliers).filterMap fun p => if p.2 then none else some p.1
  let r ← spearman (kept.map Prod.fst) (kept.map Prod.snd)
  .ok (r, outliers)

/-- metcalcpy/util/correlation.py:649-685 bayesfactor_pearson with method 'ly', for `|r| < 1` and `kappa > 0` (for `|r| = 1` the
hypergeometric function may be infinite). `none` is NaN. `betaln` and `lgamma` are logarithms of the functions. -/
noncomputable def bayesfactorPearson (r : ℝ) (n : ℕ) (tail : String := "two-sided") (k : ℝ := 1) : Except PyErr (Option ℝ) :=
  if tail.toLower ∉ ["two-sided", "one-sided", "greater", "less", "g", "l", "positive", "negative", "pos", "neg"] then
    .error .assertionError
  else if n < 2 then .ok none
  else if ¬ (-1 ≤ r ∧ r ≤ 1) then .error .assertionError
  else
    let lbeta := Real.log (Real.Gamma (1 / k) * Real.Gamma (1 / k) / Real.Gamma (1 / k + 1 / k))
    let logHyper := Real.log (ordinaryHypergeometric (((n : ℝ) - 1) / 2) (((n : ℝ) - 1) / 2) (((n : ℝ) + 2 / k) / 2) (r ^ 2))
    .ok (some (Real.exp ((1 - 2 / k) * Real.log 2 + 0.5 * Real.log Real.pi - lbeta + Real.log (Real.Gamma (((n : ℝ) + 2 / k - 1) / 2))
      - Real.log (Real.Gamma (((n : ℝ) + 2 / k) / 2)) + logHyper)))

end Metcalcpy
