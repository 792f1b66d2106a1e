/-
metcalcpy/scorecard.py:348-418: the EMC significance score.
-/
import Verif.Model.Base
import Mathlib.Analysis.SpecialFunctions.Sqrt
import Mathlib.Algebra.Order.Round

namespace Metcalcpy

section
variable {K : Type*} [Field K] [LinearOrder K] [FloorRing K]

/-- Nearest integer, ties to the even one. -/
def nearestEven (y : K) : ℤ :=
  if y - ⌊y⌋ < 1 / 2 then ⌊y⌋
  else if y - ⌊y⌋ > 1 / 2 then ⌊y⌋ + 1
  else if ⌊y⌋ % 2 = 0 then ⌊y⌋ else ⌊y⌋ + 1

/-- Python's and NumPy's `round(x, d)`.  Simplification: exact arithmetic. -/
def roundHalfEven (x : K) (d : ℕ) : K := (nearestEven (x * 10 ^ d) : K) / 10 ^ d

/-- metcalcpy/scorecard.py:384-399: alpha1, alpha2, alpha3. -/
def emcAlphas (ndays : ℕ) : K × K × K :=
  if ndays ≥ 80 then (1960 / 1000, 2576 / 1000, 3291 / 1000)
  else if ndays ≥ 40 ∧ ndays < 80 then (2, 266 / 100, 346 / 100)
  else if ndays ≥ 20 ∧ ndays < 40 then (2042 / 1000, 275 / 100, 3646 / 1000)
  else (2228 / 1000, 3169 / 1000, 4587 / 1000)

/-- metcalcpy/scorecard.py:383-417: class of a finite score. -/
def emcClass (ndays : ℕ) (score : K) : Option K :=
  let ds := roundHalfEven score 3
  let (alpha1, alpha2, alpha3) := emcAlphas (K := K) ndays
  let ds95 := ds
  let ds99 := roundHalfEven (ds * alpha1 / alpha2) 3
  let ds999 := roundHalfEven (ds * alpha1 / alpha3) 3
  if ds999 ≥ 1 then some 1
  else if ds999 < 1 ∧ ds99 ≥ 1 then some (99 / 100)
  else if ds99 < 1 ∧ ds95 ≥ 1 then some (95 / 100)
  else if ds95 > -1 ∧ ds95 < 1 then some 0
  else if ds95 ≤ -1 ∧ ds99 > -1 then some (-(95 / 100))
  else if ds99 ≤ -1 ∧ ds999 > -1 then some (-(99 / 100))
  else if ds999 ≤ -1 ∧ ds999 > -100 then some (-1)
  else if ds999 < -100 then some (-1)
  else none

/-- A NumPy double as the quotient of two numbers. -/
inductive Score (K : Type*)
  | nan | negInf | fin (x : K) | posInf

/-- `a / b` of NumPy doubles: dividing by zero gives nan or an infinity. -/
def Score.div (a b : K) : Score K :=
  if b = 0 then (if a = 0 then .nan else if a > 0 then .posInf else .negInf) else .fin (a / b)

/-- metcalcpy/scorecard.py:382-417 for any double: every comparison with nan is false. -/
def Score.emc (ndays : ℕ) : Score K → Option K
  | .nan => none
  | .negInf => some (-1)
  | .fin x => emcClass ndays x
  | .posInf => some 1

end

/-- `name.startswith(p)`. -/
def startsWithText (name p : String) : Bool := p.toList.isPrefixOf name.toList

/-- metcalcpy/scorecard.py:370-381: the numerator of the score, from the rounded means. -/
noncomputable def emcNumerator (stat : String) (mean1 mean2 : ℝ) : ℝ :=
  if startsWithText stat "ME" || startsWithText stat "BIAS" then
    (if |mean2| - |mean1| < 0 then -1 * |mean2 - mean1| else |mean2 - mean1|)
  else if startsWithText stat "RMSE" || startsWithText stat "RMSVE" then mean2 - mean1
  else mean1 - mean2

/-- metcalcpy/scorecard.py:361-366: the confidence interval. -/
noncomputable def emcInterval (ndays : ℕ) (v1 v2 : List ℝ) : ℝ :=
  let d := List.zipWith (fun a b => b - a) v1 v2
  let acdm := d.sum / ndays
  let std := Real.sqrt ((d.map (fun x => (x - acdm) * (x - acdm))).sum / ndays)
  roundHalfEven (1.960 * std / Real.sqrt ((v1.length : ℝ) - 1)) 6

/-- metcalcpy/scorecard.py:348-418 _calculate_diff_sig_emc.  Simplifications: exact arithmetic, `ndays` at
least 1, arrays of different lengths always raise (NumPy would broadcast arrays of length one), the warnings
of a division by zero are not errors. -/
noncomputable def diffSigEmc (stat : String) (ndays : ℕ) (v1 v2 : List ℝ) : Except PyErr (Option ℝ) :=
  if v1.length ≠ v2.length then .error .valueError
  else if v1.length = 0 then .error .valueError
  else if v1.length = 1 then .error .zeroDivisionError
  else
    let mean1 := roundHalfEven (v1.sum / v1.length) 6
    let mean2 := roundHalfEven (v2.sum / v2.length) 6
    .ok ((Score.div (emcNumerator stat mean1 mean2) (emcInterval ndays v1 v2)).emc ndays)

end Metcalcpy
