/-
metcalcpy/util/correlation.py:836-974 power_corr with any one of its four arguments missing.
-/
import Verif.Model.CorrTable

namespace Metcalcpy
open Classical

/-- metcalcpy/util/correlation.py:915-936 `func`: the power for a coefficient `0 <= r <= 1`, a real number of cases `n > 4` and a level.
The transform is infinite for `r = 1`.  Simplification: the quantile is a number (for a one-sided level of 1 it is infinite and the power NaN). -/
noncomputable def powerAt (S : ScipyCorr) (r n alpha : ℝ) (tail : String) : ℝ :=
  let dof := n - 2
  let ttt := if tail = "two-sided" then S.T.ppf (1 - alpha / 2) dof else S.T.ppf (1 - alpha) dof
  let rc := √(ttt ^ 2 / (ttt ^ 2 + dof))
  let zrc := Real.artanh rc
  if r = 1 then 1
  else
    let zr := Real.artanh r + r / (2 * (n - 1))
    if tail = "two-sided" then S.phi ((zr - zrc) * √(n - 3)) + S.phi ((-zr - zrc) * √(n - 3))
    else S.phi ((zr - zrc) * √(n - 3))

/-- metcalcpy/util/correlation.py:949-952, 960-963, 971-974: `brenth` with a ValueError turned into NaN. -/
def brenthOrNan (brenth : (ℝ → ℝ) → ℝ → ℝ → Except PyErr ℝ) (f : ℝ → ℝ) (a b : ℝ) : Except PyErr (Option ℝ) :=
  match brenth f a b with
  | .ok x => .ok (some x)
  | .error .valueError => .ok none
  | .error e => .error e

/-- metcalcpy/util/correlation.py:836-974 power_corr; `none` in the arguments is None, in the result NaN. -/
noncomputable def powerSolve (S : ScipyCorr) (brenth : (ℝ → ℝ) → ℝ → ℝ → Except PyErr ℝ) (r n power alpha : Option ℝ)
    (tail : String := "two-sided") : Except PyErr (Option ℝ) :=
  if ([r, n, power, alpha].filter (fun v => v.isNone)).length ≠ 1 then .error .valueError
  else if ∃ v, r = some v ∧ ¬ (-1 ≤ v ∧ v ≤ 1) then .error .assertionError
  else if ∃ v, alpha = some v ∧ ¬ (0 < v ∧ v ≤ 1) then .error .assertionError
  else if ∃ v, power = some v ∧ ¬ (0 < v ∧ v ≤ 1) then .error .assertionError
  else if ∃ v, n = some v ∧ v ≤ 4 then .ok none
  else
    match r, n, power, alpha with
    | some r, some n, none, some a => .ok (some (powerAt S |r| n a tail))
    | some r, none, some p, some a => brenthOrNan brenth (fun n => powerAt S |r| n a tail - p) (4 + 1 / 10 ^ 10) (10 ^ 9)
    | none, some n, some p, some a => brenthOrNan brenth (fun r => powerAt S r n a tail - p) (1 / 10 ^ 10) (1 - 1 / 10 ^ 10)
    | some r, some n, some p, none => brenthOrNan brenth (fun a => powerAt S |r| n a tail - p) (1 / 10 ^ 10) (1 - 1 / 10 ^ 10)
    | _, _, _, _ => .error .valueError

end Metcalcpy
