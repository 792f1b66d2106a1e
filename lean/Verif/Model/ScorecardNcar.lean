/-
metcalcpy/scorecard.py:326-346: the NCAR significance score.
-/
import Verif.Model.Scorecard
import Verif.Model.Derived
import Verif.Model.Tost

namespace Metcalcpy

/-- `statistics.mean`.  Simplification: exact arithmetic. -/
noncomputable def meanR (l : List ℝ) : ℝ := l.sum / l.length

/-- `statistics.stdev` of at least two values.  Simplification: exact arithmetic. -/
noncomputable def stdevR (l : List ℝ) : ℝ :=
  Real.sqrt ((l.map (fun x => (x - meanR l) * (x - meanR l))).sum / (l.length - 1))

/-- scorecard.py:340-341: the p-value.  `avg / (sdv / np.sqrt(total))` is a NumPy division; the distribution function is 1
at infinity; nan stays nan (`none`). -/
noncomputable def ncarPval (D : TDist) (n : ℕ) : Score ℝ → Option ℝ
  | .nan => none
  | .negInf => some 1
  | .posInf => some 1
  | .fin t => some (1 - 2 * pt D |t| (n - 1) false)

/-- scorecard.py:326-346 _calculate_diff_sig_ncar; the statistic is the first of `list_stat_1`.  The result `none` is None or
nan, both of which are written as NA.  `statistics.mean(None)` is a TypeError, `statistics.stdev` of one value a
StatisticsError (a ValueError).  Simplification: no missing values. -/
noncomputable def diffSigNcar (D : TDist) (stats : List String) (v1 v2 : List ℝ) : Except PyErr (Option ℝ) :=
  if v1.length ≠ v2.length then .error .typeError
  else if v1.length < 2 then .error .valueError
  else
    let d := List.zipWith (fun a b => a - b) v1 v2
    match stats with
    | [] => .error .indexError
    | stat :: _ =>
      .ok (match ncarPval D d.length (Score.div (meanR d) (stdevR d / Real.sqrt d.length)) with
        | none => none
        | some p => perfectScoreAdjustment (meanR v1) (meanR v2) stat p)

end Metcalcpy
