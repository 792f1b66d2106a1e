/-
metcalcpy/agg_stat.py: the value of a point of an aggregation run for the spread/skill statistics (SSVAR lines), from the
rows of the point to the number in the table (sorting, preparation, choice of the statistic).
-/
import Verif.Model.AggRoots
import Verif.Model.Ssvar

namespace Metcalcpy

/-- The functions `calculate_ssvar_<statistic>` called with `aggregation = True` (agg_stat.py:249-261) of
metcalcpy/util/ssvar_statistics.py:29-297.  `calculate_ssvar_total` (300-314) is left out: `_prepare_ssvar_data` is a
KeyError for it. -/
noncomputable def spreadFunctions : List (String × (Table → Except PyErr (Option ℝ))) :=
  [("ssvar_fbar", fun t => asReal (ssvarFbar t true)), ("ssvar_obar", fun t => asReal (ssvarObar t true)),
   ("ssvar_fstdev", fun t => .ok (ssvarFstdev t true)), ("ssvar_ostdev", fun t => .ok (ssvarOstdev t true)),
   ("ssvar_pr_corr", fun t => .ok (ssvarPrCorr t true)), ("ssvar_me", fun t => asReal (ssvarMe t true)),
   ("ssvar_estdev", fun t => ssvarEstdev t true), ("ssvar_mse", fun t => asReal (ssvarMse t true)),
   ("ssvar_bcmse", fun t => asReal (ssvarBcmse t true)), ("ssvar_bcrmse", fun t => ssvarBcrmse t true),
   ("ssvar_rmse", fun t => ssvarRmse t true), ("ssvar_anom_corr", fun t => .ok (ssvarAnomCorr false t true)),
   ("ssvar_me2", fun t => asReal (ssvarMe2 t true)), ("ssvar_msess", fun t => .ok (ssvarMsess t true)),
   ("ssvar_spread", fun t => .ok (ssvarSpread t true))]

/-- agg_stat.py:797-803 and 249-253: prepare sorted rows (523-537) and call the function of the statistic.  The
preparation works on a sorted copy of the rows and puts its new column names in `self.column_names`, where only the names
`total` and `bin_n` change; no other step of a run looks for these two, so that `aggRun` and `bootRun` describe these runs
too. -/
noncomputable def spreadPrepared (f : Frame) (stat : String) (data : List (List Val)) : Except PyErr PyNum := do
  let t ← prepareSsvar (numericTable f.cols data) stat
  match spreadFunctions.lookup stat with
  | none => .error .keyError
  | some calculate => (calculate t).map realNum

/-- agg_stat.py:773-811 _get_bootstrapped_stats (num_iterations = 1) of the non-empty rows of a point of line type
ssvar. -/
noncomputable def spreadStat (f : Frame) (stat : String) (rows : List (List Val)) : Except PyErr PyNum := do
  let data ← sortData f rows
  spreadPrepared f stat data

end Metcalcpy
