/-
metcalcpy/agg_stat.py: the value of a point of an aggregation run for the statistics with square roots (SL1L2, SAL1L2,
VL1L2, VAL1L2, VCNT and ECNT lines) and for the vector statistics, from the rows of the point to the number in the table
(sorting, preparation, choice of the statistic).
-/
import Verif.Model.AggValues
import Verif.Model.Vector

namespace Metcalcpy

/-- A result of `round_half_up(_, PRECISION)` as a number of the table.  The models of the statistics give the rounded
result as a real number; it is a multiple of 1e-7, and this is the rational number equal to it. -/
noncomputable def realNum : Option ℝ → PyNum
  | none => .none
  | some x => .num ((⌊x * 10 ^ 7 + 1 / 2⌋ : ℤ) / 10 ^ 7)

/-- The two kinds of preparation: `fields` for `line_type` sl1l2, sal1l2, vl1l2, val1l2 and vcnt, which have the same
preparation. -/
inductive RootLine where
  | fields
  | ecnt
  deriving DecidableEq, Repr

/-- agg_stat.py:797-800: `_prepare_sl1l2_data` (405-415), `_prepare_sal1l2_data` (417-428), `_prepare_vl1l2_data`
(442-452), `_prepare_val1l2_data` (454-464), `_prepare_vcnt_data` (466-475) or `_prepare_ecnt_data` (477-513). -/
def prepareRoot (l : RootLine) (stat : String) (t : Table) : Except PyErr Table :=
  match l with
  | .fields => prepareFields t (fieldsOf stat)
  | .ecnt => prepareEcnt stat t

/-- A rational result among the real ones. -/
noncomputable def asReal (x : Option ℚ) : Except PyErr (Option ℝ) := .ok (x.map (fun q => (q : ℝ)))

/-- The functions `calculate_<statistic>` called with `aggregation = True` (agg_stat.py:249-261) of
metcalcpy/util/sl1l2_statistics.py, sal1l2_statistics.py, vl1l2_statistics.py, val1l2_statistics.py, vcnt_statistics.py
and ecnt_statistics.py: those with square roots, MAE, and the vector statistics.  Left out: the two VCNT anomaly
correlations, whose results are not rounded, the directions (Model.AggDirections), and the totals. -/
noncomputable def rootFunctions : List (String × (Table → Except PyErr (Option ℝ))) :=
  [("fstdev", fun t => .ok (slFstdev t true)), ("ostdev", fun t => .ok (slOstdev t true)),
   ("pr_corr", fun t => .ok (slPrCorr t true)), ("msess", fun t => .ok (slMsess t true)),
   ("rmse", fun t => slRmse t true), ("bcrmse", fun t => slBcrmse t true), ("si", fun t => slSi t true),
   ("estdev", fun t => slEstdev t true), ("mae", fun t => asReal (slMean "mae" t true)),
   ("anom_corr", fun t => .ok (salAnomCorr t true)), ("anom_corr_raw", fun t => .ok (salAnomCorrRaw t true)),
   ("rmsfa", fun t => .ok (salRms "ffabar" t true)), ("rmsoa", fun t => .ok (salRms "ooabar" t true)),
   ("vl1l2_bias", fun t => .ok (vlBias t true)), ("vl1l2_fvar", fun t => asReal (vlFvar t true)),
   ("vl1l2_ovar", fun t => asReal (vlOvar t true)), ("vl1l2_fspd", fun t => .ok (vlFspd t true)),
   ("vl1l2_ospd", fun t => .ok (vlOspd t true)), ("vl1l2_speed_err", fun t => .ok (vlSpeedErr t true)),
   ("vl1l2_msve", fun t => asReal (vlMsve t true)), ("vl1l2_rmsve", fun t => .ok (vlRmsve t true)),
   ("val1l2_anom_corr", fun t => .ok (valAnomCorr t true)),
   ("vcnt_fbar", fun t => asReal (weightedAverage "f_speed_bar" t true)),
   ("vcnt_obar", fun t => asReal (weightedAverage "o_speed_bar" t true)),
   ("vcnt_fs_rms", fun t => .ok (vcntRms "uvffbar" t true)), ("vcnt_os_rms", fun t => .ok (vcntRms "uvoobar" t true)),
   ("vcnt_msve", fun t => asReal (vlMsve t true)), ("vcnt_rmsve", fun t => .ok (vlRmsve t true)),
   ("vcnt_fstdev", fun t => .ok (vcntStdev "uvffbar" "f_speed_bar" t true)),
   ("vcnt_ostdev", fun t => .ok (vcntStdev "uvoobar" "o_speed_bar" t true)),
   ("vcnt_fbar_speed", fun t => .ok (vlFspd t true)), ("vcnt_obar_speed", fun t => .ok (vlOspd t true)),
   ("vcnt_vdiff_speed", fun t => .ok (vcntVdiffSpeed t true)), ("vcnt_speed_err", fun t => .ok (vlSpeedErr t true)),
   ("vcnt_speed_abserr", fun t => .ok (vcntSpeedAbserr t true)),
   ("ecnt_rmse", fun t => .ok (ecntRmse t true)), ("ecnt_rmse_oerr", fun t => .ok (ecntRmseOerr t true)),
   ("ecnt_spread", fun t => .ok (ecntSpread t true)), ("ecnt_spread_oerr", fun t => .ok (ecntSpreadOerr t true)),
   ("ecnt_spread_plus_oerr", fun t => .ok (ecntSpreadPlusOerr t true))]

/-- agg_stat.py:797-803 and 249-253: prepare sorted rows and call the function of the statistic (KeyError if there is
none). -/
noncomputable def rootPrepared (l : RootLine) (f : Frame) (stat : String) (data : List (List Val)) :
    Except PyErr PyNum := do
  let t ← prepareRoot l stat (numericTable f.cols data)
  match rootFunctions.lookup stat with
  | none => .error .keyError
  | some calculate => (calculate t).map realNum

/-- agg_stat.py:773-811 _get_bootstrapped_stats (num_iterations = 1) of the non-empty rows of a point: sort, prepare,
and call the function of the statistic. -/
noncomputable def rootStat (l : RootLine) (f : Frame) (stat : String) (rows : List (List Val)) : Except PyErr PyNum := do
  let data ← sortData f rows
  rootPrepared l f stat data

end Metcalcpy
