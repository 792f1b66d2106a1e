/-
metcalcpy/agg_stat.py: the value of a point of an aggregation run on ECNT, NBRCNT, RPS and GRAD lines, from the rows of
the point to the number in the table (sorting, preparation, choice of the statistic).
-/
import Verif.Model.AggValues
import Verif.Model.Ensemble
import Verif.Model.Vector

namespace Metcalcpy

/-- The line types covered here (`line_type` ecnt, nbr_cnt, rps, grad). -/
inductive EnsembleLine where
  | ecnt
  | nbrCnt
  | rps
  | grad
  deriving DecidableEq, Repr

/-- agg_stat.py:797-800: `_prepare_ecnt_data` (477-513), `_prepare_nbr_cnt_data` (539-555), `_prepare_rps_data`
(515-521), `_prepare_grad_data` (430-440). -/
def prepareEnsemble (l : EnsembleLine) (stat : String) (t : Table) : Except PyErr Table :=
  match l with
  | .ecnt => prepareEcnt stat t
  | .nbrCnt => prepareNbrCnt t
  | .rps => prepareRps t
  | .grad => prepareFields t (fieldsOf stat)

/-- The functions `calculate_<statistic>` with a rational value (agg_stat.py:249-261) of
metcalcpy/util/ecnt_statistics.py, nbrcnt_statistics.py, rps_statistics.py and grad_statistics.py.  Left out: the
statistics with square roots, and the totals. -/
def ensembleFunctions : List (String × (Table → Bool → Option ℚ)) :=
  [("ecnt_crps", weightedAverage "crps"), ("ecnt_crpscl", weightedAverage "crpscl"),
   ("ecnt_crpss", skillScore "crps" "crpscl"), ("ecnt_crps_emp", weightedAverage "crps_emp"),
   ("ecnt_crps_emp_fair", weightedAverage "crps_emp_fair"), ("ecnt_spread_md", weightedAverage "spread_md"),
   ("ecnt_crpscl_emp", weightedAverage "crpscl_emp"), ("ecnt_crpss_emp", skillScore "crps_emp" "crpscl_emp"),
   ("ecnt_ign", weightedAverage "ign"), ("ecnt_me", weightedAverage "me"), ("ecnt_mae", weightedAverage "mae"),
   ("ecnt_mae_oerr", weightedAverage "mae_oerr"), ("ecnt_me_oerr", weightedAverage "me_oerr"),
   ("ecnt_n_ge_obs", ecntCount "n_ge_obs"), ("ecnt_n_lt_obs", ecntCount "n_lt_obs"),
   ("ecnt_me_ge_obs", ecntMeOf "me_ge_obs" "n_ge_obs"), ("ecnt_me_lt_obs", ecntMeOf "me_lt_obs" "n_lt_obs"),
   ("ecnt_bias_ratio", ecntBiasRatio),
   ("nbr_fbs", weightedAverage "fbs"), ("nbr_fss", skillScore "fbs" "fss"), ("nbr_afss", nbrAfss),
   ("nbr_ufss", nbrUfss), ("nbr_f_rate", weightedAverage "f_rate"), ("nbr_o_rate", weightedAverage "o_rate"),
   ("rps", weightedAverage "rps"), ("rps_comp", weightedAverage "rps_comp"), ("rpss", skillScore "rps" "rps_climo"),
   ("fgbar", weightedAverage "fgbar"), ("ogbar", weightedAverage "ogbar"), ("mgbar", weightedAverage "mgbar"),
   ("egbar", weightedAverage "egbar"), ("s1", gradRatio "egbar" "mgbar"), ("s1_og", gradRatio "egbar" "ogbar"),
   ("fgog_ratio", gradRatio "fgbar" "ogbar")]

/-- agg_stat.py:797-803 and 249-253: prepare sorted rows and call the function of the statistic with `aggregation = True`
(KeyError if there is none). -/
def ensemblePrepared (l : EnsembleLine) (f : Frame) (stat : String) (data : List (List Val)) : Except PyErr PyNum := do
  let t ← prepareEnsemble l stat (numericTable f.cols data)
  match ensembleFunctions.lookup stat with
  | none => .error .keyError
  | some calculate => .ok (toPyNum (calculate t true))

/-- agg_stat.py:773-811 _get_bootstrapped_stats (num_iterations = 1) of the non-empty rows of a point: sort, prepare,
and call the function of the statistic. -/
def ensembleStat (l : EnsembleLine) (f : Frame) (stat : String) (rows : List (List Val)) : Except PyErr PyNum := do
  let data ← sortData f rows
  ensemblePrepared l f stat data

end Metcalcpy
