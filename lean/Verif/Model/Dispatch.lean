/-
agg_stat.py and sum_stat.py: how the function of a statistic is found.
-/
import Verif.Model.SumStat

namespace Metcalcpy

/-- The functions `calculate_...` each module metcalcpy/util/..._statistics.py defines, without the prefix, with the number of
parameters.  (Lines of the definitions: see the modules.)  Names a module only imports stand for the same function as in
the module that defines them and are left out. -/
def statModules : List (String × List (String × ℕ)) :=
  [("ctc", [("baser", 2), ("acc", 2), ("fbias", 2), ("fmean", 2), ("pody", 2), ("pofd", 2), ("ctc_roc", 2),
     ("podn", 2), ("far", 2), ("csi", 2), ("gss", 2), ("hk", 2), ("hss", 2), ("odds", 2), ("lodds", 2),
     ("bagss", 2), ("eclv", 2), ("economic_value", 3), ("ctc_total", 2), ("cts_total", 2), ("ctc_fn_on", 2),
     ("ctc_fn_oy", 2), ("ctc_fy_on", 2), ("ctc_fy_oy", 2), ("ctc_oy", 2), ("ctc_on", 2), ("ctc_fy", 2),
     ("ctc_fn", 2), ("odds1", 2), ("orss", 2), ("sedi", 2), ("seds", 2), ("edi", 2), ("eds", 2)]),
   ("grad", [("fgbar", 3), ("ogbar", 3), ("mgbar", 3), ("egbar", 3), ("s1", 3), ("s1_og", 3), ("fgog_ratio", 3),
     ("grad_total", 2)]),
   ("sl1l2", [("fbar", 3), ("obar", 3), ("fstdev", 3), ("ostdev", 3), ("fobar", 3), ("ffbar", 3), ("oobar", 3),
     ("mae", 3), ("mbias", 3), ("pr_corr", 3), ("fe", 3), ("me", 3), ("me2", 3), ("mse", 3), ("msess", 3),
     ("rmse", 3), ("si", 3), ("estdev", 3), ("bcmse", 3), ("bcrmse", 3), ("stddev", 3), ("sl1l2_total", 2),
     ("sal1l2_total", 2)]),
   ("sal1l2", [("anom_corr", 3), ("anom_corr_raw", 3), ("rmsfa", 3), ("rmsoa", 3)]),
   ("ssvar", [("ssvar_fbar", 3), ("ssvar_fstdev", 3), ("ssvar_obar", 3), ("ssvar_ostdev", 3),
     ("ssvar_pr_corr", 3), ("ssvar_me", 3), ("ssvar_estdev", 3), ("ssvar_mse", 3), ("ssvar_bcmse", 3),
     ("ssvar_bcrmse", 3), ("ssvar_rmse", 3), ("ssvar_anom_corr", 3), ("ssvar_me2", 3), ("ssvar_msess", 3),
     ("ssvar_spread", 3), ("ssvar_total", 2)]),
   ("val1l2", [("val1l2_anom_corr", 3), ("val1l2_total", 2)]),
   ("vcnt", [("vcnt_fbar", 3), ("vcnt_obar", 3), ("vcnt_fs_rms", 3), ("vcnt_os_rms", 3), ("vcnt_msve", 3),
     ("vcnt_rmsve", 3), ("vcnt_fstdev", 3), ("vcnt_ostdev", 3), ("vcnt_fdir", 3), ("vcnt_odir", 3),
     ("vcnt_fbar_speed", 3), ("vcnt_obar_speed", 3), ("vcnt_vdiff_speed", 3), ("vcnt_vdiff_dir", 3),
     ("vcnt_speed_err", 3), ("vcnt_speed_abserr", 3), ("vcnt_dir_err", 3), ("vcnt_dir_abser", 3),
     ("vcnt_anom_corr", 3), ("vcnt_anom_corr_uncntr", 3)]),
   ("vl1l2", [("vl1l2_bias", 3), ("vl1l2_fvar", 3), ("vl1l2_ovar", 3), ("vl1l2_fspd", 3), ("vl1l2_ospd", 3),
     ("vl1l2_speed_err", 3), ("vl1l2_msve", 3), ("vl1l2_rmsve", 3), ("vl1l2_total", 2)]),
   ("ecnt", [("ecnt_crps", 3), ("ecnt_crpscl", 3), ("ecnt_crpss", 3), ("ecnt_crps_emp", 3),
     ("ecnt_crps_emp_fair", 3), ("ecnt_spread_md", 3), ("ecnt_crpscl_emp", 3), ("ecnt_crpss_emp", 3),
     ("ecnt_ign", 3), ("ecnt_me", 3), ("ecnt_mae", 3), ("ecnt_mae_oerr", 3), ("ecnt_rmse", 3),
     ("ecnt_spread", 3), ("ecnt_me_oerr", 3), ("ecnt_rmse_oerr", 3), ("ecnt_spread_oerr", 3),
     ("ecnt_spread_plus_oerr", 3), ("ecnt_n_ge_obs", 3), ("ecnt_n_lt_obs", 3), ("ecnt_me_ge_obs", 3),
     ("ecnt_me_lt_obs", 3), ("ecnt_bias_ratio", 3), ("ecnt_total", 2)]),
   ("nbrcnt", [("nbr_fbs", 3), ("nbr_fss", 3), ("nbr_afss", 3), ("nbr_ufss", 3), ("nbr_f_rate", 3),
     ("nbr_o_rate", 3), ("nbr_cnt_total", 2)]),
   ("nbrctc", [("nbr_baser", 2), ("nbr_acc", 2), ("nbr_fbias", 2), ("nbr_fmean", 2), ("nbr_pody", 2),
     ("nbr_pofd", 2), ("nbr_podn", 2), ("nbr_far", 2), ("nbr_csi", 2), ("nbr_gss", 2), ("nbr_hk", 2),
     ("nbr_hss", 2), ("nbr_odds", 2), ("nbr_ctc_total", 2)]),
   ("pstd", [("pstd_brier", 2), ("pstd_bss_smpl", 2), ("pstd_baser", 2), ("pstd_reliability", 2),
     ("pstd_resolution", 2), ("pstd_uncertainty", 2), ("pstd_calibration", 2), ("pstd_ni", 2),
     ("pstd_roc_auc", 2), ("pct_total", 2)]),
   ("rps", [("rps", 3), ("rps_comp", 3), ("rpss", 3), ("rps_total", 2)]),
   ("mcts", [("mcts_hss_ec", 2)])]

/-- agg_stat.py:43-56: the modules imported with `*`, in order. -/
def aggStatImports : List String :=
  ["ctc", "grad", "sl1l2", "sal1l2", "ssvar", "val1l2", "vcnt", "vl1l2", "ecnt", "nbrcnt", "nbrctc", "pstd", "rps", "mcts"]

/-- sum_stat.py:45-55: the modules imported with `*`, in order. -/
def sumStatImports : List String :=
  ["ctc", "grad", "sl1l2", "val1l2", "vcnt", "vl1l2", "pstd", "nbrcnt", "ecnt", "nbrctc", "rps"]

/-- The functions of one module. -/
def moduleFunctions (m : String) : List (String × ℕ) := (statModules.lookup m).getD []

/-- `globals()['calculate_' + stat]` and `len(signature(..).parameters)` after the imports: of several imports the last counts;
KeyError for an unknown name.  (sum_stat.py:290-291, agg_stat.py:249-253.)  The result is the module the function comes from and its number
of parameters. -/
def findStat (imports : List String) (stat : String) : Except PyErr (String × ℕ) :=
  match imports.reverse.filterMap (fun m => ((moduleFunctions m).lookup stat).map fun k => (m, k)) with
  | [] => .error .keyError
  | r :: _ => .ok r

/-- The arguments a statistic is called with: the values, the names of the columns and perhaps a third one. -/
structure FoundStat where
  module : String
  stat : String
  third : Option Bool
  deriving DecidableEq, Repr

/-- sum_stat.py:278-296 calculate_statistic (the call `process_rows` makes leaves `aggregation` False). -/
def sumStatCall (stat : String) (aggregation : Bool := false) : Except PyErr FoundStat := do
  let (m, k) ← findStat sumStatImports stat
  if k = 2 then .ok ⟨m, stat, none⟩ else .ok ⟨m, stat, some aggregation⟩

/-- agg_stat.py:249-262, one call of `_calc_stats`. -/
def aggStatCall (stat : String) : Except PyErr FoundStat := do
  let (m, k) ← findStat aggStatImports stat
  if k = 2 then .ok ⟨m, stat, none⟩ else .ok ⟨m, stat, some true⟩

end Metcalcpy
