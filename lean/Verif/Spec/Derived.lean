/-
Specification vocabulary for derived curves and perfect scores.
-/
import Verif.Model.Derived

namespace Metcalcpy.Spec
open Metcalcpy

/-- The documented operations of a derived curve. -/
def KnownOperation (op : String) : Prop :=
  op = "DIFF" ∨ op = "RATIO" ∨ op = "SS" ∨ op = "DIFF_SIG" ∨ op = "SINGLE" ∨ op = "ETB"

/-- The perfect score of a statistic (as documented in the METviewer tables the code quotes): `some 0` for
errors, `some 1` for skill measures, `none` for descriptive statistics. -/
inductive PerfectScore : String → Option ℚ → Prop
  | descriptive {s} : s ∈ ["BASER", "FMEAN", "FBAR", "FSTDEV", "OBAR", "OSTDEV", "FRANK_TIES", "ORANK_TIES",
      "RANKS", "VL1L2_FBAR", "VL1L2_OBAR", "VL1L2_FSTDEV", "VL1L2_OSTDEV", "VL1L2_FOSTDEV", "PSTD_BASER",
      "PSTD_RESOLUTION", "PSTD_UNCERTAINTY", "NBR_UFSS", "NBR_F_RATE", "NBR_O_RATE", "NBR_BASER",
      "NBR_FMEAN"] → PerfectScore s none
  | error {s} : s ∈ ["POFD", "FAR", "ESTDEV", "MAE", "MSE", "BCMSE", "RMSE", "BCRMSE", "ME", "ME2", "MAD",
      "EIQR", "E10", "E25", "E50", "E75", "E90", "VL1L2_MSE", "VL1L2_RMSE", "VL1L2_RMSVE", "VL1L2_SPEED_ERR",
      "PSTD_BRIER", "PSTD_RELIABILITY", "NBR_FBS", "NBR_POFD", "NBR_FAR", "CRPS", "ECNT_CRPS", "ECNT_ME",
      "ECNT_RMSE", "ECNT_MAE", "ECNT_MAE_OERR", "ECNT_ME_GE_OBS", "ECNT_ME_LT_OBS"] →
      PerfectScore s (some 0)
  | skill {s} : s ∈ ["ACC", "FBIAS", "PODY", "PODN", "CSI", "GSS", "HK", "HSS", "ORSS", "EDS", "SEDS", "EDI",
      "SEDI", "BAGSS", "PR_CORR", "SP_CORR", "KT_CORR", "MBIAS", "ANOM_CORR", "ANOM_CORR_RAW", "VL1L2_CORR",
      "PSTD_BSS", "PSTD_BSS_SMPL", "PSTD_ROC_AUC", "NBR_FSS", "NBR_AFSS", "VAL1L2_ANOM_CORR", "NBR_ACC",
      "NBR_FBIAS", "NBR_PODY", "NBR_PODN", "NBR_CSI", "NBR_GSS", "NBR_HK", "NBR_HSS", "ECNT_BIAS_RATIO"] →
      PerfectScore s (some 1)

/-- The value of a derived curve from the values of its two series: difference, ratio (undefined for a zero
denominator), skill score (undefined for a zero reference) or the first value itself. -/
def derivedOf (op : String) (a b : ℚ) : Option ℚ :=
  if op = "DIFF" then some (a - b)
  else if op = "RATIO" then (if b = 0 then none else some (a / b))
  else if op = "SS" then (if a = 0 then none else some ((a - b) / a))
  else some a

end Metcalcpy.Spec
