/-
metcalcpy/util/utils.py: derived series (names, element-wise operations) and
perfect_score_adjustment.
-/
import Verif.Model.Base
import Verif.Model.Strings

namespace Metcalcpy

/-- metcalcpy/util/utils.py:35-42 OPERATION_TO_SIGN (insertion order). -/
def operationToSign : List (String × String) :=
  [("DIFF", "-"), ("RATIO", "/"), ("SS", " and "), ("DIFF_SIG", "-"), ("SINGLE", "-"), ("ETB", " and ")]

/-- metcalcpy/util/utils.py:116-134 get_derived_curve_name. -/
def getDerivedCurveName (listOfNames : List String) : Except PyErr String :=
  match listOfNames with
  | [] => .ok ""
  | [_] => .ok ""
  | a :: b :: rest =>
    let operation := match rest with
      | [op] => op           -- size == 3
      | _ => "DIFF"
    match operationToSign.lookup operation with
    | none => .error .keyError
    | some sign => .ok (operation ++ "(" ++ a ++ sign ++ b ++ ")")

/-- metcalcpy/agg_stat.py:959-960 and scorecard.py:466-467: the operation stored for the derived curve is
`derived_serie[-1]`. -/
def storedOperation (listOfNames : List String) : Option String := listOfNames.getLast?

/-- `s.startswith(p)`. -/
def startsWith (s p : String) : Bool := p.toList.isPrefixOf s.toList

/-- metcalcpy/util/utils.py:216-232 is_derived_point (`none` is Python's None).
Simplification: the components are strings (a number would raise AttributeError). -/
def isDerivedPoint (point : Option (List String)) : Bool :=
  match point with
  | none => false
  | some comps => operationToSign.any fun op => comps.any fun c =>
      startsWith c (op.1 ++ "(") || startsWith c (op.1 ++ " (")

/-- A Python number that may be `None` or NaN. -/
inductive PyNum
  | none | nan | num (q : ℚ)
  deriving DecidableEq, Repr

/-- Binary arithmetic on floats: NaN propagates.  Only used when no operand is `None`. -/
def PyNum.arith (f : ℚ → ℚ → ℚ) : PyNum → PyNum → PyNum
  | .num a, .num b => .num (f a b)
  | _, _ => .nan

/-- metcalcpy/util/utils.py:137-182 calc_derived_curve_value.  `etb` stands for the correlation and TOST
computation of lines 173-181 (see Verif.Model.Tost). Lines 156-158: any `None` → `None`; note that NaN is
not `None`. -/
def calcDerivedCurveValue {β : Type} (etb : List PyNum → List PyNum → β)
    (val1 val2 : Option (List PyNum)) (operation : String) : Option (List PyNum ⊕ β) :=
  match val1, val2 with
  | some v1, some v2 =>
    if v1.contains .none || v2.contains .none || v1.length != v2.length then none
    else if operation = "DIFF" ∨ operation = "DIFF_SIG" then
      some (.inl (List.zipWith (PyNum.arith (· - ·)) v1 v2))
    else if operation = "RATIO" then
      if v2.contains (.num 0) then none else some (.inl (List.zipWith (PyNum.arith (· / ·)) v1 v2))
    else if operation = "SS" then
      if v1.contains (.num 0) then none
      else some (.inl (List.zipWith (PyNum.arith fun a b => (a - b) / a) v1 v2))
    else if operation = "SINGLE" then some (.inl v1)
    else if operation = "ETB" then some (.inr (etb v1 v2))
    else none
  | _, _ => none

/-- metcalcpy/util/utils.py:391-398 na_perf_score_stats. -/
def naPerfScoreStats : List String :=
  ["BASER", "FMEAN", "FBAR", "FSTDEV", "OBAR", "OSTDEV", "FRANK_TIES", "ORANK_TIES",
   "FBAR", "FSTDEV", "OBAR", "OSTDEV", "RANKS", "FRANK_TIES", "ORANK_TIES", "VL1L2_FBAR", "VL1L2_OBAR",
   "VL1L2_FSTDEV", "VL1L2_OSTDEV", "VL1L2_FOSTDEV", "PSTD_BASER", "PSTD_RESOLUTION", "PSTD_UNCERTAINTY",
   "NBR_UFSS", "NBR_F_RATE", "NBR_O_RATE", "NBR_BASER", "NBR_FMEAN"]

/-- metcalcpy/util/utils.py:400-409 zero_perf_score_stats. -/
def zeroPerfScoreStats : List String :=
  ["POFD", "FAR", "ESTDEV", "MAE", "MSE", "BCMSE", "RMSE", "E10", "E25", "E50", "E75",
   "E90", "EIQR", "MAD", "ME2", "ME", "ESTDEV", "ODDS", "LODDS", "VL1L2_MSE", "VL1L2_RMSE",
   "VL1L2_RMSVE", "PSTD_BRIER", "PSTD_RELIABILITY", "NBR_FBS", "VL1L2_SPEED_ERR",
   "NBR_POFD", "NBR_FAR", "NBR_ODDS", "BCRMSE", "ECNT_ME", "ECNT_RMSE", "CRPS", "ECNT_CRPS", "ECNT_MAE",
   "ECNT_MAE_OERR", "ECNT_ME_GE_OBS", "ECNT_ME_LT_OBS"]

/-- metcalcpy/util/utils.py:411-420 one_perf_score_stats. -/
def onePerfScoreStats : List String :=
  ["ACC", "FBIAS", "PODY", "PODN", "CSI", "GSS", "HK", "HSS", "ORSS", "EDS", "SEDS",
   "EDI", "SEDI", "BAGSS", "PR_CORR", "SP_CORR", "KT_CORR", "MBIAS", "ANOM_CORR", "ANOM_CORR_RAW",
   "VL1L2_BIAS", "VL1L2_CORR", "PSTD_BSS", "PSTD_BSS_SMPL", "NBR_FSS", "NBR_AFSS",
   "VAL1L2_ANOM_CORR", "NBR_ACC", "NBR_FBIAS", "NBR_PODY", "PSTD_ROC_AUC",
   "NBR_PODN", "NBR_CSI", "NBR_GSS", "NBR_HK", "NBR_HSS", "ECNT_BIAS_RATIO"]

/-- `str.upper()`; simplification: ASCII letters. -/
def upper (s : String) : String := String.ofList (s.toList.map Char.toUpper)

/-- metcalcpy/util/utils.py:378-434 perfect_score_adjustment.  The result `none` is Python's None.
Simplification: the means and the p-value are numbers. -/
def perfectScoreAdjustment {K : Type*} [Field K] [LinearOrder K] (mean1 mean2 : K) (statistic : String) (pval : K) :
    Option K :=
  if upper statistic ∈ naPerfScoreStats then none
  else if upper statistic ∈ zeroPerfScoreStats ∧ |mean1| > |mean2| then some (pval * -1)
  else if upper statistic ∈ onePerfScoreStats ∧ |mean1 - 1| > |mean2 - 1| then some (pval * -1)
  else some pval

end Metcalcpy
