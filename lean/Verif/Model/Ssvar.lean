/-
metcalcpy/util/ssvar_statistics.py, and the preparation of its data in agg_stat.py.
-/
import Verif.Model.Sl1l2
import Verif.Model.Prepare

namespace Metcalcpy

/-- metcalcpy/agg_stat.py:532 `rename(columns={"total": "total_orig", "bin_n": "total"})`. -/
def ssvarName (c : String) : String :=
  if c = "total" then "total_orig" else if c = "bin_n" then "total" else c

def ssvarRename (t : Table) : Table := { t with cols := t.cols.map ssvarName }

/-- metcalcpy/agg_stat.py:189-203: the STATISTIC_TO_FIELDS entries of the SSVAR statistics.  There is none for ssvar_total. -/
def ssvarFields : List (String × List String) :=
  [("ssvar_fbar", ["fbar"]), ("ssvar_fstdev", ["fbar", "ffbar"]), ("ssvar_obar", ["obar"]),
   ("ssvar_ostdev", ["obar", "oobar"]), ("ssvar_pr_corr", ["ffbar", "fbar", "oobar", "obar", "fobar"]),
   ("ssvar_me", ["fbar", "obar"]), ("ssvar_estdev", ["obar", "fbar", "ffbar", "oobar", "fobar"]),
   ("ssvar_mse", ["ffbar", "oobar", "fobar"]), ("ssvar_bcmse", ["fbar", "obar", "ffbar", "oobar", "fobar"]),
   ("ssvar_bcrmse", ["fbar", "obar", "ffbar", "oobar", "fobar"]), ("ssvar_rmse", ["ffbar", "oobar", "fobar"]),
   ("ssvar_anom_corr", ["fbar", "obar", "ffbar", "oobar", "fobar"]), ("ssvar_me2", ["fbar", "obar"]),
   ("ssvar_msess", ["obar", "oobar", "ffbar", "fobar"]), ("ssvar_spread", ["var_mean"])]

/-- metcalcpy/agg_stat.py:523-537 `_prepare_ssvar_data`; KeyError for a statistic without fields. -/
def prepareSsvar (t : Table) (statistic : String) : Except PyErr Table :=
  match (ssvarFields.find? (fun p => p.1 == statistic)).map Prod.snd with
  | none => .error .keyError
  | some fields => fields.foldlM (mulColumn "total") (ssvarRename t)

/-- metcalcpy/agg_stat.py:235-281 `_calc_stats` on one sample after `_prepare_ssvar_data`. -/
def ssvarAggregated {α : Type} (statistic : String) (calculate : Table → Bool → α) (t : Table) : Except PyErr α := do
  let t' ← prepareSsvar t statistic
  return calculate t' true

/-- metcalcpy/util/ssvar_statistics.py:29-43 calculate_ssvar_fbar. -/
def ssvarFbar := slMean "fbar"

/-- metcalcpy/util/ssvar_statistics.py:46-60 calculate_ssvar_fstdev. -/
noncomputable def ssvarFstdev := slFstdev

/-- metcalcpy/util/ssvar_statistics.py:63-77 calculate_ssvar_obar. -/
def ssvarObar := slMean "obar"

/-- metcalcpy/util/ssvar_statistics.py:80-94 calculate_ssvar_ostdev. -/
noncomputable def ssvarOstdev := slOstdev

/-- metcalcpy/util/ssvar_statistics.py:97-111 calculate_ssvar_pr_corr. -/
noncomputable def ssvarPrCorr := slPrCorr

/-- metcalcpy/util/ssvar_statistics.py:114-128 calculate_ssvar_me. -/
def ssvarMe := slMe

/-- metcalcpy/util/ssvar_statistics.py:131-145 calculate_ssvar_estdev. -/
noncomputable def ssvarEstdev := slEstdev

/-- metcalcpy/util/ssvar_statistics.py:148-161 calculate_ssvar_mse. -/
def ssvarMse := slMse

/-- metcalcpy/util/ssvar_statistics.py:164-178 calculate_ssvar_bcmse. -/
def ssvarBcmse := slBcmse

/-- metcalcpy/util/ssvar_statistics.py:181-195 calculate_ssvar_bcrmse. -/
noncomputable def ssvarBcrmse := slBcrmse

/-- metcalcpy/util/ssvar_statistics.py:198-212 calculate_ssvar_rmse. -/
noncomputable def ssvarRmse := slRmse

/-- metcalcpy/util/ssvar_statistics.py:239-253 calculate_ssvar_me2. -/
def ssvarMe2 := slMe2

/-- metcalcpy/util/ssvar_statistics.py:256-271 calculate_ssvar_msess. -/
noncomputable def ssvarMsess := slMsess

/-- metcalcpy/util/ssvar_statistics.py:230-235: the SAL1L2 name of a column. -/
def anomName (c : String) : String :=
  if c = "ffbar" then "ffabar" else if c = "fbar" then "fabar" else if c = "oobar" then "ooabar"
  else if c = "obar" then "oabar" else if c = "fobar" then "foabar" else c

/-- Assignment into a NumPy array of texts: the text is cut to the width of the array, which is the length of the longest
text it was made from. -/
def cutTo (width : ℕ) (s : String) : String := String.ofList (s.toList.take width)

/-- The width of a NumPy array of texts. -/
def textWidth (names : List String) : ℕ := (names.map String.length).foldr max 0

/-- metcalcpy/util/ssvar_statistics.py:215-236 calculate_ssvar_anom_corr.  `fixedWidth`: the names are a NumPy array of texts
(`np.array([...])`), and not of objects (`frame.columns.values`, which agg_stat.py passes). -/
noncomputable def ssvarAnomCorr (fixedWidth : Bool) (t : Table) (aggregation : Bool) : Option ℝ :=
  let name (c : String) : String :=
    if fixedWidth then (if anomName c = c then c else cutTo (textWidth t.cols) (anomName c)) else anomName c
  salAnomCorr { t with cols := t.cols.map name } aggregation

/-- metcalcpy/util/ssvar_statistics.py:274-297 calculate_ssvar_spread. -/
noncomputable def ssvarSpread (t : Table) (aggregation : Bool) : Option ℝ := do
  let total ← getTotalValues t aggregation
  let x ← pyDiv (← sumColumn t "var_mean") total
  if x < 0 then none else some (roundHalfUp (Real.sqrt (x : ℝ)) PRECISION)

/-- metcalcpy/util/ssvar_statistics.py:300-314 calculate_ssvar_total; rounding None is a TypeError. -/
def ssvarTotal (t : Table) : Except PyErr ℚ :=
  match sumColumn t "total_orig" with
  | some x => .ok (roundHalfUp x PRECISION)
  | none => .error .typeError

end Metcalcpy
