/-
The process-wide warning filter (`warnings.filterwarnings`) and the control flow of the statistic
functions that changes it.
-/
import Verif.Model.Ctc
import Verif.Model.CtcLog
import Verif.Model.Sl1l2
import Verif.Model.EconomicValue
import Verif.Model.Pstd

namespace Metcalcpy
open Classical

/-- The filter installed last: `warnings.filterwarnings('ignore')` or `warnings.filterwarnings('error')`. -/
inductive Filter
  | ignore | error
  deriving DecidableEq, Repr

/-- How the code between `filterwarnings('error')` and `filterwarnings('ignore')` ends: it runs to the
end (a handled exception included), it executes a `return`, or an exception escapes. -/
inductive BodyEnd (α : Type)
  | value (a : α)
  | early (a : α)
  | raised (e : PyErr)
  deriving DecidableEq, Repr

/-- The common frame of all statistic functions, e.g. metcalcpy/util/ctc_statistics.py:92-105:
`filterwarnings('error')`, the body, `filterwarnings('ignore')`, `return`.  A `return` inside the body and
an escaping exception skip the second filter call.  The filter before the call is overwritten. -/
def statCall {α : Type} (body : BodyEnd α) (_before : Filter) : Except PyErr α × Filter :=
  let strict := Filter.error
  match body with
  | .value a => (.ok a, .ignore)
  | .early a => (.ok a, strict)
  | .raised e => (.error e, strict)

/-- metcalcpy/util/pstd_statistics.py:253-287: the frame of calculate_pstd_roc_auc, which has no second
filter call. -/
def statCallNoReset {α : Type} (body : Except PyErr α) (_before : Filter) : Except PyErr α × Filter :=
  (body, .error)

/-- ctc_statistics.py:79-105 calculate_fbias; `None + x` raises a TypeError, which is handled. -/
def fbiasBody (t : Table) : BodyEnd (Option ℚ) :=
  match sumColumn t "fy_oy", sumColumn t "fn_oy" with
  | some a, some c => if a + c = 0 then .early none else .value (ctcFbias t)
  | _, _ => .value none

/-- ctc_statistics.py:121-133 calculate_fmean, 326-341 calculate_gss, 384-400 calculate_hss: return at once
when the total is 0 (`None == 0` is False). -/
def totalBody (stat : Table → Option ℚ) (t : Table) : BodyEnd (Option ℚ) :=
  if sumColumn t "total" = some 0 then .early none else .value (stat t)

/-- ctc_statistics.py:445-458 calculate_lodds. -/
noncomputable def loddsBody (t : Table) : BodyEnd (Option ℝ) :=
  if sumColumn t "fy_oy" = none ∨ sumColumn t "fy_on" = none ∨ sumColumn t "fn_oy" = none ∨
      sumColumn t "fn_on" = none then .early none
  else .value (ctcLodds t)

/-- ctc_statistics.py:474-493 calculate_bagss. -/
noncomputable def bagssBody (lambertW : ℝ → ℝ) (t : Table) : BodyEnd (Option ℝ) :=
  if sumColumn t "fy_oy" = none ∨ sumColumn t "fn_oy" = none ∨ sumColumn t "fy_on" = none ∨
      sumColumn t "total" = none then .early none
  else if sumColumn t "fy_oy" = some 0 ∨ sumColumn t "fn_oy" = some 0 ∨ sumColumn t "total" = some 0
    then .early none
  else .value (ctcBagss lambertW t)

/-- sal1l2_statistics.py:39-46: the product of variances; `none` is a handled TypeError or division by
zero. -/
def anomCorrV (t : Table) (aggregation : Bool) : Option ℚ := do
  let total ← getTotalValues t aggregation
  let ffbar ← pyDiv (← sumColumn t "ffabar") total
  let fbar ← pyDiv (← sumColumn t "fabar") total
  let oobar ← pyDiv (← sumColumn t "ooabar") total
  let obar ← pyDiv (← sumColumn t "oabar") total
  let _ ← pyDiv (← sumColumn t "foabar") total
  some ((total ^ 2 * ffbar - total ^ 2 * fbar ^ 2) * (total ^ 2 * oobar - total ^ 2 * obar ^ 2))

/-- sal1l2_statistics.py:37-57 calculate_anom_corr. -/
noncomputable def anomCorrBody (t : Table) (aggregation : Bool) : BodyEnd (Option ℝ) :=
  match anomCorrV t aggregation with
  | some v => if v ≤ 0 then .early none else .value (salAnomCorr t aggregation)
  | none => .value none

/-- sal1l2_statistics.py:77-81: the product of mean squares. -/
def anomCorrRawV (t : Table) (aggregation : Bool) : Option ℚ := do
  let total ← getTotalValues t aggregation
  let ffbar ← pyDiv (← sumColumn t "ffabar") total
  let oobar ← pyDiv (← sumColumn t "ooabar") total
  let _ ← pyDiv (← sumColumn t "foabar") total
  some (ffbar * oobar)

/-- sal1l2_statistics.py:75-94 calculate_anom_corr_raw. -/
noncomputable def anomCorrRawBody (t : Table) (aggregation : Bool) : BodyEnd (Option ℝ) :=
  match anomCorrRawV t aggregation with
  | some v => if v < 0 then .early none else .value (salAnomCorrRaw t aggregation)
  | none => .value none

/-- One call of a statistic.  `eclv` is metcalcpy/util/eclv_statistics.py:24-86 with its line type and
whether a threshold was passed; `other` is any of the remaining statistics of metcalcpy/util/*_statistics.py,
none of which has a `return` before its second filter call (checked by a scan of the sources); its argument
is the exception that escapes, if any.  Simplification: an exception escaping from `eclv` is not modelled. -/
inductive StatCall
  | fbias (t : Table) | fmean (t : Table) | gss (t : Table) | hss (t : Table)
  | lodds (t : Table) | bagss (lambertW : ℝ → ℝ) (t : Table)
  | anomCorr (t : Table) (aggregation : Bool) | anomCorrRaw (t : Table) (aggregation : Bool)
  | eclv (lineType : String) (hasThresh : Bool)
  | pstdRocAuc (t : Table)
  | other (escaping : Option PyErr)

/-- The filter after one call. -/
noncomputable def StatCall.filterAfter (w : Filter) : StatCall → Filter
  | .fbias t => (statCall (fbiasBody t) w).2
  | .fmean t => (statCall (totalBody ctcFmean t) w).2
  | .gss t => (statCall (totalBody ctcGss t) w).2
  | .hss t => (statCall (totalBody ctcHss t) w).2
  | .lodds t => (statCall (loddsBody t) w).2
  | .bagss lw t => (statCall (bagssBody lw t) w).2
  | .anomCorr t agg => (statCall (anomCorrBody t agg) w).2
  | .anomCorrRaw t agg => (statCall (anomCorrRawBody t agg) w).2
  | .eclv lineType hasThresh =>
    (statCall (if lineType ≠ "ctc" ∧ lineType ≠ "pct" then .early ()
      else if lineType = "pct" ∧ hasThresh = false then .early () else .value ()) w).2
  | .pstdRocAuc t => (statCallNoReset (Metcalcpy.pstdRocAuc t) w).2
  | .other none => (statCall (BodyEnd.value ()) w).2
  | .other (some e) => (statCall (BodyEnd.raised (α := Unit) e) w).2

/-- The filter after a sequence of calls. -/
noncomputable def filterAfterAll (w : Filter) (calls : List StatCall) : Filter :=
  calls.foldl StatCall.filterAfter w

end Metcalcpy
