/-
metcalcpy/agg_stat.py `_prepare_nbr_cnt_data`, `_prepare_ecnt_data`, `_prepare_rps_data`, and the statistics of
metcalcpy/util/nbrcnt_statistics.py, ecnt_statistics.py and rps_statistics.py.

`none` is the result `None`.
-/
import Verif.Model.Prepare
import Verif.Model.Sl1l2

namespace Metcalcpy

/-- `data_for_prepare[name].values`; an unknown column is a KeyError. -/
def getCol (t : Table) (name : String) : Except PyErr (List Cell) :=
  match columnData t name with
  | none => .error .keyError
  | some c => .ok c

/-- `data_for_prepare[name] = vals`: an existing column is overwritten, a new one is appended. -/
def setCol (t : Table) (name : String) (vals : List Cell) : Table :=
  match t.colIdx? name with
  | some i => { t with rows := List.zipWith (fun r v => r.set i v) t.rows vals }
  | none => { cols := t.cols ++ [name], rows := List.zipWith (fun r v => r ++ [v]) t.rows vals }

/-- Elementwise product of two columns. -/
def mulCols (a b : List Cell) : List Cell := List.zipWith mulCell a b

/-- `a / (1 - b)` elementwise.  A zero divisor gives NaN or infinity (NumPy arrays); both are modelled
as a missing value (simplification: an infinite denominator is not distinguished from NaN). -/
def skillDenominator (a b : List Cell) : List Cell :=
  List.zipWith (fun x y =>
    match x, y with
    | some x, some y => if 1 - y = 0 then none else some (x / (1 - y))
    | _, _ => none) a b

/-- metcalcpy/agg_stat.py:539-555 `_prepare_nbr_cnt_data`: fbs, fss and f_rate are rescaled. -/
def prepareNbrCnt (t : Table) : Except PyErr Table := do
  let total ← getCol t "total"
  let fbs0 ← getCol t "fbs"
  let fbs := mulCols total fbs0
  let fssDen := mulCols (skillDenominator fbs0 (← getCol t "fss")) total
  let fRate := mulCols total (← getCol t "f_rate")
  return setCol (setCol (setCol t "fbs" fbs) "fss" fssDen) "f_rate" fRate

/-- metcalcpy/agg_stat.py:207-229: the STATISTIC_TO_FIELDS entries of the ECNT statistics. -/
def ecntFields : List (String × List String) :=
  [("ecnt_crps", ["crps"]), ("ecnt_crpss", ["crps", "crpscl"]), ("ecnt_ign", ["ign"]),
   ("ecnt_me", ["me"]), ("ecnt_rmse", []), ("ecnt_spread", ["spread"]), ("ecnt_me_oerr", ["me_oerr"]),
   ("ecnt_rmse_oerr", []), ("ecnt_spread_oerr", ["spread_oerr"]),
   ("ecnt_spread_plus_oerr", ["spread_plus_oerr"]), ("ecnt_crpscl", ["crpscl"]),
   ("ecnt_crps_emp", ["crps_emp"]), ("ecnt_crpscl_emp", ["crpscl_emp"]),
   ("ecnt_crpss_emp", ["crpscl_emp", "crps_emp"]), ("ecnt_crps_emp_fair", ["crps_emp_fair"]),
   ("ecnt_spread_md", ["spread_md"]), ("ecnt_mae", ["mae"]), ("ecnt_mae_oerr", ["mae_oerr"]),
   ("ecnt_n_ge_obs", []), ("ecnt_me_ge_obs", ["me_ge_obs"]), ("ecnt_n_lt_obs", []),
   ("ecnt_me_lt_obs", ["me_lt_obs"]), ("ecnt_bias_ratio", ["me_ge_obs", "me_lt_obs"])]

def ecntFieldsOf (statistic : String) : Option (List String) :=
  (ecntFields.find? (fun p => p.1 == statistic)).map Prod.snd

/-- metcalcpy/agg_stat.py:503-513: the column a field is multiplied by. -/
def ecntWeight (column : String) : String :=
  if column = "me_ge_obs" then "n_ge_obs" else if column = "me_lt_obs" then "n_lt_obs" else "total"

/-- metcalcpy/agg_stat.py:484-498: the derived columns. -/
def ecntDerived (t : Table) : Except PyErr Table := do
  let rmse ← getCol t "rmse"
  let rmseOerr ← getCol t "rmse_oerr"
  let spread ← getCol t "spread"
  let spreadOerr ← getCol t "spread_oerr"
  let total ← getCol t "total"
  let mse := mulCols rmse rmse                                         -- 484
  let mseOerr := mulCols rmseOerr rmseOerr                             -- 485
  let variance := mulCols spread spread                                -- 488
  let varianceOerr := mulCols spreadOerr spreadOerr                    -- 489
  let variancePlusOerr := mulCols spreadOerr spreadOerr                -- 490
  return setCol (setCol (setCol (setCol (setCol t "mse" (mulCols mse total))
    "mse_oerr" (mulCols mseOerr total)) "variance" (mulCols variance total))
    "variance_oerr" (mulCols varianceOerr total)) "variance_plus_oerr" (mulCols variancePlusOerr total)

/-- metcalcpy/agg_stat.py:477-513 `_prepare_ecnt_data`. -/
def prepareEcnt (statistic : String) (t : Table) : Except PyErr Table := do
  let t1 ← ecntDerived t
  match ecntFieldsOf statistic with
  | none => .ok t1
  | some fs => fs.foldlM (fun t c => mulColumn (ecntWeight c) t c) t1

/-- metcalcpy/agg_stat.py:515-521 `_prepare_rps_data`. -/
def prepareRps (t : Table) : Except PyErr Table := do
  let total ← getCol t "total"
  let rps ← getCol t "rps"
  let climo := skillDenominator rps (← getCol t "rpss")
  let comp ← getCol t "rps_comp"
  return setCol (setCol (setCol t "rps_climo" (mulCols climo total)) "rps" (mulCols rps total))
    "rps_comp" (mulCols comp total)

/-- The mean of a prepared column: sum / total, not rounded. -/
def colMean (column : String) (t : Table) (aggregation : Bool) : Option ℚ := do
  let total ← getTotalValues t aggregation
  pyDiv (← sumColumn t column) total

/-- nbrcnt_statistics.py:22-44 calculate_nbr_fbs, 130-152 calculate_nbr_f_rate, 155-177
calculate_nbr_o_rate; ecnt_statistics.py:139-160 weighted_average; rps_statistics.py:22-44 calculate_rps,
47-70 calculate_rps_comp; grad_statistics.py fgbar, ogbar, mgbar, egbar. -/
def weightedAverage (column : String) (t : Table) (aggregation : Bool) : Option ℚ := do
  some (roundHalfUp (← colMean column t aggregation) PRECISION)

/-- `1 - a / b` of two column means, rounded: nbrcnt_statistics.py:47-71 calculate_nbr_fss (columns fbs,
fss), ecnt_statistics.py:56-81 calculate_ecnt_crpss (crps, crpscl), 180-206 calculate_ecnt_crpss_emp,
rps_statistics.py:73-97 calculate_rpss (rps, rps_climo). -/
def skillScore (num den : String) (t : Table) (aggregation : Bool) : Option ℚ := do
  let a ← colMean num t aggregation
  let b ← colMean den t aggregation
  let q ← pyDiv a b
  some (roundHalfUp (1 - q) PRECISION)

/-- nbrcnt_statistics.py:74-101 calculate_nbr_afss. -/
def nbrAfss (t : Table) (aggregation : Bool) : Option ℚ := do
  let f ← colMean "f_rate" t aggregation
  let o ← colMean "o_rate" t aggregation
  let q ← pyDiv (2 * f * o) (f * f + o * o)
  some (roundHalfUp q PRECISION)

/-- nbrcnt_statistics.py:104-127 calculate_nbr_ufss. -/
def nbrUfss (t : Table) (aggregation : Bool) : Option ℚ := do
  let o ← colMean "o_rate" t aggregation
  some (roundHalfUp (1 / 2 + o / 2) PRECISION)

/-- ecnt_statistics.py:281-305 calculate_ecnt_rmse, 308-332 spread, 353-376 rmse_oerr, 379-403
spread_oerr, 406-428 spread_plus_oerr: rounded root of a weighted average (`math.sqrt` of a negative number is
a handled ValueError). -/
noncomputable def ecntRoot (column : String) (t : Table) (aggregation : Bool) : Option ℝ := do
  let wa ← weightedAverage column t aggregation
  if wa < 0 then none else some (roundHalfUp (Real.sqrt (wa : ℝ)) PRECISION)

noncomputable def ecntRmse := ecntRoot "mse"
noncomputable def ecntSpread := ecntRoot "variance"
noncomputable def ecntRmseOerr := ecntRoot "mse_oerr"
noncomputable def ecntSpreadOerr := ecntRoot "variance_oerr"
noncomputable def ecntSpreadPlusOerr := ecntRoot "variance_plus_oerr"

/-- ecnt_statistics.py:430-473 calculate_ecnt_n_ge_obs, calculate_ecnt_n_lt_obs. -/
def ecntCount (column : String) (t : Table) (_aggregation : Bool) : Option ℚ := do
  some (roundHalfUp (← sumColumn t column) PRECISION)

/-- ecnt_statistics.py:476-521 calculate_ecnt_me_ge_obs (me_ge_obs, n_ge_obs) and
calculate_ecnt_me_lt_obs (me_lt_obs, n_lt_obs). -/
def ecntMeOf (column count : String) (t : Table) (_aggregation : Bool) : Option ℚ := do
  let n ← sumColumn t count
  let q ← pyDiv (← sumColumn t column) n
  some (roundHalfUp q PRECISION)

/-- ecnt_statistics.py:524-546 calculate_ecnt_bias_ratio. -/
def ecntBiasRatio (t : Table) (aggregation : Bool) : Option ℚ := do
  let ge ← ecntMeOf "me_ge_obs" "n_ge_obs" t aggregation
  let lt ← ecntMeOf "me_lt_obs" "n_lt_obs" t aggregation
  let q ← pyDiv ge |lt|
  some (roundHalfUp q PRECISION)

/-- A statistic of an aggregation run: preparation, then calculation with `aggregation = True`
(metcalcpy/agg_stat.py:237-281 `_calc_stats`, 1114-1175). -/
def aggregatedNbrCnt {α : Type} (calculate : Table → Bool → α) (t : Table) : Except PyErr α := do
  return calculate (← prepareNbrCnt t) true

def aggregatedEcnt {α : Type} (statistic : String) (calculate : Table → Bool → α) (t : Table) :
    Except PyErr α := do
  return calculate (← prepareEcnt statistic t) true

def aggregatedRps {α : Type} (calculate : Table → Bool → α) (t : Table) : Except PyErr α := do
  return calculate (← prepareRps t) true

end Metcalcpy
