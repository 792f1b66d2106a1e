/-
metcalcpy/util/utils.py:1273-1330  calculate_mtd_revision_stats.
-/
import Verif.Model.CorrTable

namespace Metcalcpy

/-- The dictionary returned by calculate_mtd_revision_stats; `none` is Python's None. -/
structure MtdStats where
  wwRun : Option ℝ
  autoCorP : Option ℝ
  autoCorR : Option ℝ

/-- `series_data.revision_id.unique()`: in the order of the first occurrences. -/
def revisionIds (rows : List (String × Cell)) : List String := (rows.map Prod.fst).reverse.dedup.reverse

/-- metcalcpy/util/utils.py:1301-1304: the values of a revision, followed by a None. -/
def revisionBlock (rows : List (String × Cell)) (id : String) : List Cell :=
  ((rows.filter fun r => r.1 == id).map Prod.snd) ++ [none]

/-- metcalcpy/util/utils.py:1298-1307: the values, revision after revision, separated by None.  A row is revision_id (a text)
and stat_value. -/
def mtdData (rows : List (String × Cell)) : List Cell := ((revisionIds rows).flatMap (revisionBlock rows)).dropLast

/-- metcalcpy/util/utils.py:1320-1321: `round(acf_value[-1], 2)`. -/
noncomputable def lastRounded : Option (List ℚ) → Except PyErr (Option ℝ)
  | none => .ok none
  | some l => match l.getLast? with
    | none => .error .indexError
    | some v => .ok (some (npRound (v : ℝ) 2))

/-- metcalcpy/util/utils.py:1273-1330 calculate_mtd_revision_stats.  `hasColumns` says whether the frame has the columns
stat_value and revision_id; `phi` is `scipy.stats.norm.cdf`.  Simplification: exact arithmetic instead of doubles. -/
noncomputable def mtdRevisionStats (phi : ℝ → ℝ) (hasColumns : Bool) (rows : List (String × Cell)) (lagMax : Option ℤ) :
    Except PyErr MtdStats :=
  if rows.length = 0 then .ok ⟨none, none, none⟩
  else if hasColumns = false then .ok ⟨none, none, none⟩
  else do
    let data := mtdData rows
    let m ← pyMean (removeNone data)
    let data := data.map (Option.map (· - m))
    let acfValue ← acf data "correlation" lagMax
    let r ← lastRounded acfValue
    let p := npRound (0.06270678 / Real.sqrt data.length) 2
    let w ← runsTest phi data "left.sided" "median"
    .ok ⟨w.map fun res => npRound res.pValue 2, some p, r⟩

end Metcalcpy
