/-
The check of the series data before a derived curve is computed:
metcalcpy/agg_stat.py:669-691, 840-889 and metcalcpy/scorecard.py:247-275.
-/
import Verif.Model.Frame
import Mathlib.Data.List.Dedup

namespace Metcalcpy

/-- `np.where(self.column_names == name)[0][0]`: the first position, an IndexError without the column. -/
def columnIndex (cols : List String) (name : String) : Except PyErr ℕ :=
  match cols.findIdx? (· == name) with
  | some i => .ok i
  | none => .error .indexError

/-- A cell as element of a Python tuple: numbers are compared by value.  Simplification: missing cells are equal to
each other. -/
def Val.tupleCell : Val → Val
  | .num q _ => .num q ""
  | v => v

/-- agg_stat.py:861-872 (scorecard.py:252-262): the column with the valid time. -/
def validColumn (cols : List String) : String :=
  if "fcst_valid_beg" ∈ cols then "fcst_valid_beg"
  else if "fcst_valid" ∈ cols then "fcst_valid"
  else if "fcst_init_beg" ∈ cols then "fcst_init_beg"
  else "fcst_init"

/-- agg_stat.py:875-877: the tuple (valid, lead, statistic) of a row. -/
def caseTuple (v l s : ℕ) (r : List Val) : List Val :=
  [(cellAt r v).tupleCell, (cellAt r l).tupleCell, (cellAt r s).tupleCell]

/-- agg_stat.py:840-889 _validate_series_cases_for_derived_operation.  The exemption (line 887) compares the *list* of
statistics with texts and therefore never applies, so it does not appear.  Simplifications: all cells are hashable and
comparable; the comparison `len / num != unique` is exact. -/
def validateSeries (cols : List String) (rows : List (List Val)) (numDiff : ℕ) : Except PyErr Unit := do
  let l ← columnIndex cols "fcst_lead"
  let s ← columnIndex cols "stat_name"
  let v ← columnIndex cols (validColumn cols)
  let unique := (rows.map (caseTuple v l s)).dedup.length
  if (rows.length : ℚ) / numDiff ≠ unique then .error .nameError else .ok ()

/-- agg_stat.py:673-687: the number of values in the groups of a component, 1 without groups.  The components are
the texts of the series point with group names replaced by their values. -/
def numDiffVals (components : List String) : ℕ :=
  let n := (components.map (fun c =>
    let size := (splitColon c.toList).length
    if size > 1 then size else 0)).sum
  if n = 0 then 1 else n

/-- agg_stat.py:662-692: the checks made before the derived value: nothing is checked when a component has no data or
for the operation SINGLE.  Returns whether the derived value is computed at all. -/
def checkDerived (cols : List String) (op : String) (first second : List String)
    (rows₁ rows₂ : List (List Val)) : Except PyErr Bool := do
  if rows₁.isEmpty || rows₂.isEmpty then return false
  if op ≠ "SINGLE" then
    validateSeries cols rows₁ (numDiffVals first)
    validateSeries cols rows₂ (numDiffVals second)
  return true

/-- scorecard.py:242-275: the scorecard checks the first component only and allows no groups. -/
def checkScorecard (cols : List String) (op : String) (rows₁ rows₂ : List (List Val)) : Except PyErr Bool := do
  if rows₁.isEmpty || rows₂.isEmpty then return false
  if op ≠ "SINGLE" then
    validateSeries cols rows₁ 1
  return true

end Metcalcpy
