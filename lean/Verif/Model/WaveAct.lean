/-
Model of metcalcpy/contributed/tropical_diagnostics/ccew_activity.py: projection on wave patterns and activity (waveproj, 177-203, and
waveact, 111-131, after the patterns have been read).
-/
import Verif.Model.CcewActivity
import Mathlib.Data.Real.Sqrt

namespace Metcalcpy

/-- Values on a grid, by position of latitude and longitude. -/
abbrev GridField := ℕ → ℕ → Cell

/-- ccew_activity.py:111-120: the anomalies of all times. -/
def gridAnomalies (spd : ℕ) (days : List YMD) (data : List GridField) : Except PyErr (List GridField) :=
  if spd = 0 then .error .valueError
  else .ok ((List.range data.length).map fun t i j =>
    (removeAnnual spd days (data.map fun f => f i j)).toOption.getD [] |>.getD t none)

/-- `sel(lat=slice(lo, hi))`: positions of the labels selected. A decreasing index is read from its large end. Simplification: labels
are increasing or decreasing. -/
def selSlice (labels : List ℚ) (lo hi : ℚ) : List ℕ :=
  (List.range labels.length).filter fun i =>
    if labels.Pairwise (· < ·) then decide (lo ≤ labels.getD i 0 ∧ labels.getD i 0 ≤ hi)
    else decide (hi ≤ labels.getD i 0 ∧ labels.getD i 0 ≤ lo)

/-- `min()` and `max()` of labels. -/
def labelMin (l : List ℚ) : ℚ := l.foldl min (l.headD 0)
def labelMax (l : List ℚ) : ℚ := l.foldl max (l.headD 0)

/-- The labels that both arrays have (the inner join of `@`), as positions in the data and in the pattern. -/
def joined (dl el : List ℚ) : List (ℕ × ℕ) :=
  (selSlice dl (labelMin el) (labelMax el)).filterMap fun i =>
    if dl.getD i 0 ∈ el then some (i, el.idxOf (dl.getD i 0)) else none

/-- Product; missing if a factor is. -/
def mulMissing : Cell → Cell → Cell
  | some x, some y => some (x * y)
  | _, _ => none

/-- Sum; missing if a term is. -/
def sumMissing (l : List Cell) : Cell := (l.mapM id).map List.sum

/-- ccew_activity.py:184-185, 196, 201: `eof[ee] @ data_anom[tt]` after the selection. -/
def projectOn (dLat dLon eLat eLon : List ℚ) (e f : GridField) : Cell :=
  sumMissing ((joined dLat eLat).flatMap fun p => (joined dLon eLon).map fun q => mulMissing (e p.2 q.2) (f p.1 q.1))

/-- ccew_activity.py:192-199: the patterns for a month; the first axis has length one for annual patterns. -/
def patternsFor (eofs : List (List GridField)) (month : ℕ) : Except PyErr (List GridField) :=
  if eofs.length = 1 then .ok (eofs.getD 0 [])
  else match eofs[month - 1]? with
    | none => .error .indexError
    | some e => .ok e

/-- ccew_activity.py:128 `np.sqrt(np.sum(np.square(tswave), 0))` of a DataArray: the sum skips missing values. -/
noncomputable def activityOf (ps : List Cell) : ℝ := Real.sqrt (((ps.filterMap id).map fun p => p ^ 2).sum : ℚ)

/-- ccew_activity.py:111-131: the activity at all times. -/
noncomputable def waveAct (spd : ℕ) (days : List YMD) (dLat dLon : List ℚ) (data : List GridField) (eLat eLon : List ℚ)
    (eofs : List (List GridField)) : Except PyErr (List ℝ) := do
  let anom ← gridAnomalies spd days data
  let projs ← (anom.zip days).mapM fun p => do
    let es ← patternsFor eofs p.2.2.1
    .ok (es.map fun e => projectOn dLat dLon eLat eLon e p.1)
  .ok (projs.map activityOf)

end Metcalcpy
