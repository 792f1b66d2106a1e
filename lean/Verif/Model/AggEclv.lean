/-
metcalcpy/agg_eclv.py: the rows of the table of economic values (num_iterations = 1).
-/
import Verif.Model.EconomicValue
import Verif.Model.AggPoints
import Mathlib.Algebra.Order.Floor.Div
import Mathlib.Data.Rat.Floor

namespace Metcalcpy

/-- agg_eclv.py:81 `np.arange(step, 1, step)`; ZeroDivisionError for step 0.  Simplification: exact arithmetic. -/
def clSteps (step : ℚ) : Except PyErr (List ℚ) :=
  if step = 0 then .error .zeroDivisionError
  else .ok ((List.range ⌈(1 - step) / step⌉₊).map (fun k : ℕ => step + k * step))

/-- agg_eclv.py:63-66 LINE_TYPE_COLUMNS. -/
def eclvColumns (lineType : String) : Except PyErr (List String) :=
  if lineType = "ctc" then .ok ["total", "fy_oy", "fy_on", "fn_oy", "fn_on"]
  else if lineType = "pct" then .ok ["thresh_i", "oy_i", "on_i"]
  else .error .keyError

/-- A cell of the array of agg_eclv.py:150.  Simplification: a text cell is a TypeError here. -/
def numCell : Val → Except PyErr Cell
  | .num q _ => .ok (some q)
  | .null => .ok none
  | .str _ => .error .typeError

/-- agg_eclv.py:150 `series_data[column_names].to_numpy()`; KeyError for a missing column. -/
def frameTable (f : Frame) (names : List String) (rows : List (List Val)) : Except PyErr Table := do
  let idxs ← names.mapM f.col
  let cells ← rows.mapM (fun r => idxs.mapM (fun i => numCell (cellAt r i)))
  .ok { cols := names, rows := cells }

/-- agg_eclv.py:234-249: the rows of a point; a requested text stands for itself only.  Without any filter the mask is a
single value and `loc` is a KeyError. -/
def eclvRows (f : Frame) (request : List (String × String)) : Except PyErr (List (List Val)) :=
  let filters : List (List Val → Bool) :=
    request.filterMap (fun q => (f.idx? q.1).map (fun i r => partMatches (cellAt r i) q.2))
  if filters.isEmpty then .error .keyError
  else .ok (f.rows.filter (fun r => filters.all (fun p => p r)))

/-- agg_eclv.py:252-256: the thresholds of a point, sorted, each once.  Simplification: cells of the column that are not
numbers are skipped. -/
def eclvThresholds (f : Frame) (rows : List (List Val)) : List ℚ :=
  match f.idx? "thresh_i" with
  | none => [0]
  | some i => ((rows.filterMap (fun r => match cellAt r i with
      | .num q _ => some q
      | _ => none)).dedup).insertionSort (· ≤ ·)

/-- A row of the output table: the series values, `thresh_i`, `x_pnt_i`, `y_pnt_i`, `nstats`. -/
structure EclvOut where
  point : List String
  thresh : ℚ
  x : ℚ
  y : ℚ
  nstats : ℕ
  deriving DecidableEq, Repr

/-- agg_eclv.py:135-190, 231-269: the output rows of one point.  An empty point has no dictionary of results, so reading the result of
a threshold is a TypeError (line 262); so is reading the curve of a result None.  The option for the base rate is always 0
(`aggEclvAddBaseRate`). -/
def eclvPoint (npf : Bool) (lineType : String) (cols : List String) (steps : List ℚ) (f : Frame) (names point : List String) :
    Except PyErr (List EclvOut) := do
  let rows ← eclvRows f (names.zip point)
  let thresholds := eclvThresholds f rows
  if rows.isEmpty then
    if thresholds.isEmpty then .ok [] else .error .typeError
  else
    let t ← frameTable f cols rows
    let parts ← thresholds.mapM (fun th => do
      match ← eclvStat npf t (some th) lineType steps (aggEclvAddBaseRate none) with
      | none => .error .typeError
      | some e => .ok (List.zipWith (fun x y => (⟨point, th, x, y, rows.length⟩ : EclvOut)) e.cl e.V))
    .ok parts.flatten

/-- agg_eclv.py:69-102, 209-272 (constructor and _proceed_with_axis).  `npf`: NumPy still has `np.float`. -/
def aggEclv (npf : Bool) (lineType : String) (step : ℚ) (series : List (String × List String)) (f : Frame) :
    Except PyErr (List EclvOut) := do
  let steps ← clSteps step
  let cols ← eclvColumns lineType
  if f.isEmpty then .ok []
  else
    let parts ← (product (series.map Prod.snd)).mapM (eclvPoint npf lineType cols steps f (series.map Prod.fst))
    .ok parts.flatten

end Metcalcpy
