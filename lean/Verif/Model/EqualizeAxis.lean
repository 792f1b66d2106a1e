/-
metcalcpy/util/utils.py:672-806: event equalization of the axes of a plot.
-/
import Verif.Model.EventEqualize
import Mathlib.Data.List.Dedup

namespace Metcalcpy

/-- `column.isin(texts)` for one cell: a number or a missing cell never equals a text. -/
def isinTexts (v : Val) (l : List String) : Bool :=
  match v with
  | .str s => decide (s ∈ l)
  | _ => false

/-- `frame[frame[name] == text]` for an existing column, else the frame itself (utils.py:706-713). -/
def filterIfPresent (f : Frame) (name : String) (l : List String) : Frame :=
  match f.idx? name with
  | some i => f.filterRows (fun r => isinTexts (cellAt r i) l)
  | none => f

/-- utils.py:696-713: the data selected for one series variable, forecast variable and statistic. -/
def axisFilter (f : Frame) (sv : String × List String) (fcstVar stat : String) : Frame :=
  filterIfPresent (filterIfPresent (filterIfPresent f sv.1 (sv.2.flatMap ungroup)) "fcst_var" [fcstVar])
    "stat_name" [stat]

/-- utils.py:692-713: the loop over the series variables starts from the input data for every variable, so the last
one decides.  Without series variables all the data is used. -/
def axisData (f : Frame) (series : List (String × List String)) (fcstVar stat : String) : Frame :=
  series.foldl (fun _ sv => axisFilter f sv fcstVar stat) f

/-- Is the selected data the caller's frame itself (no filter applied)?  Then `event_equalize` adds its key column
to that frame. -/
def axisAliased (f : Frame) (series : List (String × List String)) : Bool :=
  match series.getLast? with
  | none => true
  | some sv => !(f.cols.contains sv.1) && !(f.cols.contains "fcst_var") && !(f.cols.contains "stat_name")

/-- `frame.empty`. -/
def Frame.isEmpty (f : Frame) : Bool := f.cols.isEmpty || f.rows.isEmpty

/-- utils.py:726-730 (`pd.concat` of frames with the same columns). -/
def Frame.appendOrReplace (out ee : Frame) : Frame :=
  if out.isEmpty then ee else { out with rows := out.rows ++ ee.rows }

/-- `frame.drop(name, axis=1)`; without the column the KeyError is handled and the frame returned (lines 732-747). -/
def Frame.dropCol (f : Frame) (name : String) : Frame :=
  match f.idx? name with
  | some i => { cols := f.cols.eraseIdx i, rows := f.rows.map (fun r => r.eraseIdx i) }
  | none => f

/-- utils.py:688-730: one forecast variable and statistic; the state is the caller's frame and the result so far. -/
def axisStep (indy : String) (series : List (String × List String)) (fixVars : List String)
    (fixVals : List (List String)) (st : Frame × Frame) (p : String × String) : Except PyErr (Frame × Frame) := do
  let (f', ee) ← eventEqualize (axisData st.1 series p.1 p.2) indy series fixVars fixVals true
  .ok (if axisAliased st.1 series then f' else st.1, st.2.appendOrReplace ee)

/-- utils.py:672-750 equalize_axis_data.  `fcstVarVal` is `params['fcst_var_val_' + axis]` ([("", [""])] when the key
is missing).  Simplification: the FutureWarning that some pandas versions emit, and line 729 turns into an error,
when an empty frame is concatenated is not modelled. -/
def equalizeAxis (f : Frame) (indy : String) (fcstVarVal : List (String × List String))
    (series : List (String × List String)) (fixVars : List String) (fixVals : List (List String)) :
    Except PyErr Frame := do
  let st ← (fcstVarVal.flatMap (fun p => p.2.map (fun s => (p.1, s)))).foldlM
    (axisStep indy series fixVars fixVals) (f, { cols := [], rows := [] })
  .ok (st.2.dropCol "equalize")

/-- utils.py:795-798: one dictionary for both axes; the values of the second axis replace those of the first, then
duplicates are removed.  (`set` leaves the order open; the rows selected do not depend on it.) -/
def mergedSeries (s₁ s₂ : List (String × List String)) : List (String × List String) :=
  (s₂.foldl (fun d p => dictSet d p.1 p.2) s₁).map (fun p => (p.1, p.2.dedup))

/-- utils.py:753-806 perform_event_equalization for two axes, with the fixed variables already permuted.
Simplification: both axes are equalized from the given frame (the key column that the first equalization may leave in
it is not modelled), and both results have the columns of the input. -/
def equalizeTwoAxes (f : Frame) (indy : String) (fcst₁ fcst₂ : List (String × List String))
    (s₁ s₂ : List (String × List String)) (fixVars : List String) (fixVals : List (List String)) :
    Except PyErr Frame := do
  let o₁ ← equalizeAxis f indy fcst₁ s₁ fixVars fixVals
  let o₂ ← equalizeAxis f indy fcst₂ s₂ fixVars fixVals
  let (_, ee) ← eventEqualize { f with rows := o₁.rows ++ o₂.rows } indy (mergedSeries s₁ s₂) fixVars fixVals true
  .ok (ee.dropCol "equalize")

end Metcalcpy
