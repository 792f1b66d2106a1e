/-
metcalcpy/scorecard.py: the points of a scorecard, the rows of each of them and the rows written.
-/
import Verif.Model.AggBoot

namespace Metcalcpy

/-- scorecard.py:114-119: all_fields_values.  The parameters are those of an aggregation (`fcstVars` and `groups` are not
read; `group_to_value` stays empty, scorecard.py:99). -/
def scoreFields (c : AggConfig) : List (String × List String) :=
  let d := dictSet c.series "stat_name" c.stats
  if c.indyVals.isEmpty then d else dictSet d c.indyVar c.indyVals

/-- scorecard.py:120. -/
def scorePoints (c : AggConfig) : List (List String) := product ((scoreFields c).map Prod.snd)

/-- scorecard.py:281-282 `ds['stat_value'].tolist()`; KeyError for a missing column, a missing cell is NaN.
Simplification: a text in the column is a TypeError here (in the code when it is used). -/
def statValues (f : Frame) (rows : List (List Val)) : Except PyErr (List PyNum) := do
  let i ← f.col "stat_value"
  rows.mapM (fun r => match cellAt r i with
    | .num q _ => .ok (.num q)
    | .null => .ok .nan
    | .str _ => .error .typeError)

/-- `statistics.mean` of a non-empty list without None.  Simplification: exact arithmetic. -/
def statMean (l : List PyNum) : PyNum :=
  match l.mapM PyNum.cell with
  | some qs => .num (qs.sum / qs.length)
  | none => .nan

/-- scorecard.py:277-303: the value of a derived point from the rows of both series.  `sig` is the difference significance
(`_calculate_diff_sig_emc` or `_calculate_diff_sig_ncar`).  `statistics.mean(None)` is a TypeError. -/
def scoreStat (sig : List PyNum → List PyNum → Except PyErr PyNum) (f : Frame) (op : String)
    (rows₁ rows₂ : List (List Val)) : Except PyErr PyNum := do
  let d₁ ← sortData f rows₁
  let d₂ ← sortData f rows₂
  let v₁ ← statValues f d₁
  let v₂ ← statValues f d₂
  if op = "DIFF_SIG" then sig v₁ v₂
  else if op = "DIFF" then
    match calcDerivedCurveValue (fun _ _ => ()) (some v₁) (some v₂) "DIFF" with
    | some (.inl l) => .ok (statMean l)
    | _ => .error .typeError
  else if op = "SINGLE" then .ok (statMean v₁)
  else .ok .none

/-- scorecard.py:53 COLUMNS_TO_REMOVE. -/
def scoreRemoved : List String :=
  ["equalize", "stat_ncl", "stat_ncu", "stat_bcl", "stat_bcu", "fcst_valid_beg", "fcst_init_beg"]

/-- A number as a cell of the output table (None and NaN are missing). -/
def PyNum.val : PyNum → Val
  | .num q => .num q ""
  | _ => .null

/-- scorecard.py:306-329: the row written, as pairs (column, cell): the first row of the first series with its value, lead
and model replaced.  KeyError without a column or a series variable fcst_lead. -/
def scoreRow (c : AggConfig) (cols : List String) (cv : DerivedCurve) (name : String) (v : PyNum) (r : List Val) :
    Except PyErr (List (String × Val)) :=
  let row := dictSet ((cols.zip r).filter (fun p => decide (p.1 ∉ scoreRemoved))) "stat_value" v.val
  match row.lookup "fcst_lead", c.series.lookup "fcst_lead" with
  | some lead, some leads =>
    let lead := match leads.reverse.find? (fun l => decide (l ∈ cv.first)) with
      | some l => l
      | none => lead.text
    .ok (dictSet (dictSet row "fcst_lead" (.str lead)) "model" (.str name))
  | _, _ => .error .keyError

/-- scorecard.py:181-330 _get_stats_for_derived; `none` when a series has no rows. -/
def scoreDerived (sig : List PyNum → List PyNum → Except PyErr PyNum) (f : Frame) (c : AggConfig)
    (curves : List (String × DerivedCurve)) (results : List (List String × List (List Val))) (point : List String) :
    Except PyErr (Option (List (String × Val))) :=
  match curves.lookup (derivedNameOf point) with
  | none => .error .keyError
  | some cv =>
    match findPair (fullComponents [] cv.first point) (fullComponents [] cv.second point) results none none with
    | (some rows₁, some rows₂) => do
      if ← checkScorecard f.cols cv.op rows₁ rows₂ then
        let v ← scoreStat sig f cv.op rows₁ rows₂
        match rows₁ with
        | [] => .ok none
        | r :: _ =>
          let row ← scoreRow c f.cols cv (derivedNameOf point) v r
          .ok (some row)
      else .ok none
    | _ => .error .attributeError           -- `ds_1.values` of None (line 242)

/-- The state of the loop over the points: the rows of each plain point, the rows written so far. -/
structure ScoreState where
  results : List (List String × List (List Val))
  out : List (List (String × Val))

/-- scorecard.py:127-172, one point. -/
def scoreStep (sig : List PyNum → List PyNum → Except PyErr PyNum) (f : Frame) (c : AggConfig)
    (curves : List (String × DerivedCurve)) (st : ScoreState) (point : List String) : Except PyErr ScoreState :=
  if isDerivedPoint (some point) then do
    match ← scoreDerived sig f c curves st.results point with
    | some row => .ok ⟨st.results, st.out ++ [row]⟩
    | none => .ok st
  else do
    let rows ← pointRows f (((scoreFields c).map Prod.fst).zip point) none
    .ok ⟨putPoint st.results point rows, st.out⟩

/-- scorecard.py:101-181 calculate_scorecard_data: the rows of the table (no file is written when there are none).  Only
the points of derived series give rows. -/
def scorecard (sig : List PyNum → List PyNum → Except PyErr PyNum) (f : Frame) (c : AggConfig) :
    Except PyErr (List (List (String × Val))) :=
  if f.isEmpty then .ok []
  else do
    let entries ← c.derived.mapM (derivedEntry c)
    let curves := entries.foldl (fun d e => dictSet d e.1 e.2.1) []
    let st ← (scorePoints c ++ entries.flatMap (fun e => e.2.2)).foldlM (scoreStep sig f c curves) ⟨[], []⟩
    .ok st.out

end Metcalcpy
