/-
metcalcpy/agg_stat.py:969-1112 _proceed_with_axis with lists of values ("12;24"): the rows of a point are pooled by
aggregate_field_values before the statistic is calculated.
-/
import Verif.Model.AggPoints
import Verif.Model.AggregateField

namespace Metcalcpy

/-- agg_stat.py:1058-1060: the rows of a point with their index labels. -/
def pointFrame (f : IFrame) (request : List (String × String)) (fcst : Option String) : Except PyErr IFrame :=
  if (pointFilters f.frame request fcst).isEmpty then .error .keyError
  else .ok { f with rows := f.rows.filter (fun r => (pointFilters f.frame request fcst).all (fun p => p r.2)) }

/-- agg_stat.py:1018, 1039-1044: `indy_val`, the independent value of a point if the variable is a column. -/
def pointIndy (f : IFrame) (c : AggConfig) (point : List String) : Option String :=
  if c.indyVar ∈ f.cols then ((c.fields.map Prod.fst).zip point).lookup c.indyVar else none

/-- agg_stat.py:1079-1090: pool the rows of a point.  The test of line 1081 iterates over a dictionary, so it looks at the
names of the series variables, not at their values.  `series_indy_var_val` is the dictionary of the parameters itself
(line 1086), which therefore keeps the independent variable; the first component is the dictionary afterwards. -/
def poolPoint (lineType : String) (indyVar : String) (series : List (String × List String)) (indy : Option String)
    (d : IFrame) : Except PyErr (List (String × List String) × IFrame) :=
  if series.any (fun p => hasSemi p.1) then do
    let g ← aggregateFieldValues lineType series d
    .ok (series, g)
  else match indy with
    | none => .ok (series, d)
    | some v =>
      if hasSemi v then do
        let g ← aggregateFieldValues lineType (dictSet series indyVar [v]) d
        .ok (dictSet series indyVar [v], g)
      else .ok (series, d)

/-- agg_stat.py:1008-1105, one point (num_iterations = 1), with the dictionary of the series values as it is then.
Simplification: the line type is not 'pct'. -/
def listStep (lineType : String) (statOf : String → List (List Val) → Except PyErr PyNum)
    (etb : List PyNum → List PyNum → PyNum) (f : IFrame) (c : AggConfig) (curves : List (String × DerivedCurve))
    (st : AggState × List (String × List String)) (point : List String) :
    Except PyErr (AggState × List (String × List String)) :=
  let stat := pointStat c.stats point st.1.stat
  let fcst := c.fcstVars.head?
  if isDerivedPoint (some point) then do
    let v ← derivedPoint statOf etb f.cols c.groups curves stat st.1.results point
    .ok (⟨stat, st.1.results, st.1.out ++ [⟨point, fcst, v, 0⟩]⟩, st.2)
  else do
    let d ← pointFrame f ((c.fields.map Prod.fst).zip point) fcst
    let g ← poolPoint lineType c.indyVar st.2 (pointIndy f c point) d
    let rows := g.2.frame.rows
    let res ← if rows.isEmpty then .ok ⟨.none, none⟩
      else do
        let v ← statOf stat rows
        .ok ⟨v, some rows⟩
    .ok (⟨stat, putPoint st.1.results point res, st.1.out ++ [⟨point, fcst, res.value, rows.length⟩]⟩, g.1)

/-- agg_stat.py:969-1112 _proceed_with_axis (num_iterations = 1) on a frame with index labels.  Simplification: the line
type is not 'pct'. -/
def listAxis (lineType : String) (statOf : String → List (List Val) → Except PyErr PyNum)
    (etb : List PyNum → List PyNum → PyNum) (f : IFrame) (c : AggConfig) : Except PyErr (List AggOut) :=
  if f.frame.isEmpty then .ok []
  else do
    let entries ← c.derived.mapM (derivedEntry c)
    let curves := entries.foldl (fun d e => dictSet d e.1 e.2.1) []
    let st ← (c.plainPoints ++ entries.flatMap (fun e => e.2.2)).foldlM (listStep lineType statOf etb f c curves)
      (⟨"", [], []⟩, c.series)
    .ok st.1.out

end Metcalcpy
