/-
metcalcpy/agg_stat.py: the points of an aggregation plot, the input rows of each of them and the output table
(`_proceed_with_axis`, `_get_derived_points`, `_get_bootstrapped_stats_for_derived`) for num_iterations = 1.
-/
import Verif.Model.ObjectBootstrap
import Verif.Model.Derived
import Verif.Model.DerivedValidate
import Verif.Model.EqualizeAxis
import Verif.Model.Round

namespace Metcalcpy

/-- The parameters of one axis that agg_stat.py:897-1110 reads: `series_val_*`, `indy_var`, `indy_vals`, `list_stat_*`,
`derived_series_*` (each entry a list [first, second, operation]), the keys of `fcst_var_val_*`, and the names given to
groups (`group_to_value`, agg_stat.py:1131-1152). -/
structure AggConfig where
  series : List (String × List String)
  indyVar : String
  indyVals : List String
  stats : List String
  derived : List (List String)
  fcstVars : List String
  groups : List (String × String)
  deriving DecidableEq, Repr

/-- agg_stat.py:990-994: all_fields_values, an insertion-ordered dictionary. -/
def AggConfig.fields (c : AggConfig) : List (String × List String) :=
  dictSet (if c.indyVals.isEmpty then c.series else dictSet c.series c.indyVar c.indyVals) "stat_name" c.stats

/-- agg_stat.py:995: the plain points. -/
def AggConfig.plainPoints (c : AggConfig) : List (List String) := product (c.fields.map Prod.snd)

/-- agg_stat.py:1025-1032: the values a requested text stands for. -/
def pointParts (v : String) : List String :=
  if v.toList.contains ':' then
    let dates := findDateTimes 0 v.toList
    if dates.length = 0 then (splitAt1 ':' v.toList).map String.ofList else dates
  else if v.toList.contains ';' then (splitAt1 ';' v.toList).map String.ofList
  else [v]

/-- The number that a run of digits denotes. -/
def digitsValue (cs : List Char) : ℕ := cs.foldl (fun acc c => acc * 10 + digitVal c) 0

/-- `float(s)` of a text accepted by `is_string_strictly_float`.  Simplification: the exact decimal value. -/
def pyFloat (s : String) : ℚ :=
  let value := fun cs : List Char =>
    (digitsValue (removeFirstDot cs) : ℚ) / 10 ^ (cs.dropWhile (fun c => c != '.')).tail.length
  match s.toList with
  | '-' :: cs => - value cs
  | cs => value cs

/-- agg_stat.py:1033-1037 and `isin`: does a cell equal one requested value?  Texts that look like numbers are converted
first.  Simplification: a number never equals a text. -/
def partMatches (v : Val) (p : String) : Bool :=
  match pyInt? p with
  | some z => match v with
    | .num q _ => q == (z : ℚ)
    | _ => false
  | none =>
    if isStringStrictlyFloat (some p) then
      match v with
      | .num q _ => q == pyFloat p
      | _ => false
    else v == .str p

/-- agg_stat.py:1046: `input_data[field].isin(filter_list)` for one cell. -/
def fieldMatches (v : Val) (request : String) : Bool := (pointParts request).any (partMatches v)

/-- agg_stat.py:1021-1056: all_filters.  Fields that are not columns of the input are skipped; only the first forecast
variable is used. -/
def pointFilters (f : Frame) (request : List (String × String)) (fcst : Option String) : List (List Val → Bool) :=
  request.filterMap (fun q => (f.idx? q.1).map (fun i r => fieldMatches (cellAt r i) q.2)) ++
    (match fcst, f.idx? "fcst_var" with
      | some v, some i => [fun r => isinTexts (cellAt r i) [v]]
      | _, _ => [])

/-- agg_stat.py:1058-1060: the rows of a point.  Without any filter the mask is a single value and `loc` is a
KeyError. -/
def pointRows (f : Frame) (request : List (String × String)) (fcst : Option String) :
    Except PyErr (List (List Val)) :=
  if (pointFilters f request fcst).isEmpty then .error .keyError
  else .ok (f.rows.filter (fun r => (pointFilters f request fcst).all (fun p => p r)))

/-- The result kept for a point: its value and the rows it was computed from (`none` for an empty point, agg_stat.py:782-785).
-/
structure PointResult where
  value : PyNum
  rows : Option (List (List Val))
  deriving DecidableEq, Repr

/-- One row of the output table. -/
structure AggOut where
  point : List String
  fcstVar : Option String
  value : PyNum
  nstats : ℕ
  deriving DecidableEq, Repr

/-- `str.lower()`; simplification: ASCII letters. -/
def lower (s : String) : String := String.ofList (s.toList.map Char.toLower)

/-- agg_stat.py:1009-1013: the statistic of a point: its last component that is a listed statistic, else the one of
the previous point. -/
def pointStat (stats point : List String) (old : String) : String :=
  match point.reverse.find? (fun x => decide (x ∈ stats)) with
  | some s => lower s
  | none => old

/-- `text.split(' ')`. -/
def spaceParts (s : String) : List String := (splitAt1 ' ' s.toList).map String.ofList

/-- A derived curve: the components of both series and the operation (`DerivedCurveComponent`). -/
structure DerivedCurve where
  first : List String
  second : List String
  op : String
  deriving DecidableEq, Repr

/-- agg_stat.py:932-936: the first pair of components that differ; an IndexError when the second list is shorter and
agrees so far. -/
def firstDifference : List String → List String → Except PyErr (Option (String × String))
  | [], _ => .ok none
  | _ :: _, [] => .error .indexError
  | a :: as, b :: bs => if a ≠ b then .ok (some (a, b)) else firstDifference as bs

/-- agg_stat.py:938-943: the series variable of the operation. -/
def operationVar (series : List (String × List String)) (diff : Option (String × String)) : Except PyErr String :=
  match series.getLast? with
  | none => .error .indexError
  | some l => match diff with
    | none => .ok l.1
    | some (a, b) =>
      match series.find? (fun p => decide (a ∈ p.2) && decide (b ∈ p.2)) with
      | some p => .ok p.1
      | none => .ok l.1

/-- agg_stat.py:945-957, 962-967: derived_val, the values of every field at the points of a derived curve. -/
def derivedFields (c : AggConfig) (var name : String) (ds₁ ds₂ : List String) : List (String × List String) :=
  let vals := c.series.map (fun p => (p.1, if p.1 = var then [name] else p.2.filter (fun x => decide (x ∈ ds₁))))
  let vals := if c.indyVals.isEmpty then vals else dictSet vals c.indyVar c.indyVals
  let s₁ := ds₁.getLastD ""
  let s₂ := ds₂.getLastD ""
  dictSet vals "stat_name" [if s₁ = s₂ then s₁ else s₁ ++ "," ++ s₂]

/-- agg_stat.py:914-970, one derived series: its name, its components and its points. -/
def derivedEntry (c : AggConfig) (d : List String) :
    Except PyErr (String × DerivedCurve × List (List String)) :=
  match d with
  | [] => .error .indexError
  | [_] => .error .indexError
  | a :: b :: rest => do
    let diff ← firstDifference (spaceParts a) (spaceParts b)
    let var ← operationVar c.series diff
    let name ← getDerivedCurveName d
    .ok (name, ⟨spaceParts a, spaceParts b, (a :: b :: rest).getLastD ""⟩,
      product ((derivedFields c var name (spaceParts a) (spaceParts b)).map Prod.snd))

/-- agg_stat.py:624-628: the derived name among the components: for each operation the first component that starts with
it; a later operation overwrites. -/
def derivedNameOf (point : List String) : String :=
  operationToSign.foldl (fun acc op =>
    match point.find? (fun s => startsWith s (op.1 ++ "(") || startsWith s (op.1 ++ " (")) with
    | some s => s
    | none => acc) ""

/-- agg_stat.py:631-639: the components of a series with those of the point (except the first) added and group names
replaced by their values. -/
def fullComponents (groups : List (String × String)) (first point : List String) : List String :=
  ((point.tail).foldl (fun acc s => if s ∈ acc then acc else acc ++ [s]) first).map
    (fun s => (groups.lookup s).getD s)

/-- agg_stat.py:651-660: the results of both components.  A key matches a list of components when all its elements occur
in it; later matches overwrite earlier ones until both are found. -/
def findPair {α : Type*} (p₁ p₂ : List String) : List (List String × α) → Option α → Option α → Option α × Option α
  | [], d₁, d₂ => (d₁, d₂)
  | (k, r) :: rest, d₁, d₂ =>
    let d₁' := if k.all (fun x => decide (x ∈ p₁)) then some r else d₁
    let d₂' := if k.all (fun x => decide (x ∈ p₂)) then some r else d₂
    if d₁'.isSome && d₂'.isSome then (d₁', d₂') else findPair p₁ p₂ rest d₁' d₂'

/-- `round_half_up(x, 5)` of a calculated value: NaN cannot be converted to an integer (ValueError); None does not reach
it. -/
def roundDerived : PyNum → Except PyErr PyNum
  | .num q => .ok (.num (roundHalfUp q 5))
  | _ => .error .valueError

/-- agg_stat.py:694-724 and 758-769 (num_iterations = 1): the value of a derived point.  `statOf` is the statistic of a set of
rows, `etb` the equivalence test of calc_derived_curve_value, whose result is a dictionary.  With one iteration the
distribution is the value itself, so the p-value of DIFF_SIG is 1.  Simplification: the equivalence test may also fail by
itself (say, with a single case); the error is then another one. -/
def derivedValue (statOf : String → List (List Val) → Except PyErr PyNum) (etb : List PyNum → List PyNum → PyNum)
    (stat op : String) (v₁ v₂ : PyNum) (rows₁ rows₂ : List (List Val)) : Except PyErr PyNum := do
  let l₁ ← if op = "ETB" then rows₁.mapM (fun r => statOf stat [r]) else .ok [v₁]
  let l₂ ← if op = "ETB" then rows₂.mapM (fun r => statOf stat [r]) else .ok [v₂]
  let value ← match calcDerivedCurveValue etb (some l₁) (some l₂) op with
    | none => .ok PyNum.none
    | some (.inl []) => .error .indexError
    | some (.inl (x :: _)) => roundDerived x
    | some (.inr _) => .error .keyError      -- `stat_val[0]` of the dictionary of tost_paired (line 718), not handled
  if op = "DIFF_SIG" then
    match value, v₁, v₂ with
    | .num _, .num a, .num b => .ok (match perfectScoreAdjustment a b stat 1 with | some q => .num q | none => .none)
    | _, _, _ => .ok .none
  else .ok value

/-- agg_stat.py:607-771 _get_bootstrapped_stats_for_derived (num_iterations = 1). -/
def derivedPoint (statOf : String → List (List Val) → Except PyErr PyNum) (etb : List PyNum → List PyNum → PyNum)
    (cols : List String) (groups : List (String × String)) (curves : List (String × DerivedCurve))
    (stat : String) (results : List (List String × PointResult)) (point : List String) : Except PyErr PyNum :=
  match curves.lookup (derivedNameOf point) with
  | none => .error .keyError
  | some cv =>
    match findPair (fullComponents groups cv.first point) (fullComponents groups cv.second point) results none none with
    | (some d₁, some d₂) => do
      if ← checkDerived cols cv.op (fullComponents groups cv.first point) (fullComponents groups cv.second point)
          (d₁.rows.getD []) (d₂.rows.getD []) then
        derivedValue statOf etb stat cv.op d₁.value d₂.value (d₁.rows.getD []) (d₂.rows.getD [])
      else .ok .none
    | _ => .error .attributeError           -- `ds_1.values` of None (line 664)

/-- `point_to_distrib[point] = result`. -/
def putPoint {α : Type*} (d : List (List String × α)) (k : List String) (v : α) : List (List String × α) :=
  if d.any (fun p => p.1 == k) then d.map (fun p => if p.1 == k then (k, v) else p) else d ++ [(k, v)]

/-- The state of the loop over the points: the current statistic, the results so far, the output so far. -/
structure AggState where
  stat : String
  results : List (List String × PointResult)
  out : List AggOut

/-- agg_stat.py:1008-1102, one point (num_iterations = 1).  `statOf s rows` is the statistic `s` of the sorted and prepared
rows.  Simplifications: the line type is not 'pct', no independent value lists several values with ';' (their rows
would be aggregated first, see Verif.Model.AggLists); a point equal to an earlier one is computed again. -/
def aggStep (statOf : String → List (List Val) → Except PyErr PyNum) (etb : List PyNum → List PyNum → PyNum)
    (f : Frame) (c : AggConfig) (curves : List (String × DerivedCurve)) (st : AggState) (point : List String) :
    Except PyErr AggState :=
  let stat := pointStat c.stats point st.stat
  let fcst := c.fcstVars.head?
  if isDerivedPoint (some point) then do
    let v ← derivedPoint statOf etb f.cols c.groups curves stat st.results point
    .ok ⟨stat, st.results, st.out ++ [⟨point, fcst, v, 0⟩]⟩
  else do
    let rows ← pointRows f ((c.fields.map Prod.fst).zip point) fcst
    let res ← if rows.isEmpty then .ok ⟨.none, none⟩
      else do
        let v ← statOf stat rows
        .ok ⟨v, some rows⟩
    .ok ⟨stat, putPoint st.results point res, st.out ++ [⟨point, fcst, res.value, rows.length⟩]⟩

/-- agg_stat.py:972-1110 _proceed_with_axis (num_iterations = 1), with the curves known from an earlier axis.  Empty input gives
an empty table. -/
def aggAxis (statOf : String → List (List Val) → Except PyErr PyNum) (etb : List PyNum → List PyNum → PyNum)
    (f : Frame) (c : AggConfig) : Except PyErr (List AggOut) :=
  if f.isEmpty then .ok []
  else do
    let entries ← c.derived.mapM (derivedEntry c)
    let curves := entries.foldl (fun d e => dictSet d e.1 e.2.1) []
    let st ← (c.plainPoints ++ entries.flatMap (fun e => e.2.2)).foldlM (aggStep statOf etb f c curves) ⟨"", [], []⟩
    .ok st.out

end Metcalcpy
