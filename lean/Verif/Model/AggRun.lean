/-
metcalcpy/agg_stat.py:1114-1164 calculate_stats_and_ci and metcalcpy/util/utils.py:753-806 perform_event_equalization:
one aggregation run from the parameters to the table.
-/
import Verif.Model.AggPoints

namespace Metcalcpy

/-- utils.py:43 and 235-244 parse_bool: the texts 'True' and 'False' become booleans, any other text stays a text. -/
def parseBool (s : String) : Bool ⊕ String :=
  if s = "True" then .inl true else if s = "False" then .inl false else .inr s

/-- Python's truth value of what `parse_bool` returns: a text is true unless it is empty. -/
def truthy : Bool ⊕ String → Bool
  | .inl b => b
  | .inr s => s != ""

/-- The parameters of one axis: `series_val_n`, `list_stat_n`, `derived_series_n`, `fcst_var_val_n`. -/
structure AxisParams where
  series : List (String × List String)
  stats : List String
  derived : List (List String)
  fcstVarVal : List (String × List String)
  deriving DecidableEq, Repr

/-- The parameters of a run (num_iterations = 1).  `fixed` is `fixed_vars_vals_input`: for every variable the lists to be
permuted (the values of a dictionary, or a single list). -/
structure AggParams where
  eventEqual : String
  indyVar : String
  indyVals : List String
  fixed : List (String × List (List String))
  axis₁ : AxisParams
  axis₂ : AxisParams
  deriving DecidableEq, Repr

/-- agg_stat.py:1133-1141 and 1143-1152: the values with a ':' are groups; they are named in the order in which they are
listed, starting from 1 for each axis. -/
def nameGroups (pre : String) (series : List (String × List String)) : List (String × String) :=
  ((series.flatMap Prod.snd).filter (fun v => v.toList.contains ':')).mapIdx
    (fun i v => (pre ++ toString (i + 1), v))

/-- agg_stat.py:1131-1152: `group_to_value`. -/
def AggParams.groups (p : AggParams) : List (String × String) :=
  nameGroups "Group_y1_" p.axis₁.series ++ nameGroups "Group_y2_" p.axis₂.series

/-- utils.py:763-777: the values of the fixed variables, permuted and flattened. -/
def AggParams.fixVals (p : AggParams) : List (List String) := p.fixed.map (fun q => (product q.2).flatten)

/-- utils.py:753-806 perform_event_equalization. -/
def AggParams.equalize (p : AggParams) (f : Frame) : Except PyErr Frame :=
  if p.axis₂.series.isEmpty then
    equalizeAxis f p.indyVar p.axis₁.fcstVarVal p.axis₁.series (p.fixed.map Prod.fst) p.fixVals
  else
    equalizeTwoAxes f p.indyVar p.axis₁.fcstVarVal p.axis₂.fcstVarVal p.axis₁.series p.axis₂.series
      (p.fixed.map Prod.fst) p.fixVals

/-- The parameters read by `_proceed_with_axis` (agg_stat.py:972-1110). -/
def AggParams.config (p : AggParams) (a : AxisParams) : AggConfig :=
  ⟨a.series, p.indyVar, p.indyVals, a.stats, a.derived, a.fcstVarVal.map Prod.fst, p.groups⟩

/-- agg_stat.py:1114-1164 calculate_stats_and_ci: equalization if asked for, the table of the first axis and, when the
second axis has series, its table below.  Simplifications: num_iterations = 1, the line type is neither 'pct' nor
'ssvar', and the text file written from the table (lines 1166-1175) is not modelled. -/
def aggRun (statOf : String → List (List Val) → Except PyErr PyNum) (etb : List PyNum → List PyNum → PyNum)
    (f : Frame) (p : AggParams) : Except PyErr (List AggOut) := do
  let g ← if truthy (parseBool p.eventEqual) then p.equalize f else .ok f
  let o₁ ← aggAxis statOf etb g (p.config p.axis₁)
  if p.axis₂.series.isEmpty then .ok o₁
  else do
    let o₂ ← aggAxis statOf etb g (p.config p.axis₂)
    .ok (o₁ ++ o₂)

end Metcalcpy
