/-
metcalcpy/agg_eclv.py:274-312 calculate_stats_and_ci: a run of the economic values from the parameters to the table.
-/
import Verif.Model.AggEclv
import Verif.Model.AggRun

namespace Metcalcpy

/-- The parameters of a run (num_iterations = 1).  `fixed` is `fixed_vars_vals_input`: for every variable the lists to be
permuted (the values of a dictionary). -/
structure EclvParams where
  eventEqual : String
  byIndep : String
  lineType : String
  step : ℚ
  series : List (String × List String)
  fixed : List (String × List (List String))

/-- agg_eclv.py:290-301: the values of the fixed variables, permuted and flattened, and the equalization of the input. -/
def EclvParams.equalize (p : EclvParams) (f : Frame) : Except PyErr Frame := do
  let (_, g) ← eventEqualize f "stat_name" p.series (p.fixed.map Prod.fst) (p.fixed.map (fun q => (product q.2).flatten))
    (truthy (parseBool p.byIndep))
  .ok g

/-- agg_eclv.py:69-102 (constructor) and 274-312 calculate_stats_and_ci.  The ratios and the columns are determined before
the input is equalized.  Simplification: num_iterations = 1; the text file written from the table is not modelled. -/
def aggEclvRun (npf : Bool) (f : Frame) (p : EclvParams) : Except PyErr (List EclvOut) := do
  let _ ← clSteps p.step
  let _ ← eclvColumns p.lineType
  let g ← if truthy (parseBool p.eventEqual) then p.equalize f else .ok f
  aggEclv npf p.lineType p.step p.series g

end Metcalcpy
