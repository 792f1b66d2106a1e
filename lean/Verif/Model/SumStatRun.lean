/-
metcalcpy/sum_stat.py:124-179 calculate_stats with event equalization: a run from the parameters to the table.
-/
import Verif.Model.SumStat
import Verif.Model.AggRun

namespace Metcalcpy

/-- The rows of a frame with their labels.  Simplification: the rows kept by the equalization are numbered anew; their labels
in the code are others, but a label is used only to write the statistic of a row into that row (sum_stat.py:250-260). -/
def Frame.numbered (f : Frame) : IFrame := ⟨f.cols, f.rows.zipIdx.map (fun p => (p.2, p.1))⟩

/-- The parameters read by aggregate_special_fields. -/
def sumConfigOf (lineType : String) (p : AggParams) : SumConfig :=
  ⟨lineType, p.indyVar, p.indyVals, some p.axis₁.series, some p.axis₂.series⟩

/-- sum_stat.py:142-165: equalization when asked for, then the aggregation and the statistics, with the error that ended it. -/
def sumRunSteps (statOf : String → List Val → Except PyErr Cell) (lineType : String) (p : AggParams) (f : Frame) :
    IFrame × Option PyErr :=
  if truthy (parseBool p.eventEqual) then
    match p.equalize f with
    | .error e => (f.numbered, some e)
    | .ok g => sumSteps statOf (sumConfigOf lineType p) g.numbered
  else sumSteps statOf (sumConfigOf lineType p) f.numbered

/-- sum_stat.py:124-179 calculate_stats: the table written.  A KeyError in the equalization or later is logged, and the frame as
it is then is written.  `column_names` (139, 167-169) are those of the input. -/
def sumStatRun (statOf : String → List Val → Except PyErr Cell) (lineType : String) (p : AggParams) (f : Frame) :
    Except PyErr Frame :=
  match sumFields.lookup lineType with
  | none => (if "equalize" ∈ f.cols then dropColumn f "equalize" else .ok f)
  | some fields => do
    let f0 : Frame := ⟨f.cols.map (sumRename lineType), f.rows⟩
    let out ← match sumRunSteps statOf lineType p f0 with
      | (g, none) => .ok g
      | (g, some .keyError) => .ok g
      | (_, some e) => .error e
    let g ← fields.foldlM (fun g name => if name ∈ f0.cols then dropColumn g name else .ok g) out.frame
    if "equalize" ∈ g.cols then dropColumn g "equalize" else .ok g

end Metcalcpy
