/-
metcalcpy/agg_stat_bootstrap.py: the output frame and the resampled values of the object (MODE) bootstrap.
-/
import Verif.Model.EventEqualize
import Verif.Model.Mode

namespace Metcalcpy

/-- `s.split(sep)` on character lists. -/
def splitAt1 (sep : Char) : List Char → List (List Char)
  | [] => [[]]
  | c :: cs =>
    match splitAt1 sep cs with
    | [] => [[c]]          -- unreachable
    | w :: ws => if c == sep then [] :: w :: ws else (c :: w) :: ws

/-- metcalcpy/agg_stat_bootstrap.py:175-181: the parts of a series value. -/
def filterParts (v : String) : List String :=
  if v.toList.contains ':' then (splitAt1 ':' v.toList).map String.ofList
  else if v.toList.contains ';' then (splitAt1 ';' v.toList).map String.ofList
  else [v]

/-- metcalcpy/agg_stat_bootstrap.py:182-189: `out_frame[field].isin(filter_list)` for one cell.  The cells of the
output frame are texts; parts that look like numbers have been converted and never equal a text. -/
def matchesOut (cell v : String) : Bool :=
  (filterParts v).any (fun p => !(isStringInteger p || isStringStrictlyFloat (some p)) && p == cell)

/-- metcalcpy/agg_stat_bootstrap.py:189-205: does an output row (series values, independent value, statistic) match
a point and an independent value?  The statistic is not compared. -/
def matchPoint : List String → String → List String → Bool
  | [], indy, [i, _] => i == indy
  | v :: vs, indy, c :: cs => matchesOut c v && matchPoint vs indy cs
  | _, _, _ => false

/-- metcalcpy/agg_stat_bootstrap.py:202-212: writes the result to the first matching row; without a matching row
`index[0]` is an IndexError. -/
def writeFirst {α : Type*} (p : List String → Bool) (x : α) :
    List (List String × Option α) → Except PyErr (List (List String × Option α))
  | [] => .error .indexError
  | (k, r) :: rest =>
    if p k then .ok ((k, some x) :: rest)
    else match writeFirst p x rest with
      | .ok rest' => .ok ((k, r) :: rest')
      | .error e => .error e

/-- One write per (independent value, statistic, point), in the order of the loops (lines 125, 166, 168). -/
def writes (vals : List (List String)) (indys stats : List String) : List (String × String × List String) :=
  indys.flatMap (fun i => stats.flatMap (fun s => (product vals).map (fun pt => (i, s, pt))))

/-- metcalcpy/agg_stat_bootstrap.py:107-219 _proceed_with_axis on a non-empty input.  `vals` are the values of the
series variables, `compute i s pt` is the result of the statistic `s` at the point.  Simplifications: the
independent variable is not a series variable; the result of a statistic is a function of statistic and point (in
the code it also depends on the random generator); only the value is stored, the bounds and the count are stored
in the same row. -/
def objectBootstrap {α : Type*} (vals : List (List String)) (indys stats : List String)
    (compute : String → String → List String → α) : Except PyErr (List (List String × Option α)) :=
  (writes vals indys stats).foldlM
    (fun rows w => writeFirst (matchPoint w.2.2 w.1) (compute w.1 w.2.1 w.2.2) rows)
    ((product (vals ++ [indys, stats])).map (fun k => (k, none)))

/-- metcalcpy/agg_stat_bootstrap.py:258-270 _calc_stats: the rows of the series whose case occurs in the resample
(`np.in1d`, `isin`). -/
def resampledRows (k : ℕ) (rows : List (List Val)) (cases : List String) : List (List Val) :=
  rows.filter (fun r => decide ((cellAt r k).text ∈ cases))

/-- metcalcpy/agg_stat_bootstrap.py:244-274 for one resample: a count statistic of the selected rows; the frame has
the column 'case' (line 290). -/
def resampleStat (s : ModeStat) (f : Frame) (cases : List String) : Except PyErr (Option ℚ) := do
  let k ← f.col "case"
  modeCount s { f with rows := resampledRows k f.rows cases }

end Metcalcpy
