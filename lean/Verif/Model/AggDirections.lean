/-
metcalcpy/agg_stat.py: the value of a point of an aggregation run for the wind directions of VCNT lines, from the rows of
the point to the number in the table (sorting, preparation, choice of the statistic).
-/
import Verif.Model.AggRoots
import Verif.Model.WindDirection

namespace Metcalcpy

/-- The functions `calculate_<statistic>` of metcalcpy/util/vcnt_statistics.py for directions (229-278, 363-390 and
446-513), called with `aggregation = True` (agg_stat.py:249-261). -/
noncomputable def directionFunctions : List (String × (Table → Option ℝ)) :=
  [("vcnt_fdir", fun t => vcntDir "ufbar" "vfbar" t true), ("vcnt_odir", fun t => vcntDir "uobar" "vobar" t true),
   ("vcnt_vdiff_dir", fun t => vcntVdiffDir t true), ("vcnt_dir_err", fun t => vcntDirErr t true),
   ("vcnt_dir_abser", fun t => vcntDirAbser t true)]

/-- agg_stat.py:797-803 and 249-253: prepare sorted rows (`_prepare_vcnt_data`, 466-475) and call the function of the
statistic (KeyError if there is none). -/
noncomputable def directionPrepared (f : Frame) (stat : String) (data : List (List Val)) : Except PyErr PyNum := do
  let t ← prepareFields (numericTable f.cols data) (fieldsOf stat)
  match directionFunctions.lookup stat with
  | none => .error .keyError
  | some calculate => .ok (realNum (calculate t))

/-- agg_stat.py:773-811 _get_bootstrapped_stats (num_iterations = 1) of the non-empty rows of a point: sort, prepare,
and call the function of the statistic. -/
noncomputable def directionStat (f : Frame) (stat : String) (rows : List (List Val)) : Except PyErr PyNum := do
  let data ← sortData f rows
  directionPrepared f stat data

end Metcalcpy
