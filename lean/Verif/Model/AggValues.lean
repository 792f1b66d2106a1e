/-
metcalcpy/agg_stat.py: the value of a point of an aggregation run on SL1L2 and on CTC lines, from the rows of the point
to the number in the table (sorting, preparation, choice of the statistic).
-/
import Verif.Model.AggRun
import Verif.Model.AggBoot
import Verif.Model.Prepare
import Verif.Model.Sl1l2
import Verif.Model.Ctc
import Verif.Model.MctcAgg

namespace Metcalcpy

/-- A cell as a number for the statistics.  Simplification: a text is read as a missing number; the statistics only use
columns of numbers. -/
def numberOf : Val → Cell
  | .num q _ => some q
  | _ => none

/-- agg_stat.py:803 `series_data.to_numpy()` with the column names. -/
def numericTable (cols : List String) (rows : List (List Val)) : Table :=
  ⟨cols, rows.map (fun r => r.map numberOf)⟩

/-- The line types covered here. -/
inductive LineType where
  | sl1l2
  | ctc
  deriving DecidableEq, Repr

/-- agg_stat.py:797-800: `_prepare_sl1l2_data` (405-415) or `_prepare_ctc_data` (575-585). -/
def prepareLine (l : LineType) (stat : String) (t : Table) : Except PyErr Table :=
  match l with
  | .sl1l2 => prepareFields t (fieldsOf stat)
  | .ctc => do
    ecCheck t
    .ok t

/-- The functions `calculate_<statistic>` with a rational value, called with `aggregation = True`
(agg_stat.py:249-261): metcalcpy/util/sl1l2_statistics.py and metcalcpy/util/ctc_statistics.py.  Left out: the
statistics with square roots and logarithms. -/
def calculateFunctions : List (String × (Table → Except PyErr (Option ℚ))) :=
  [("fbar", fun t => .ok (slMean "fbar" t true)), ("obar", fun t => .ok (slMean "obar" t true)),
   ("fobar", fun t => .ok (slMean "fobar" t true)), ("ffbar", fun t => .ok (slMean "ffbar" t true)),
   ("oobar", fun t => .ok (slMean "oobar" t true)), ("mbias", fun t => .ok (slMbias t true)),
   ("fe", fun t => .ok (slFe t true)), ("me", fun t => .ok (slMe t true)), ("me2", fun t => .ok (slMe2 t true)),
   ("mse", fun t => .ok (slMse t true)), ("bcmse", fun t => .ok (slBcmse t true)),
   ("baser", ctcBaser), ("acc", fun t => .ok (ctcAcc t)), ("fbias", fun t => .ok (ctcFbias t)),
   ("fmean", fun t => .ok (ctcFmean t)), ("pody", fun t => .ok (ctcPody t)), ("pofd", fun t => .ok (ctcPofd t)),
   ("podn", fun t => .ok (ctcPodn t)), ("far", fun t => .ok (ctcFar t)), ("csi", fun t => .ok (ctcCsi t)),
   ("gss", fun t => .ok (ctcGss t)), ("hk", fun t => .ok (ctcHk t)), ("hss", fun t => .ok (ctcHss t)),
   ("odds", fun t => .ok (ctcOdds t)), ("odds1", fun t => .ok (ctcOdds1 t)), ("orss", fun t => .ok (ctcOrss t))]

/-- `None` and numbers. -/
def toPyNum : Option ℚ → PyNum
  | none => .none
  | some q => .num q

/-- agg_stat.py:773-811 _get_bootstrapped_stats (num_iterations = 1) of the non-empty rows of a point: sort, prepare,
and call the function of the statistic (KeyError if there is none, 249-253). -/
def lineStat (l : LineType) (f : Frame) (stat : String) (rows : List (List Val)) : Except PyErr PyNum := do
  let data ← sortData f rows
  let t ← prepareLine l stat (numericTable f.cols data)
  match calculateFunctions.lookup stat with
  | none => .error .keyError
  | some calculate => (calculate t).map toPyNum

end Metcalcpy
