/-
metcalcpy/agg_stat.py: the value of a point of an aggregation run on PCT, MCTC and NBR_CTC lines, from the rows of the point
to the number in the table, and the thresholds of a reliability curve.
-/
import Verif.Model.AggValues
import Verif.Model.NbrCtc

namespace Metcalcpy

/-- The line types covered here (`line_type` pct, mctc, nbr_ctc). -/
inductive CountLine where
  | pct
  | mctc
  | nbrCtc
  deriving DecidableEq, Repr

/-- agg_stat.py:797-800: `_prepare_pct_data` (556-562) and `_prepare_nbr_ctc_data` (600-606) do nothing,
`_prepare_mctc_data` (564-573) compares the values of ec_value. -/
def prepareCounts (l : CountLine) (t : Table) : Except PyErr Table :=
  match l with
  | .mctc => do
    ecCheck t
    .ok t
  | _ => .ok t

/-- The functions `calculate_<statistic>` (agg_stat.py:249-261) of metcalcpy/util/pstd_statistics.py,
mcts_statistics.py and nbrctc_statistics.py.  Left out: pct_total. -/
def countFunctions : List (String × (Table → Except PyErr (Option ℚ))) :=
  [("pstd_brier", pstdBrier), ("pstd_bss_smpl", pstdBssSmpl), ("pstd_baser", pstdBaser),
   ("pstd_reliability", pstdReliability), ("pstd_resolution", pstdResolution), ("pstd_uncertainty", pstdUncertainty),
   ("pstd_calibration", fun t => .ok (pstdCalibration t)), ("pstd_ni", fun t => .ok (pstdNi t)),
   ("pstd_roc_auc", fun t => (pstdRocAuc t).map some), ("mcts_hss_ec", mctsHssEc)] ++
  ["nbr_baser", "nbr_acc", "nbr_fbias", "nbr_fmean", "nbr_pody", "nbr_pofd", "nbr_podn", "nbr_far", "nbr_csi", "nbr_gss",
   "nbr_hk", "nbr_hss", "nbr_odds", "nbr_ctc_total"].map (fun s => (s, nbrCtc s))

/-- agg_stat.py:797-803 and 249-253: prepare sorted rows and call the function of the statistic (KeyError if there is
none).  Simplification: the columns T, oy_total and o_bar that agg_stat.py:1057-1079 adds to PCT lines are left out; no
statistic reads the first two, and those that read o_bar fail whatever it is. -/
def tallyPrepared (l : CountLine) (f : Frame) (stat : String) (data : List (List Val)) : Except PyErr PyNum := do
  let t ← prepareCounts l (numericTable f.cols data)
  match countFunctions.lookup stat with
  | none => .error .keyError
  | some calculate => (calculate t).map toPyNum

/-- agg_stat.py:773-811 _get_bootstrapped_stats (num_iterations = 1) of the non-empty rows of a point: sort, prepare,
and call the function of the statistic. -/
def tallyStat (l : CountLine) (f : Frame) (stat : String) (rows : List (List Val)) : Except PyErr PyNum := do
  let data ← sortData f rows
  tallyPrepared l f stat data

/-- agg_stat.py:981-985: the numbers of the column thresh_i with their texts, sorted, each once.  Simplification: cells
that are not numbers are left out. -/
def thresholdTexts (g : Frame) (i : ℕ) : List String :=
  (((g.rows.filterMap (fun r => match cellAt r i with
    | .num q s => some (q, s)
    | _ => none)).dedup).insertionSort (fun a b => a.1 ≤ b.1)).map Prod.snd

/-- agg_stat.py:979-985: on PCT lines the independent values thresh_i are taken from the data. -/
def pctIndyVals (g : Frame) (p : AggParams) : Except PyErr (List String) :=
  if p.indyVar = "thresh_i" then do
    let i ← g.col "thresh_i"
    .ok (thresholdTexts g i)
  else .ok p.indyVals

/-- agg_stat.py:972-1110 _proceed_with_axis of PCT lines: like `aggAxis`, with the thresholds of the data. -/
def pctAxis (statOf : String → List (List Val) → Except PyErr PyNum) (etb : List PyNum → List PyNum → PyNum)
    (g : Frame) (p : AggParams) (a : AxisParams) : Except PyErr (List AggOut) :=
  if g.isEmpty then .ok []
  else do
    let vals ← pctIndyVals g p
    aggAxis statOf etb g (({ p with indyVals := vals } : AggParams).config a)

/-- agg_stat.py:1114-1164 calculate_stats_and_ci of PCT lines (see `aggRun`). -/
def pctRun (statOf : String → List (List Val) → Except PyErr PyNum) (etb : List PyNum → List PyNum → PyNum)
    (f : Frame) (p : AggParams) : Except PyErr (List AggOut) := do
  let g ← if truthy (parseBool p.eventEqual) then p.equalize f else .ok f
  let o₁ ← pctAxis statOf etb g p p.axis₁
  if p.axis₂.series.isEmpty then .ok o₁
  else do
    let o₂ ← pctAxis statOf etb g p p.axis₂
    .ok (o₁ ++ o₂)

end Metcalcpy
