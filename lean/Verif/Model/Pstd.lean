/-
metcalcpy/util/pstd_statistics.py
-/
import Verif.Model.Table
import Verif.Model.Round
import Mathlib.Data.List.Sort
import Mathlib.Data.List.Infix

namespace Metcalcpy

/-- One row of the data frame built by `_calc_common_stats`: probability threshold, number of events and
of non-events. -/
structure Bin where
  thresh : ℚ
  oy : ℚ
  on : ℚ
  deriving DecidableEq, Repr

def Bin.n (b : Bin) : ℚ := b.oy + b.on

/-- Python's `s in t` for strings. -/
def strIn (s t : String) : Bool := decide (s.toList <:+: t.toList)

/-- The column names collected by the loop of `_calc_common_stats` (pstd_statistics.py:345-354). -/
def oyNames (cols : List String) : List String := cols.filter (fun c => strIn "oy_i" c)
def onNames (cols : List String) : List String := cols.filter (fun c => !strIn "oy_i" c && strIn "on_i" c)
def threshNames (cols : List String) : List String :=
  cols.filter (fun c => !strIn "oy_i" c && !strIn "on_i" c && strIn "thresh_i" c)

/-- `input_data[0, index]`: the value in the first row. -/
def firstCell (t : Table) (name : String) : Except PyErr Cell :=
  match t.rows, t.colIdx? name with
  | r :: _, some i => match r[i]? with
    | some c => .ok c
    | none => .error .indexError
  | _, _ => .error .indexError

/-- Values of a column that must be numbers. -/
def needNumbers (l : List Cell) : Except PyErr (List ℚ) :=
  if l.any Option.isNone then .error .typeError else .ok (l.filterMap id)

/-- pstd_statistics.py:357-362: zip the columns to rows and keep those with `n_i != 0`. -/
def mkBins (th oy on : List ℚ) : List Bin :=
  ((th.zip (oy.zip on)).map (fun p => ⟨p.1, p.2.1, p.2.2⟩)).filter (fun b => b.n ≠ 0)

/-- metcalcpy/util/pstd_statistics.py:329-369 _calc_common_stats.  Simplification: a missing threshold or
column sum is a TypeError (pandas would carry a NaN along). -/
def commonStats (t : Table) : Except PyErr (List Bin) := do
  let thc ← (threshNames t.cols).mapM (firstCell t)
  let oyc := (oyNames t.cols).map (fun c => sumColumn t c)
  let onc := (onNames t.cols).map (fun c => sumColumn t c)
  if thc.length ≠ oyc.length ∨ thc.length ≠ onc.length then .error .valueError
  else
    let th ← needNumbers thc
    let oy ← needNumbers oyc
    let on ← needNumbers onc
    .ok (mkBins th oy on)

/-- `sum(data[mask]['oy_i'])` and the like. -/
def maskSum (bs : List Bin) (p : Bin → Bool) (f : Bin → ℚ) : ℚ := ((bs.filter p).map f).sum

/-- metcalcpy/util/pstd_statistics.py:393 `np.unique(np.sort(thresh_i))`. -/
def rocThresholds (bs : List Bin) : List ℚ := ((bs.map Bin.thresh).dedup).insertionSort (· ≤ ·)

/-- Division of two NumPy numbers outside of any `try`: 0/0 is a RuntimeWarning, an exception under
`filterwarnings('error')`. -/
def npDiv (a b : ℚ) : Except PyErr ℚ := if b = 0 then .error .zeroDivisionError else .ok (a / b)

/-- metcalcpy/util/pstd_statistics.py:399-414, one row of the ROC table: (pody, pofd). -/
def rocPoint (bs : List Bin) (thresh : ℚ) : Except PyErr (ℚ × ℚ) := do
  let n11 := maskSum bs (fun b => decide (b.thresh > thresh)) Bin.oy
  let n10 := maskSum bs (fun b => decide (b.thresh > thresh)) Bin.on
  let n01 := maskSum bs (fun b => decide (b.thresh ≤ thresh)) Bin.oy
  let n00 := maskSum bs (fun b => decide (b.thresh ≤ thresh)) Bin.on
  let pody ← npDiv n11 (n11 + n01)
  let pofd ← npDiv n10 (n10 + n00)
  .ok (pody, pofd)

/-- metcalcpy/util/pstd_statistics.py:279-283: trapezoids between neighbouring rows. -/
def trapezoids : List (ℚ × ℚ) → ℚ
  | [] => 0
  | [_] => 0
  | p :: q :: rest => 1 / 2 * (p.1 + q.1) * (p.2 - q.2) + trapezoids (q :: rest)

/-- metcalcpy/util/pstd_statistics.py:253-287 calculate_pstd_roc_auc (no exception handling). -/
def pstdRocAuc (t : Table) : Except PyErr ℚ := do
  let bs ← commonStats t
  let roc ← (rocThresholds bs).mapM (rocPoint bs)
  .ok (roundHalfUp (trapezoids ((1, 1) :: roc ++ [(0, 0)])) PRECISION)

/-- metcalcpy/util/pstd_statistics.py:290-296 calc_uncertainty. -/
def calcUncertainty (oBar : ℚ) : ℚ := oBar * (1 - oBar)

/-- metcalcpy/util/pstd_statistics.py:298-310 calc_resolution (before the division by `t_table`). -/
def resolutionSum (bs : List Bin) (oBar : ℚ) : ℚ :=
  (bs.map (fun b => b.n * (b.oy / b.n - oBar) * (b.oy / b.n - oBar))).sum

/-- metcalcpy/util/pstd_statistics.py:313-326 calc_reliability (before the division by `t_table`). -/
def reliabilitySum (bs : List Bin) : ℚ :=
  (bs.map (fun b => b.n * (b.thresh - b.oy / b.n) * (b.thresh - b.oy / b.n))).sum

/-- `df_pct_perm['n_i'].sum()`. -/
def binsTotal (bs : List Bin) : ℚ := (bs.map Bin.n).sum

/-- `df_pct_perm['oy_i'].sum()`. -/
def binsEvents (bs : List Bin) : ℚ := (bs.map Bin.oy).sum

/-- calc_resolution, calc_reliability with the division. -/
def calcResolution (total : ℚ) (bs : List Bin) (oBar : ℚ) : Option ℚ := pyDiv (resolutionSum bs oBar) total
def calcReliability (total : ℚ) (bs : List Bin) : Option ℚ := pyDiv (reliabilitySum bs) total

/-- The handlers of the statistics: TypeError, ZeroDivisionError, warnings and ValueError become None,
anything else escapes. -/
def pstdTry (r : Except PyErr (Option ℚ)) : Except PyErr (Option ℚ) :=
  match r with
  | .ok v => .ok v
  | .error .typeError => .ok none
  | .error .valueError => .ok none
  | .error .zeroDivisionError => .ok none
  | .error e => .error e

/-- metcalcpy/util/pstd_statistics.py:101-125 calculate_pstd_baser. -/
def pstdBaser (t : Table) : Except PyErr (Option ℚ) := pstdTry do
  let bs ← commonStats t
  .ok ((pyDiv (binsEvents bs) (binsTotal bs)).map (roundHalfUp · PRECISION))

/-- metcalcpy/util/pstd_statistics.py:127-151 calculate_pstd_reliability. -/
def pstdReliability (t : Table) : Except PyErr (Option ℚ) := pstdTry do
  let bs ← commonStats t
  .ok ((calcReliability (binsTotal bs) bs).map (roundHalfUp · PRECISION))

/-- metcalcpy/util/pstd_statistics.py:181-206 calculate_pstd_uncertainty. -/
def pstdUncertainty (t : Table) : Except PyErr (Option ℚ) := pstdTry do
  let bs ← commonStats t
  .ok ((pyDiv (binsEvents bs) (binsTotal bs)).map (fun o => roundHalfUp (calcUncertainty o) PRECISION))

/-- `t_table.reset_index(inplace=True, drop=True)` on a NumPy scalar (pstd_statistics.py:45, 79, 170). -/
def resetIndexScalar : Except PyErr Unit := .error .attributeError

/-- `input_data[0, get_column_index_by_name(columns_names, 'o_bar')]` (pstd_statistics.py:43, 77, 168): the
index of an absent column is None, and indexing with None selects the whole row instead of raising an
error; the array so selected is not used before the statistic fails and is modelled as a missing value. -/
def oBarCell (t : Table) : Except PyErr Cell :=
  match t.rows, t.colIdx? "o_bar" with
  | [], _ => .error .indexError
  | _ :: _, none => .ok none
  | r :: _, some i => .ok (r[i]?.join)

/-- metcalcpy/util/pstd_statistics.py:24-59 calculate_pstd_brier. -/
def pstdBrier (t : Table) : Except PyErr (Option ℚ) := pstdTry do
  let bs ← commonStats t
  let total := binsTotal bs
  let oBarTable ← npDiv (binsEvents bs) total
  let _oBar ← oBarCell t
  resetIndexScalar
  .ok (do
    let o ← _oBar
    let rel ← calcReliability total bs
    let res ← calcResolution total bs o
    some (roundHalfUp (rel - res + calcUncertainty oBarTable) PRECISION))

/-- metcalcpy/util/pstd_statistics.py:62-98 calculate_pstd_bss_smpl. -/
def pstdBssSmpl (t : Table) : Except PyErr (Option ℚ) := pstdTry do
  let bs ← commonStats t
  let total := binsTotal bs
  let oBarTable ← npDiv (binsEvents bs) total
  let _oBar ← oBarCell t
  resetIndexScalar
  .ok (do
    let o ← _oBar
    let rel ← calcReliability total bs
    let res ← calcResolution total bs o
    let s ← pyDiv (res - rel) (calcUncertainty oBarTable)
    some (roundHalfUp s PRECISION))

/-- metcalcpy/util/pstd_statistics.py:154-178 calculate_pstd_resolution. -/
def pstdResolution (t : Table) : Except PyErr (Option ℚ) := pstdTry do
  let bs ← commonStats t
  let _oBar ← oBarCell t
  resetIndexScalar
  .ok (do
    let o ← _oBar
    let res ← calcResolution (binsTotal bs) bs o
    some (roundHalfUp res PRECISION))

/-- `sum(input_data[:, index])` of the column called `name` (pstd_statistics.py:216, 242-243): a missing cell makes the
sum NaN or raises TypeError, and the statistic is None either way.  The index of an absent column is None, which selects
the whole table: the sum is an array and cannot be rounded (TypeError; simplification: for a table with a single column,
too). -/
def cellsTotal (t : Table) (name : String) : Option ℚ :=
  match columnData t name with
  | none => none
  | some l => if l.any Option.isNone then none else some (l.filterMap id).sum

/-- metcalcpy/util/pstd_statistics.py:227-250 calculate_pstd_ni. -/
def pstdNi (t : Table) : Option ℚ := do
  let oy ← cellsTotal t "oy_i"
  let on ← cellsTotal t "on_i"
  some (roundHalfUp (oy + on) PRECISION)

/-- metcalcpy/util/pstd_statistics.py:201-224 calculate_pstd_calibration (simplification: a non-zero sum divided by
zero, which needs counts of both signs, is None and not an OverflowError). -/
def pstdCalibration (t : Table) : Option ℚ := do
  let oy ← cellsTotal t "oy_i"
  let n ← pstdNi t
  let q ← pyDiv oy n
  some (roundHalfUp q PRECISION)

end Metcalcpy
