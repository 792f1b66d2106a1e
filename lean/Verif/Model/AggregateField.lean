/-
metcalcpy/util/utils.py:458-564 aggregate_field_values (values such as "EAST;NMT" of the scorecard) and the
remaining branches of 567-669 calc_series_sums.
-/
import Verif.Model.SeriesSums
import Verif.Model.Ensemble
import Verif.Model.EqualizeAxis

namespace Metcalcpy

/-- `a / b` of two NumPy numbers.  A zero divisor gives NaN or infinity, modelled as a missing value
(simplification: while the warning filter is 'error' it raises instead). -/
def divCell : Cell → Cell → Cell
  | some a, some b => if b = 0 then none else some (a / b)
  | _, _ => none

/-- `a + b` of two NumPy numbers. -/
def plusCell : Cell → Cell → Cell
  | some a, some b => some (a + b)
  | _, _ => none

/-- utils.py:629-648, the NBRCNT branch of calc_series_sums. -/
def seriesSumsNbrcnt (t : Table) : Except PyErr Table := do
  let total := sumColumn t "total"
  let w ← getCol t "total"
  let fbs0 ← getCol t "fbs"
  let fbs ← divTotal (nansumProd fbs0 w) total                                              -- 630
  let den ← divTotal (nansumProd (skillDenominator fbs0 (← getCol t "fss")) w) total        -- 631-633
  let fss := (divCell fbs den).map (fun x => 1 - x)                                         -- 634
  let fRate ← divTotal (nansumProd (← getCol t "f_rate") w) total                           -- 635
  let oRate ← divTotal (nansumProd (← getCol t "o_rate") w) total                           -- 636
  let num := mulCell (mulCell (some 2) fRate) oRate                                         -- 637
  let aDen := plusCell (mulCell fRate fRate) (mulCell oRate oRate)                           -- 638
  let afss := divCell num aDen                                                              -- 639
  let ufss := oRate.map (fun o => 1 / 2 + o / 2)                                            -- 640
  return { cols := ["total", "fbs", "fss", "afss", "ufss", "f_rate", "o_rate"]
           rows := [[total, fbs, fss, afss, ufss, fRate, oRate]] }

/-- utils.py:650-661, the ECNT branch. -/
def seriesSumsEcnt (t : Table) : Except PyErr Table := do
  let total := sumColumn t "total"
  let rmse ← getCol t "rmse"
  let rmseOerr ← getCol t "rmse_oerr"
  let climo := skillDenominator (← getCol t "crps") (← getCol t "crpss")                    -- 653
  let w ← getCol t "total"
  let mse ← divTotal (nansumProd w (mulCols rmse rmse)) total                               -- 651, 655
  let mseOerr ← divTotal (nansumProd w (mulCols rmseOerr rmseOerr)) total                   -- 652, 656
  let crpsClimo ← divTotal (nansumProd w climo) total                                       -- 657
  let names := ["me", "crps", "ign", "spread", "me_oerr", "spread_oerr", "spread_plus_oerr"]
  let vals ← names.mapM (weightedField t total)                                             -- 658-661
  return { cols := "total" :: "mse" :: "mse_oerr" :: "crps_climo" :: names
           rows := [total :: mse :: mseOerr :: crpsClimo :: vals] }

/-- utils.py:662-669, the RPS branch. -/
def seriesSumsRps (t : Table) : Except PyErr Table := do
  let total := sumColumn t "total"
  let climo := skillDenominator (← getCol t "rps") (← getCol t "rpss")
  let rps ← weightedField t total "rps"
  let comp ← weightedField t total "rps_comp"
  let rpsClimo ← divTotal (nansumProd climo (← getCol t "total")) total
  return { cols := ["total", "rps", "rps_comp", "rps_climo"]
           rows := [[total, rps, comp, rpsClimo]] }

/-- utils.py:567-669 calc_series_sums, every line type; an unknown line type gives the total only. -/
def seriesSums (lineType : String) (t : Table) : Except PyErr Table :=
  match calcSeriesSums lineType t with
  | some r => r
  | none =>
    if lineType = "nbrcnt" then seriesSumsNbrcnt t
    else if lineType = "ecnt" then seriesSumsEcnt t
    else if lineType = "rps" then seriesSumsRps t
    else .ok { cols := ["total"], rows := [[sumColumn t "total"]] }

/-- `text.split(';')` on character lists. -/
def splitSemi : List Char → List (List Char)
  | [] => [[]]
  | c :: cs =>
    match splitSemi cs with
    | [] => [[c]]          -- unreachable: splitSemi never returns []
    | w :: ws => if c == ';' then [] :: w :: ws else (c :: w) :: ws

/-- `series_val.split(';')`. -/
def semiParts (s : String) : List String := (splitSemi s.toList).map String.ofList

/-- `';' in series_val`. -/
def hasSemi (s : String) : Bool := s.toList.contains ';'

/-- A frame whose rows carry their pandas index label. -/
structure IFrame where
  cols : List String
  rows : List (ℕ × List Val)
  deriving DecidableEq, Repr

/-- The frame without its index. -/
def IFrame.frame (f : IFrame) : Frame := { cols := f.cols, rows := f.rows.map Prod.snd }

/-- `series.unique()`: distinct values in order of first occurrence.
Simplification: equal numbers of a column have equal texts. -/
def uniqueVals (l : List Val) : List Val := l.reverse.dedup.reverse

/-- `==` of a cell with a value of the same column (a missing value equals nothing). -/
def eqCell (v w : Val) : Bool := v != .null && v == w

/-- The numbers of a row as NumPy sees them.  Simplification: cells with text count as missing (only the numeric
columns are read). -/
def rowCells (r : List Val) : List Cell :=
  r.map fun v => match v with
    | .num q _ => some q
    | _ => none

/-- A calculated number as a cell.  Simplification: the text of a calculated number is not modelled. -/
def numVal : Cell → Val
  | some q => .num q ""
  | none => .null

/-- The fields calc_series_sums returns for a group of rows, by name. -/
def groupSums (lineType : String) (cols : List String) (rows : List (List Val)) :
    Except PyErr (List (String × Val)) := do
  let s ← seriesSums lineType { cols := cols, rows := rows.map rowCells }
  return s.cols.zip ((s.rows.headD []).map numVal)

/-- utils.py:504-507: the first row of the group with the aggregated fields written into the columns that the
frame has.  Without any row, `.at[0, ..]` creates one that is missing everywhere else. -/
def recordSums (cols : List String) (agg : List (String × Val)) (group : List (List Val)) : List Val :=
  List.zipWith (fun c v => (agg.lookup c).getD v) cols (group.headD (cols.map fun _ => .null))

/-- utils.py:488-513 (and 529-561): one group.  Rows are removed by index label (500), so every row that has the
label of a selected row goes; the new row always gets label 0. -/
def aggregateStep (lineType : String) (cols : List String) (sel : List Val → Bool) (i : ℕ) (name : Val)
    (rows : List (ℕ × List Val)) : Except PyErr (List (ℕ × List Val)) := do
  let picked := rows.filter (fun r => sel r.2)
  let labels := picked.map Prod.fst
  let rest := rows.filter (fun r => !labels.contains r.1)
  let agg ← groupSums lineType cols (picked.map Prod.snd)
  return rest ++ [(0, (recordSums cols agg (picked.map Prod.snd)).set i name)]

/-- The position of a column; unknown columns raise. -/
def IFrame.col (f : IFrame) (name : String) : Except PyErr ℕ := f.frame.col name

/-- `int(text)`: a ValueError for a text that is not an integer. -/
def intOrError (s : String) : Except PyErr ℤ :=
  match pyInt? s with
  | some z => .ok z
  | none => .error .valueError

/-- `series.isin(integers)` for one cell. -/
def isinInts (v : Val) (ints : List ℤ) : Bool :=
  match v with
  | .num q _ => ints.any (fun z => q == (z : ℚ))
  | _ => false

/-- utils.py:482-561: one aggregated value of one series variable.  `valids` and `leads` are the distinct times of the
original frame (477-478). -/
def aggregateValue (lineType : String) (v l : ℕ) (valids leads : List Val) (var value : String) (f : IFrame) :
    Except PyErr IFrame := do
  if var ≠ "fcst_lead" then
    let i ← f.col var
    let rows ← (valids ×ˢ leads).foldlM (fun rows k =>
      aggregateStep lineType f.cols
        (fun r => eqCell (cellAt r v) k.1 && eqCell (cellAt r l) k.2 && isinTexts (cellAt r i) (semiParts value))
        i (.str value) rows) f.rows
    return { f with rows := rows }
  else
    let i ← f.col var
    let rows ← valids.foldlM (fun rows k => do
      let ints ← ((semiParts value).filter (· ≠ "")).mapM intOrError
      aggregateStep lineType f.cols
        (fun r => eqCell (cellAt r v) k && isinInts (cellAt r i) ints)
        i (.str ((semiParts value).headD "")) rows) f.rows
    return { f with rows := rows }

/-- utils.py:458-564 aggregate_field_values. -/
def aggregateFieldValues (lineType : String) (series : List (String × List String)) (f : IFrame) :
    Except PyErr IFrame := do
  let v ← match f.frame.idx? "fcst_valid_beg" with
    | some v => .ok v
    | none => .error .attributeError
  let l ← match f.frame.idx? "fcst_lead" with
    | some l => .ok l
    | none => .error .attributeError
  let valids := uniqueVals (f.rows.map fun r => cellAt r.2 v)
  let leads := uniqueVals (f.rows.map fun r => cellAt r.2 l)
  series.foldlM (fun f p => p.2.foldlM (fun f value =>
    if hasSemi value then aggregateValue lineType v l valids leads p.1 value f else .ok f) f) f

end Metcalcpy
