/-
metcalcpy/agg_stat.py: bootstrapped series and derived curves (num_iterations > 1).
-/
import Verif.Model.AggPoints
import Verif.Model.Bootstrap
import Mathlib.Data.Prod.Lex
import Mathlib.Data.String.Basic

namespace Metcalcpy

/-- The order of `sort_values`: numbers by value, texts by their characters, missing cells last.  Simplification: a column
with both numbers and texts raises TypeError in pandas; here the numbers come first. -/
def valKey : Val → ℕ ×ₗ ℚ ×ₗ String
  | .num q _ => toLex (0, toLex (q, ""))
  | .str s => toLex (1, toLex (0, s))
  | .null => toLex (2, toLex (0, ""))

/-- utils.py:1339-1347: the time column used for sorting. -/
def sortTime (cols : List String) : String :=
  if "fcst_valid_beg" ∈ cols then "fcst_valid_beg"
  else if "fcst_valid" ∈ cols then "fcst_valid"
  else if "fcst_init_beg" ∈ cols then "fcst_init_beg"
  else "fcst_init"

/-- The sort key of a row: time, lead and, if there is such a column, the statistic. -/
def sortKey (i j : ℕ) (k : Option ℕ) (r : List Val) : (ℕ ×ₗ ℚ ×ₗ String) ×ₗ (ℕ ×ₗ ℚ ×ₗ String) ×ₗ (ℕ ×ₗ ℚ ×ₗ String) :=
  toLex (valKey (cellAt r i), toLex (valKey (cellAt r j), valKey (match k with | some k => cellAt r k | none => .null)))

/-- utils.py:1333-1351 sort_data (stable, as pandas sorts by several columns); KeyError for a missing column. -/
def sortData (f : Frame) (rows : List (List Val)) : Except PyErr (List (List Val)) := do
  let i ← f.col (sortTime f.cols)
  let j ← f.col "fcst_lead"
  .ok (rows.insertionSort (fun a b => sortKey i j (f.idx? "stat_name") a ≤ sortKey i j (f.idx? "stat_name") b))

/-- What the bootstrap reads from the parameters: `alpha`, `method`, `circular_block_bootstrap`. -/
structure BootSettings where
  alpha : ℚ
  method : CiMethod
  cbb : Bool
  deriving DecidableEq, Repr

/-- agg_stat.py:739-740, 815-816: `int(math.sqrt(len(data)))` or 1. -/
def blockLength (s : BootSettings) (n : ℕ) : ℕ := if s.cbb then Nat.sqrt n else 1

/-- A replicate as an entry of the distribution.  Simplification: NaN counts as missing. -/
def PyNum.cell : PyNum → Cell
  | .num q => some q
  | _ => Option.none

/-- agg_stat.py:754-756, 828-830: a KeyError during the bootstrap gives an empty result. -/
def catchKeyError (r : Except PyErr BootResult) : Except PyErr BootResult :=
  match r with
  | .error .keyError => .ok ⟨none, none, none⟩
  | r => r

/-- agg_stat.py:773-831 _get_bootstrapped_stats (num_iterations > 1) of a non-empty series, from the index matrix `ids`
drawn at random.  `statOf s rows` is the statistic `s` of the prepared rows.  `alpha` is not passed on; the default of
bootstrap_and_value (bootstrap.py:102) is 0.05.  Simplification: one thread and one batch (see `bootstrapDistribution`).
-/
def seriesBoot (statOf : String → List (List Val) → Except PyErr PyNum) (s : BootSettings) (f : Frame) (stat : String)
    (rows : List (List Val)) (ids : List (List ℕ)) : Except PyErr BootResult := do
  let data ← sortData f rows
  catchKeyError (do
    let v ← statOf stat data
    let sims ← generateDistributions data (blockLength s data.length) ids
    let dist ← sims.mapM (statOf stat)
    confidenceInterval (dist.map PyNum.cell) v.cell (1 / 20) s.method)

/-- agg_stat.py:728-731: the rows of both series side by side and the operation; numpy cannot concatenate arrays of
different lengths (ValueError). -/
def joinSeries (op : String) (rows₁ rows₂ : List (List Val)) : Except PyErr (List (List Val)) :=
  if rows₁.length = rows₂.length then .ok (List.zipWith (fun a b => a ++ b ++ [.str op]) rows₁ rows₂)
  else .error .valueError

/-- agg_stat.py:299-301, 348-350: both halves of a joined row. -/
def firstHalf (r : List Val) : List Val := r.take ((r.length - 1) / 2)
def secondHalf (r : List Val) : List Val := (r.take (r.length - 1)).drop ((r.length - 1) / 2)

/-- agg_stat.py:303-308: the statistic named in the first row. -/
def rowStat (f : Frame) (rows : List (List Val)) : Except PyErr String :=
  match f.idx? "stat_name", rows with
  | some k, r :: _ => match cellAt r k with
    | .str s => .ok (lower s)
    | _ => .error .attributeError
  | _, _ => .error .indexError

/-- agg_stat.py:283-406 _calc_stats_derived, one resample (or the data itself). -/
def calcStatsDerived (statOf : String → List (List Val) → Except PyErr PyNum) (etb : List PyNum → List PyNum → PyNum)
    (f : Frame) (rows : List (List Val)) : Except PyErr PyNum := do
  let v₁ := rows.map firstHalf
  let v₂ := rows.map secondHalf
  let s₁ ← rowStat f v₁
  let s₂ ← rowStat f v₂
  let a ← statOf s₁ v₁
  let b ← statOf s₂ v₂
  match rows with
  | [] => .error .indexError
  | r :: _ => .ok (match calcDerivedCurveValue etb (some [a]) (some [b]) (match r.getLast? with
      | some (.str op) => op
      | _ => "") with
    | some (.inl (x :: _)) => x
    | some (.inr x) => x
    | _ => .none)

/-- agg_stat.py:726-756 (num_iterations > 1): a derived curve from the rows of both series, from the index matrix `ids`.
The rows of each series were sorted when it was computed (agg_stat.py:794). -/
def derivedBoot (statOf : String → List (List Val) → Except PyErr PyNum) (etb : List PyNum → List PyNum → PyNum)
    (s : BootSettings) (f : Frame) (op : String) (rows₁ rows₂ : List (List Val)) (ids : List (List ℕ)) :
    Except PyErr BootResult := do
  let data₁ ← sortData f rows₁
  let data₂ ← sortData f rows₂
  let both ← joinSeries op data₁ data₂
  catchKeyError (do
    let v ← calcStatsDerived statOf etb f both
    let sims ← generateDistributions both (blockLength s both.length) ids
    let dist ← sims.mapM (calcStatsDerived statOf etb f)
    confidenceInterval (dist.map PyNum.cell) v.cell s.alpha s.method)

end Metcalcpy
