/-
metcalcpy/util/mcts_statistics.py
-/
import Verif.Model.Pstd

namespace Metcalcpy

/-- A cell used as a number: arithmetic on `None` raises TypeError. -/
def needNumber : Cell → Except PyErr ℚ
  | some x => .ok x
  | none => .error .typeError

/-- A cell used as an integer (`range`, list index): anything else raises TypeError.  Simplification: a whole
number stored as a float (3.0), which Python refuses as well, is accepted. -/
def needInt (c : Cell) : Except PyErr ℤ :=
  match c with
  | some x => if x.den = 1 then .ok x.num else .error .typeError
  | none => .error .typeError

/-- Python list index: negative indices count from the end. -/
def pyIndex (n : ℕ) (i : ℤ) : Except PyErr ℕ :=
  if 0 ≤ i ∧ i < n then .ok i.toNat
  else if i < 0 ∧ -(n : ℤ) ≤ i then .ok (n + i).toNat
  else .error .indexError

/-- mcts_statistics.py:54-58, one pass of the filling loop. -/
def fillCell (t : Table) (n : ℕ) (sums : List Cell) (tbl : List (List Cell)) (k : ℕ) :
    Except PyErr (List (List Cell)) := do
  let iv ← firstCell t ("i_value_" ++ toString k)
  let jv ← firstCell t ("j_value_" ++ toString k)
  let i ← needInt iv
  let j ← needInt jv
  let i' ← pyIndex n (i - 1)
  let j' ← pyIndex n (j - 1)
  .ok (tbl.set i' ((tbl.getD i' []).set j' (sums.getD k none)))

def sumCells (l : List Cell) : Except PyErr ℚ := do
  let xs ← needNumbers l
  .ok xs.sum

/-- mcts_statistics.py:43-46: column sum of `fi_oj_k`; a missing column raises IndexError. -/
def fiojSum (t : Table) (k : ℕ) : Except PyErr Cell := do
  let _ ← firstCell t ("fi_oj_" ++ toString k)
  .ok (sumColumn t ("fi_oj_" ++ toString k))

/-- metcalcpy/util/mcts_statistics.py:20-66 calculate_mcts_hss_ec.  Simplification: cells of the table that
Python would store as `None` make the sums a TypeError. -/
def mctsHssEc (t : Table) : Except PyErr (Option ℚ) := pstdTry do
  let nc ← firstCell t "n_cat"
  let ecc ← firstCell t "ec_value"
  let nz ← needInt nc
  let n := nz.toNat
  let sums ← (List.range (n * n)).mapM (fiojSum t)
  let tbl ← (List.range (n * n)).foldlM (fillCell t n sums) (List.replicate n (List.replicate n (some 0)))
  let diag ← sumCells ((List.range n).flatMap (fun i => (List.range n).filterMap (fun j =>
    if i = j then some ((tbl.getD i []).getD j none) else none)))
  let sumAll ← sumCells tbl.flatten
  let ec ← needNumber ecc
  if sumAll - ec * sumAll = 0 then .error .zeroDivisionError
  else .ok (some (roundHalfUp ((diag - ec * sumAll) / (sumAll - ec * sumAll)) PRECISION))

end Metcalcpy
