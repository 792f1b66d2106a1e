/-
metcalcpy/agg_stat.py: preparation of MCTC lines and the statistic computed from them
-/
import Verif.Model.Mcts

namespace Metcalcpy

/-- The comparison `column == column[0]` of pandas: a missing cell is equal to nothing, itself included. -/
def ecEq (a b : Cell) : Bool :=
  match a, b with
  | some x, some y => x == y
  | _, _ => false

/-- metcalcpy/agg_stat.py:564-573 _prepare_mctc_data (583-585 and 596-598 are the same test for CTC and
CTS lines): the rows have just been renumbered from 0 (794), so label 0 is the first row; without rows the
caller returns earlier (783-786), here a KeyError. -/
def ecCheck (t : Table) : Except PyErr Unit :=
  match columnData t "ec_value" with
  | none => .ok ()
  | some [] => .error .keyError
  | some (c :: cs) => if (c :: cs).all (fun x => ecEq x c) then .ok () else .error .valueError

/-- metcalcpy/agg_stat.py:796-807 for line type mctc without bootstrapping: check, then the statistic. -/
def mctcAggregate (t : Table) : Except PyErr (Option ℚ) := do
  ecCheck t
  mctsHssEc t

end Metcalcpy
