/-
Runs of a sequence of yes/no values.
-/
import Mathlib.Data.List.Basic
import Mathlib.Data.Rat.Defs

namespace Metcalcpy.Spec

/-- Number of maximal blocks of equal neighbours: one more than the number of changes. -/
def blocks (l : List Bool) : ℕ :=
  if l = [] then 0 else 1 + (l.zip l.tail).countP (fun p => p.1 != p.2)

/-- The values that are present and differ from the threshold, as above (true) / below (false). -/
def aboveBelow (x : List (Option ℚ)) (t : ℚ) : List Bool :=
  ((x.filterMap id).filter (fun q => decide (q ≠ t))).map (fun q => decide (t < q))

end Metcalcpy.Spec
