/-
Specification vocabulary for piecewise linear functions.
-/
import Verif.Model.Difficulty

namespace Metcalcpy.Spec

/-- Consecutive knots of the function. -/
def Segment (xs ys : List ℚ) (a b : ℚ × ℚ) : Prop :=
  ∃ i : ℕ, xs[i]? = some a.1 ∧ ys[i]? = some a.2 ∧ xs[i + 1]? = some b.1 ∧ ys[i + 1]? = some b.2

end Metcalcpy.Spec
