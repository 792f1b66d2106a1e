/-
Specification vocabulary for weather regimes.
-/
import Verif.Model.Base
import Mathlib.Data.Real.Basic
import Mathlib.Algebra.BigOperators.Group.Finset.Basic

namespace Metcalcpy.Spec

/-- `order` lists the positions of `vs` by increasing value (equal values in any order). -/
def IsArgsort (vs : List ℚ) (order : List ℕ) : Prop :=
  order.Perm (List.range vs.length) ∧ order.Pairwise fun i j => vs.getD i 0 ≤ vs.getD j 0

/-- The fraction of the days with label `w`. -/
def fractionOf (labels : List ℕ) (w : ℕ) : ℚ := ((labels.filter fun x => x = w).length : ℚ) / labels.length

/-- The trend of a series: the slope of the least-squares line times the sum of squared deviations of the time. -/
def trend (xs : List ℚ) : ℚ :=
  ∑ t ∈ Finset.range xs.length, ((t : ℚ) - ((xs.length : ℚ) - 1) / 2) * xs.getD t 0

/-- How far point `i` of a curve lies below the chord from the first to the last point. -/
noncomputable def belowChord (ys : List ℝ) (i : ℕ) : ℝ :=
  ys.getD 0 0 + (ys.getD (ys.length - 1) 0 - ys.getD 0 0) * (i / (ys.length - 1)) - ys.getD i 0

end Metcalcpy.Spec
