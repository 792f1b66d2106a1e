/-
What the table of correlations promises.
-/
import Verif.Spec.RobustCorr
import Mathlib.Data.Int.Basic
import Mathlib.Algebra.Group.Even

namespace Metcalcpy.Spec

/-- `y` is `x` rounded to `d` decimals, ties to the even neighbour. -/
def IsRounded (x : ℝ) (d : ℕ) (y : ℝ) : Prop :=
  ∃ k : ℤ, y = k / 10 ^ d ∧ (|x * 10 ^ d - k| < 1 / 2 ∨ |x * 10 ^ d - k| = 1 / 2 ∧ Even k)

/-- The cases in which both values are present. -/
def completePairs (x y : List (Option ℚ)) : List (ℚ × ℚ) :=
  (x.zip y).filterMap (fun p => match p.1, p.2 with
    | some a, some b => some (a, b)
    | _, _ => none)

/-- What is used about the standard normal distribution function. -/
structure IsNormalLike (phi : ℝ → ℝ) : Prop where
  nonneg : ∀ x, 0 ≤ phi x
  mono : ∀ x y, x ≤ y → phi x ≤ phi y
  symm : ∀ x, phi (-x) = 1 - phi x

end Metcalcpy.Spec
