/-
metcalcpy/util/utils.py:247-259  round_half_up, and line 46 PRECISION.
-/
import Mathlib.Algebra.Order.Floor.Ring
import Mathlib.Data.Rat.Floor
import Mathlib.Algebra.Order.Field.Basic

namespace Metcalcpy

/-- metcalcpy/util/utils.py:258-259
`multiplier = 10 ** decimals; return math.floor(num * multiplier + 0.5) / multiplier`.
Generic in the number field (used with `ℚ` and `ℝ`).  Simplification: exact arithmetic; NaN and
infinity (ValueError / OverflowError in `math.floor`) are not numbers of the model. -/
def roundHalfUp {K : Type*} [Field K] [LinearOrder K] [FloorRing K] (num : K) (decimals : ℤ) : K :=
  (⌊num * (10 : K) ^ decimals + 1 / 2⌋ : ℤ) / (10 : K) ^ decimals

/-- metcalcpy/util/utils.py:46 `PRECISION = 7`. -/
def PRECISION : ℤ := 7

end Metcalcpy
