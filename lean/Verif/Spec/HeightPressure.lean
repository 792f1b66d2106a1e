/-
The hypsometric equation for layers of constant virtual temperature.
-/
import Mathlib.Analysis.SpecialFunctions.Log.Basic
import Mathlib.Algebra.BigOperators.Intervals

namespace Metcalcpy.Spec

/-- Height of level `k` when level `f` is the first one above the surface: surface height, the layer from the surface to level
`f`, and the layers between the levels `f`, ..., `k`; a layer from pressure `a` to `b` has thickness `K T log (a / b)`. -/
noncomputable def hypsometric (K hs ps : ℝ) (p tv : ℕ → ℝ) (f k : ℕ) : ℝ :=
  hs + K * tv f * Real.log (ps / p f) + ∑ j ∈ Finset.Ioc f k, K * tv j * Real.log (p (j - 1) / p j)

end Metcalcpy.Spec
