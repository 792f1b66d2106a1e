/-
Correlation of a pool of matched pairs.
-/
import Verif.Spec.Pairs
import Mathlib.Analysis.Real.Sqrt

namespace Metcalcpy.Spec

/-- Pearson correlation of a pool of pairs: covariance over the product of the standard deviations. -/
noncomputable def pearson (ps : List Pair) : ℝ :=
  (covariance ps : ℝ) / (Real.sqrt (variance Prod.fst ps : ℝ) * Real.sqrt (variance Prod.snd ps : ℝ))

end Metcalcpy.Spec
