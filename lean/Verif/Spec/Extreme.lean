/-
Textbook definitions of the extreme dependency scores (MET user's guide, appendix C) and of the bias-adjusted Gilbert
skill score (Mesinger 2008), as functions of the pooled counts  a = hits, b = false alarms, c = misses, n = total, the
hit rate h and the false alarm rate f.
-/
import Mathlib.Analysis.SpecialFunctions.Log.Basic

namespace Metcalcpy.Spec
open Real

noncomputable def edsValue (a c n : ℝ) : ℝ := 2 * log ((a + c) / n) / log (a / n) - 1
noncomputable def sedsValue (a b c n : ℝ) : ℝ := log ((a + b) / n * ((a + c) / n)) / log (a / n) - 1
noncomputable def ediValue (f h : ℝ) : ℝ := (log f - log h) / (log f + log h)
noncomputable def sediValue (f h : ℝ) : ℝ :=
  (log f - log h - log (1 - f) + log (1 - h)) / (log f + log h + log (1 - f) + log (1 - h))

/-- The Gilbert skill score of `a` hits when `x` areas were forecast and `o` observed out of `n`. -/
noncomputable def gilbert (a x o n : ℝ) : ℝ := (a - x * o / n) / (x + o - a - x * o / n)

end Metcalcpy.Spec
