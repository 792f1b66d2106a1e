/-
The scores the CTC properties range over.
-/
import Verif.Model.CtcLog

namespace Metcalcpy.Spec
open Metcalcpy

/-- All rational CTC scores of the code. -/
def ctcScores : List (Table → Option ℚ) :=
  [ctcAcc, ctcFbias, ctcFmean, ctcPody, ctcPofd, ctcPodn, ctcFar, ctcCsi, ctcGss, ctcHk, ctcHss,
   ctcOdds, podYes, podNo, ctcOdds1, ctcOrss]

/-- All CTC scores of the code that use logarithms (for any reading of the Lambert W function). -/
noncomputable def ctcLogScores (W : ℝ → ℝ) : List (Table → Option ℝ) :=
  [ctcLodds, ctcBagss W, ctcSedi, ctcSeds, ctcEdi, ctcEds]

/-- All CTC count outputs (which raise when the sum is missing). -/
def ctcCounts : List (Table → Except PyErr ℚ) :=
  [(ctcCount · "total"), (ctcCount · "fn_on"), (ctcCount · "fn_oy"), (ctcCount · "fy_on"),
   (ctcCount · "fy_oy"), ctcOy, ctcOn, ctcFy, ctcFn]

end Metcalcpy.Spec
