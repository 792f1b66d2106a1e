/-
Specification vocabulary for spread/skill variance lines.
-/
import Verif.Spec.Pairs

namespace Metcalcpy.Spec
open Metcalcpy

/-- The table has one row per (non-empty) bin of points: `bin_n` is the number of its points, the partial sums are those of
the points, and `var_mean` is the mean of their ensemble variances.  A point is a pair (forecast, observation) with a
variance. -/
structure SsvarData (t : Table) (bs : List (List (Pair × ℚ))) : Prop where
  rows_ne : t.rows ≠ []
  bin_ne : ∀ b ∈ bs, b ≠ []
  count : CompleteColumn t "bin_n" (bs.map (fun b => (b.length : ℚ)))
  fbar : CompleteColumn t "fbar" (bs.map (avg (fun p => p.1.1)))
  obar : CompleteColumn t "obar" (bs.map (avg (fun p => p.1.2)))
  fobar : CompleteColumn t "fobar" (bs.map (avg (fun p => p.1.1 * p.1.2)))
  ffbar : CompleteColumn t "ffbar" (bs.map (avg (fun p => p.1.1 * p.1.1)))
  oobar : CompleteColumn t "oobar" (bs.map (avg (fun p => p.1.2 * p.1.2)))
  var_mean : CompleteColumn t "var_mean" (bs.map (avg Prod.snd))

/-- All points of all bins, without their variances. -/
def pooledPairs (bs : List (List (Pair × ℚ))) : List Pair := bs.flatten.map Prod.fst

end Metcalcpy.Spec
