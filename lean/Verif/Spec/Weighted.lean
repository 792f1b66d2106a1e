/-
Specification: weighted means, and the tables of ensemble and neighbourhood statistics.
-/
import Verif.Spec.Table

namespace Metcalcpy.Spec
open Metcalcpy

/-- Σ wᵢ xᵢ / Σ wᵢ. -/
def wmean (w x : List ℚ) : ℚ := (List.zipWith (· * ·) w x).sum / w.sum

/-- A rectangular table with at least one row whose `total` column is complete and has a positive sum. -/
structure WeightedRows (t : Table) (n : List ℚ) : Prop where
  rows_ne : t.rows ≠ []
  rect : WellFormed t
  total : CompleteColumn t "total" n
  total_pos : 0 < n.sum

/-- NBRCNT rows: fractions Brier score `b`, its reference value `d` (the FSS of the row being `1 - b/d`),
forecast rate `f`, observed rate `o`. -/
structure NbrCntData (t : Table) (n b d f o : List ℚ) : Prop extends WeightedRows t n where
  fbs : CompleteColumn t "fbs" b
  fss : CompleteColumn t "fss" (List.zipWith (fun b d => 1 - b / d) b d)
  f_rate : CompleteColumn t "f_rate" f
  o_rate : CompleteColumn t "o_rate" o
  len : d.length = b.length

/-- ECNT rows: the five columns whose squares are averaged. -/
structure EcntData (t : Table) (n rmse rmseOerr spread spreadOerr spreadPlus : List ℚ) : Prop
    extends WeightedRows t n where
  rmse : CompleteColumn t "rmse" rmse
  rmse_oerr : CompleteColumn t "rmse_oerr" rmseOerr
  spread : CompleteColumn t "spread" spread
  spread_oerr : CompleteColumn t "spread_oerr" spreadOerr
  spread_plus_oerr : CompleteColumn t "spread_plus_oerr" spreadPlus

/-- RPS rows: score `s`, its climatological reference `c` (the RPSS of the row being `1 - s/c`),
complement `k`. -/
structure RpsData (t : Table) (n s c k : List ℚ) : Prop extends WeightedRows t n where
  rps : CompleteColumn t "rps" s
  rpss : CompleteColumn t "rpss" (List.zipWith (fun s c => 1 - s / c) s c)
  rps_comp : CompleteColumn t "rps_comp" k
  len : c.length = s.length

/-- Squares, elementwise. -/
def squares (x : List ℚ) : List ℚ := x.map (fun a => a * a)

end Metcalcpy.Spec
