/-
Specification of the aggregation of a group of partial-sum rows.
-/
import Verif.Spec.Table

namespace Metcalcpy.Spec
open Metcalcpy

/-- Total-weighted mean of the available values of a column: Σ wᵢ xᵢ / Σ wᵢ, a missing value
contributing nothing to the numerator. -/
def weightedMean (ws : List ℚ) (xs : List Cell) : ℚ :=
  (List.zipWith (fun w x => w * x.getD 0) ws xs).sum / ws.sum

/-- The partial-sum fields of a line type. -/
def partialSumFields : String → List String
  | "sl1l2" => ["fbar", "obar", "fobar", "ffbar", "oobar"]
  | "sal1l2" => ["fabar", "oabar", "foabar", "ffabar", "ooabar"]
  | "vl1l2" => ["ufbar", "vfbar", "uobar", "vobar", "uvfobar", "uvffbar", "uvoobar", "f_speed_bar",
      "o_speed_bar"]
  | "val1l2" => ["ufabar", "vfabar", "uoabar", "voabar", "uvfoabar", "uvffabar", "uvooabar"]
  | "grad" => ["fgbar", "ogbar", "mgbar", "egbar"]
  | _ => []

/-- A group of rows: complete totals `ws` with non-zero sum, and the fields. -/
structure Group (lineType : String) (t : Table) (ws : List ℚ) (x : String → List Cell) : Prop where
  rows_ne : t.rows ≠ []
  total : CompleteColumn t "total" ws
  total_ne : ws.sum ≠ 0
  field : ∀ c ∈ partialSumFields lineType, IsColumn t c (x c)

end Metcalcpy.Spec
