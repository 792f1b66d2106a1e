/-
Specification vocabulary for probability tables.
-/
import Verif.Model.Pstd
import Verif.Spec.Table

namespace Metcalcpy.Spec

/-- One probability bin of a table: the names of its three columns, its probability threshold and its
event and non-event counts, one per row. -/
structure PctBin where
  thName : String
  oyName : String
  onName : String
  th : ℚ
  oy : List ℚ
  on : List ℚ

/-- The bins of table `t`, in column order: columns are recognised by the fragments `thresh_i`, `oy_i` and
`on_i` of their names; the threshold stands in the first row; counts are complete and not negative. -/
structure PctData (t : Table) (ps : List PctBin) : Prop where
  rows_ne : t.rows ≠ []
  oy_cols : t.cols.filter (fun c => strIn "oy_i" c) = ps.map PctBin.oyName
  on_cols : t.cols.filter (fun c => !strIn "oy_i" c && strIn "on_i" c) = ps.map PctBin.onName
  th_cols : t.cols.filter (fun c => !strIn "oy_i" c && !strIn "on_i" c && strIn "thresh_i" c) =
    ps.map PctBin.thName
  th : ∀ p ∈ ps, ∃ rest, IsColumn t p.thName (some p.th :: rest)
  oy : ∀ p ∈ ps, CompleteColumn t p.oyName p.oy
  on : ∀ p ∈ ps, CompleteColumn t p.onName p.on
  oy_nonneg : ∀ p ∈ ps, ∀ x ∈ p.oy, 0 ≤ x
  on_nonneg : ∀ p ∈ ps, ∀ x ∈ p.on, 0 ≤ x

/-- Threshold and pooled counts of each bin. -/
def pooledBins (ps : List PctBin) : List Bin := ps.map (fun p => ⟨p.th, p.oy.sum, p.on.sum⟩)

def events (bs : List Bin) : ℚ := (bs.map Bin.oy).sum
def nonEvents (bs : List Bin) : ℚ := (bs.map Bin.on).sum

/-- Weight of a comparison of an event in a bin with threshold `x` with a non-event at `y`. -/
def concordance (x y : ℚ) : ℚ := if x > y then 1 else if x = y then 1 / 2 else 0

/-- Probability that a random event has a higher probability bin than a random non-event, ties counting
half. -/
def concordanceProb (bs : List Bin) : ℚ :=
  (bs.map (fun b => b.on * (bs.map (fun c => c.oy * concordance c.thresh b.thresh)).sum)).sum /
    (nonEvents bs * events bs)

/-- Mean squared difference between forecast probability and outcome. -/
def brierScore (bs : List Bin) : ℚ :=
  (bs.map (fun b => b.oy * (b.thresh - 1) ^ 2 + b.on * b.thresh ^ 2)).sum / (events bs + nonEvents bs)

end Metcalcpy.Spec
