/-
Specification vocabulary for the table of economic values.
-/
import Verif.Spec.AggPoints
import Verif.Spec.EconomicValue

namespace Metcalcpy.Spec
open Metcalcpy

/-- The column called `name` holds these numbers in the given rows. -/
def ColumnNumbers (f : Frame) (rows : List (List Val)) (name : String) (xs : List ℚ) : Prop :=
  List.Forall₂ (fun r x => ∃ t, HasCell f r name (.num x t)) rows xs

/-- The row belongs to the series with these values: every field that is a column of the input has the requested value. -/
def RowOfSeries (f : Frame) (request : List (String × String)) (r : List Val) : Prop :=
  ∀ q ∈ request, q.1 ∈ f.cols → ∃ v, HasCell f r q.1 v ∧ CellIs v q.2

open Classical in
/-- The rows of the input that belong to a series. -/
noncomputable def seriesRows (f : Frame) (request : List (String × String)) : List (List Val) :=
  f.rows.filter (fun r => decide (RowOfSeries f request r))

/-- Counts of a series: hits, false alarms, misses, correct negatives. -/
structure Counts where
  hits : ℚ
  alarms : ℚ
  misses : ℚ
  negatives : ℚ

/-- The counts are the sums over the rows, all of whose counts are numbers that are not negative. -/
def CountsOf (f : Frame) (rows : List (List Val)) (k : Counts) : Prop :=
  ∃ n h a m c, ColumnNumbers f rows "total" n ∧ ColumnNumbers f rows "fy_oy" h ∧ ColumnNumbers f rows "fy_on" a ∧
    ColumnNumbers f rows "fn_oy" m ∧ ColumnNumbers f rows "fn_on" c ∧ (∀ x ∈ h ++ a ++ m ++ c, 0 ≤ x) ∧
    k = ⟨h.sum, a.sum, m.sum, c.sum⟩

/-- There are events and non-events. -/
def Counts.both (k : Counts) : Prop := 0 < k.hits + k.misses ∧ 0 < k.alarms + k.negatives

/-- The relative economic value at a cost/loss ratio. -/
def Counts.value (k : Counts) (x : ℚ) : ℚ :=
  economicValueOf (k.alarms / (k.alarms + k.negatives)) (k.hits / (k.hits + k.misses))
    ((k.hits + k.misses) / (k.hits + k.alarms + k.misses + k.negatives)) x

/-- The cost/loss ratios of a step: its multiples between 0 and 1, in increasing order. -/
def IsSteps (step : ℚ) (l : List ℚ) : Prop :=
  l.Pairwise (· < ·) ∧ ∀ x, x ∈ l ↔ 0 < x ∧ x < 1 ∧ ∃ k : ℕ, x = k * step

end Metcalcpy.Spec
