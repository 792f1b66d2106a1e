/-
Specification vocabulary for scorecards: the values of the rows of a series and the row written for a comparison.
-/
import Verif.Spec.Frame
import Verif.Spec.AggBoot
import Verif.Model.Derived

namespace Metcalcpy.Spec
open Metcalcpy

/-- The column stat_value of the rows holds these numbers. -/
def NumbersOf (f : Frame) (rows : List (List Val)) (xs : List ℚ) : Prop :=
  List.Forall₂ (fun r x => ∃ t, HasCell f r "stat_value" (.num x t)) rows xs

/-- The arithmetic mean. -/
def averageOf (xs : List ℚ) : ℚ := xs.sum / xs.length

/-- The value of a comparison of two series.  DIFF: the difference of the means (of equally many values), missing if a
value is missing.  SINGLE: the mean of the first series, missing if a value is missing.  DIFF_SIG: the significance `sig`
of the values of both series, each in an order of its rows; the two orders agree case by case if both series have the
same cases.  Any other operation: nothing. -/
def IsScoreValue (sig : List PyNum → List PyNum → Except PyErr PyNum) (f : Frame) (op : String)
    (rows₁ rows₂ : List (List Val)) (v : PyNum) : Prop :=
  (op = "DIFF" → ∀ xs ys, NumbersOf f rows₁ xs → NumbersOf f rows₂ ys →
    xs.length = ys.length ∧ v = .num (averageOf xs - averageOf ys)) ∧
  (op = "DIFF" → (∃ r ∈ rows₁ ++ rows₂, HasCell f r "stat_value" .null) → v = .nan) ∧
  (op = "SINGLE" → ∀ xs, NumbersOf f rows₁ xs → v = .num (averageOf xs)) ∧
  (op = "SINGLE" → (∃ r ∈ rows₁, HasCell f r "stat_value" .null) → v = .nan) ∧
  (op = "DIFF_SIG" → ∀ xs ys, NumbersOf f rows₁ xs → NumbersOf f rows₂ ys →
    ∃ a₁ a₂ xs' ys', a₁.Perm rows₁ ∧ a₂.Perm rows₂ ∧
      ((rows₁.map (caseOf f)).Perm (rows₂.map (caseOf f)) → a₁.map (caseOf f) = a₂.map (caseOf f)) ∧
      NumbersOf f a₁ xs' ∧ NumbersOf f a₂ ys' ∧ sig (xs'.map .num) (ys'.map .num) = .ok v) ∧
  (op ≠ "DIFF_SIG" → op ≠ "DIFF" → op ≠ "SINGLE" → v = .none)

/-- A row of the scorecard (pairs of column and cell) for the comparison called `name` whose first series has the lead
`lead` and the first row `r`: the value, the lead and the name of the comparison are set, the times, the confidence
limits and the key of the event equalization are dropped, all other cells are those of `r`. -/
def IsScoreRow (f : Frame) (name lead : String) (value : Val) (r : List Val) (row : List (String × Val)) : Prop :=
  row.lookup "stat_value" = some value ∧ row.lookup "fcst_lead" = some (.str lead) ∧
  row.lookup "model" = some (.str name) ∧
  (∀ n ∈ ["equalize", "stat_ncl", "stat_ncu", "stat_bcl", "stat_bcu", "fcst_valid_beg", "fcst_init_beg"],
    row.lookup n = none) ∧
  (∀ n v, n ∉ ["equalize", "stat_ncl", "stat_ncu", "stat_bcl", "stat_bcu", "fcst_valid_beg", "fcst_init_beg",
      "stat_value", "fcst_lead", "model"] → (row.lookup n = some v ↔ HasCell f r n v))

end Metcalcpy.Spec
