/-
Specification vocabulary for tables, independent of the model's lookup functions.
-/
import Verif.Model.Table

namespace Metcalcpy.Spec
open Metcalcpy

/-- Every row has as many cells as there are column names (a rectangular NumPy array). -/
def WellFormed (t : Table) : Prop := ∀ r ∈ t.rows, r.length = t.cols.length

/-- `cells` is the content of the column called `name`, top to bottom: the cells found at the first
position that carries this name. -/
def IsColumn (t : Table) (name : String) (cells : List Cell) : Prop :=
  ∃ i : ℕ, t.cols[i]? = some name ∧ (∀ j < i, t.cols[j]? ≠ some name) ∧
    t.rows.map (fun r => r[i]?) = cells.map some

/-- The column called `name` is complete and contains the numbers `vals`, top to bottom. -/
def CompleteColumn (t : Table) (name : String) (vals : List ℚ) : Prop :=
  IsColumn t name (vals.map some)

/-- A table of contingency counts with at least one row:
`h`its (fy_oy), `f`alse alarms (fy_on), `m`isses (fn_oy), `c`orrect negatives (fn_on), totals `n`. -/
structure CtcData (t : Table) (h f m c n : List ℚ) : Prop where
  rows_ne : t.rows ≠ []
  fy_oy : CompleteColumn t "fy_oy" h
  fy_on : CompleteColumn t "fy_on" f
  fn_oy : CompleteColumn t "fn_oy" m
  fn_on : CompleteColumn t "fn_on" c
  total : CompleteColumn t "total" n

/-- Merging two cells: a missing count contributes nothing. -/
def addCell : Cell → Cell → Cell
  | none, c => c
  | some a, none => some a
  | some a, some b => some (a + b)

/-- Merging two rows cell by cell. -/
def addRow (r s : List Cell) : List Cell := List.zipWith addCell r s

/-- The single row holding the column sums of `rows` (rows of width `w`). -/
def collapseRows (w : ℕ) (rows : List (List Cell)) : List Cell :=
  rows.foldr addRow (List.replicate w none)

/-- The same table with all rows merged into one. -/
def collapse (t : Table) : Table := { t with rows := [collapseRows t.cols.length t.rows] }

end Metcalcpy.Spec
