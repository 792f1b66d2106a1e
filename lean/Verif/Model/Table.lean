/-
The two-dimensional NumPy array + column-name vector that every statistic receives.
-/
import Verif.Model.Base

namespace Metcalcpy

/-- `input_data` (list of rows) together with `columns_names`. -/
structure Table where
  cols : List String
  rows : List (List Cell)
  deriving DecidableEq, Repr

/-- metcalcpy/util/utils.py:313-315 `np.where(columns == column_name)[0]`, first index. -/
def Table.colIdx? (t : Table) (name : String) : Option ℕ := t.cols.findIdx? (· == name)

/-- metcalcpy/util/utils.py:297-326 column_data_by_name with `rm_none=False`: `none` when the column
name is unknown or the index is out of range of the array (IndexError handled). -/
def columnData (t : Table) (name : String) : Option (List Cell) :=
  match t.colIdx? name with
  | none => none
  | some i => t.rows.mapM (fun r => r[i]?)

/-- metcalcpy/util/utils.py:297-326 column_data_by_name with `rm_none=True` (lines 320-322). -/
def columnDataRm (t : Table) (name : String) : Option (List ℚ) :=
  (columnData t name).map (fun col => col.filterMap id)

/-- metcalcpy/util/utils.py:262-294 sum_column_data_by_name. -/
def sumColumn (t : Table) (name : String) (rmNone : Bool := true) : Option ℚ :=
  match columnData t name with
  | none => none                                            -- 279: data_array is None
  | some col =>
    if col.all Option.isNone then none                      -- 279: np.isnan(data_array).all()
    else if rmNone then some (col.filterMap id).sum         -- 283-284: np.nansum
    else if col.any Option.isNone then none                 -- 286-287
    else some (col.filterMap id).sum                        -- 289

/-- metcalcpy/util/utils.py:437-455 get_total_values. -/
def getTotalValues (t : Table) (aggregation : Bool) : Option ℚ :=
  if aggregation then sumColumn t "total" else some 1

end Metcalcpy
