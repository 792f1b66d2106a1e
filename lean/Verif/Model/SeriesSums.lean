/-
metcalcpy/util/utils.py:567-669 calc_series_sums.
-/
import Verif.Model.Prepare

namespace Metcalcpy

/-- `np.nansum(a * b)` of two columns: products with a missing factor are skipped. -/
def nansumProd (a b : List Cell) : ℚ := ((List.zipWith mulCell a b).filterMap id).sum

/-- `x / total` where `total` is the result of sum_column_data_by_name: `None` raises TypeError.  A zero
total gives NaN or infinity (NumPy scalar division), modelled as a missing value. -/
def divTotal (x : ℚ) (total : Option ℚ) : Except PyErr Cell :=
  match total with
  | none => .error .typeError
  | some n => .ok (if n = 0 then none else some (x / n))

/-- `[np.nansum(input_df[column] * input_df.total.astype(float)) / total]`; unknown columns are a
KeyError (AttributeError for `total`, which also raises). -/
def weightedField (t : Table) (total : Option ℚ) (column : String) : Except PyErr Cell :=
  match columnData t column, columnData t "total" with
  | some c, some w => divTotal (nansumProd c w) total
  | _, _ => .error .keyError

/-- The columns that are averaged, as (output name, input name), for the line types whose branches
consist of weighted means only: sl1l2 592-596, sal1l2 598-608, vl1l2 610-615, val1l2 617-621,
grad 623-627. -/
def meanColumns : String → Option (List (String × String))
  | "sl1l2" => some [("fbar", "fbar"), ("obar", "obar"), ("fobar", "fobar"), ("ffbar", "ffbar"),
      ("oobar", "oobar")]
  | "sal1l2" => some [("fbar", "fabar"), ("obar", "oabar"), ("fobar", "foabar"), ("ffbar", "ffabar"),
      ("oobar", "ooabar")]
  | "vl1l2" => some [("ufbar", "ufbar"), ("vfbar", "vfbar"), ("uobar", "uobar"), ("vobar", "vobar"),
      ("uvfobar", "uvfobar"), ("uvffbar", "uvffbar"), ("uvoobar", "uvoobar"),
      ("f_speed_bar", "f_speed_bar"), ("o_speed_bar", "o_speed_bar")]
  | "val1l2" => some [("ufabar", "ufabar"), ("vfabar", "vfabar"), ("uoabar", "uoabar"),
      ("voabar", "voabar"), ("uvfoabar", "uvfoabar"), ("uvffabar", "uvffabar"), ("uvooabar", "uvooabar")]
  | "grad" => some [("fgbar", "fgbar"), ("ogbar", "ogbar"), ("mgbar", "mgbar"), ("egbar", "egbar")]
  | _ => none

/-- calc_series_sums for these line types: one row with the summed total and the weighted means. -/
def seriesMeans (cols : List (String × String)) (t : Table) : Except PyErr Table := do
  let total := sumColumn t "total"                                   -- 583-584
  let vals ← cols.mapM fun c => weightedField t total c.2
  return { cols := "total" :: cols.map Prod.fst, rows := [total :: vals] }

/-- The CTC/NBRCTC branch, lines 586-590.  `sum_column_data_by_name(input_df.to_numpy(), column_names,
column_names)` compares the name list with itself: `np.where(True)[0]` is `[0]`, so the first column of the
input is summed whatever its name.  Simplification: the input frame is numeric; with the filter
'error' NumPy's DeprecationWarning for 0-d arrays would be raised instead. -/
def seriesSumsCtc (t : Table) : Table :=
  let first : Option ℚ :=
    match t.rows.mapM (fun r => r[0]?) with
    | none => none                                                   -- IndexError handled
    | some col => if col.all Option.isNone then none else some (col.filterMap id).sum
  { cols := ["total", "fy_oy", "fy_on", "fn_oy", "fn_on"]
    rows := [[sumColumn t "total", first, first, first, first]] }

/-- calc_series_sums for the supported line types modelled here; `none`: another line type. -/
def calcSeriesSums (lineType : String) (t : Table) : Option (Except PyErr Table) :=
  if lineType = "ctc" ∨ lineType = "nbrctc" then some (.ok (seriesSumsCtc t))
  else (meanColumns lineType).map fun cols => seriesMeans cols t

end Metcalcpy
