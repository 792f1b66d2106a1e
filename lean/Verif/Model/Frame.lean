/-
Data frames with text and number cells (the pandas frames of the equalization and aggregation code).
-/
import Verif.Model.Base
import Verif.Model.Strings

namespace Metcalcpy

/-- A cell.  A number carries its value (used by comparisons) and its text (used by `astype(str)`);
`null` is NaN / None. -/
inductive Val
  | num (value : ℚ) (text : String)
  | str (s : String)
  | null
  deriving DecidableEq, Repr

/-- `astype(str)` of one cell. -/
def Val.text : Val → String
  | .num _ t => t
  | .str s => s
  | .null => "nan"

/-- A rectangular data frame: column names and rows. -/
structure Frame where
  cols : List String
  rows : List (List Val)
  deriving DecidableEq, Repr

/-- Position of a column (`frame[name]`; `none` is the KeyError). -/
def Frame.idx? (f : Frame) (name : String) : Option ℕ := f.cols.findIdx? (· == name)

/-- The cell of row `r` at position `i`. -/
def cellAt (r : List Val) (i : ℕ) : Val := (r[i]?).getD .null

/-- `frame[name]` for an existing column, else KeyError. -/
def Frame.col (f : Frame) (name : String) : Except PyErr ℕ :=
  match f.idx? name with
  | some i => .ok i
  | none => .error .keyError

/-- `frame[name] = values` where `values` is computed row by row: overwrites an existing column,
otherwise appends a new one. -/
def Frame.setCol (f : Frame) (name : String) (g : List Val → Val) : Frame :=
  match f.idx? name with
  | some i => { f with rows := f.rows.map (fun r => r.set i (g r)) }
  | none => { cols := f.cols ++ [name], rows := f.rows.map (fun r => r ++ [g r]) }

/-- Boolean row selection `frame[mask]`. -/
def Frame.filterRows (f : Frame) (p : List Val → Bool) : Frame := { f with rows := f.rows.filter p }

end Metcalcpy
