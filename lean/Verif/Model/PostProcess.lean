/-
metcalcpy/util/correlation.py:977-1065: the post-processing of the table of `corr`
(_postprocess_dataframe, _format_bf, _get_round_setting_for).
-/
import Verif.Model.CorrTable

namespace Metcalcpy

/-- A cell of the table: a number, a boolean, a text, an array of floats, or an array of anything else. -/
inductive PostCell where
  | number (x : ℝ)
  | bool (b : Bool)
  | text (s : String)
  | floats (l : List ℝ)
  | array (l : List PostCell)

/-- What the library makes of numbers: `str`, numpy.format_float_scientific and numpy.format_float_positional with three decimals
and `trim='0'`, and `str` of the other cells. -/
structure PostFormat where
  str : ℝ → String
  scientific : ℝ → String
  positional : ℝ → String
  other : PostCell → String

/-- correlation.py:1039-1048 _format_bf.  Simplification: a boolean or an array is a TypeError. -/
noncomputable def formatBf (F : PostFormat) : PostCell → Except PyErr String
  | .text s => .ok s
  | .number x => .ok (if x ≥ 10000 ∨ x ≤ 1 / 10000 then F.scientific x else F.positional x)
  | _ => .error .typeError

/-- A setting: leave as it is, decimals, or a function called on the cell (_format_bf is the only one). -/
inductive RoundSetting where
  | keep
  | decimals (n : ℕ)
  | formatted
  deriving DecidableEq, Repr

/-- correlation.py:1052-1056 the table of options. -/
def roundOptions : List (String × RoundSetting) :=
  [("round", .keep), ("round.column.CI95%", .decimals 2), ("round.column.BF10", .formatted)]

/-- correlation.py:1051-1065 _get_round_setting_for. -/
def roundSettingFor (row col : String) : RoundSetting :=
  match roundOptions.lookup ("round.cell.[" ++ row ++ "]x[" ++ col ++ "]") with
  | some s => s
  | none => match roundOptions.lookup ("round.column." ++ col) with
    | some s => s
    | none => match roundOptions.lookup ("round.row." ++ row) with
      | some s => s
      | none => (roundOptions.lookup "round").getD .keep

/-- A table: labels of rows and columns and the cells. -/
structure PostFrame where
  rows : List String
  cols : List String
  cell : String → String → PostCell

/-- `astype(str)` of a cell. -/
def PostFormat.asText (F : PostFormat) : PostCell → PostCell
  | .text s => .text s
  | .number x => .text (F.str x)
  | c => .text (F.other c)

/-- correlation.py:1012-1035 the treatment of one cell of the copy.  Simplification: an array of integers is one of "anything else";
rounding an integer to two decimals leaves it as it is. -/
noncomputable def postCell (F : PostFormat) (d : PostFrame) (rc : String × String) : Except PyErr PostFrame :=
  match roundSettingFor rc.1 rc.2 with
  | .keep => .ok d
  | .formatted => do
    let v ← formatBf F (d.cell rc.1 rc.2)
    -- df[col].astype(str), then df.at[row, col] = newval
    .ok { d with cell := fun r c => if c = rc.2 then (if r = rc.1 then .text v else F.asText (d.cell r c)) else d.cell r c }
  | .decimals n =>
    match d.cell rc.1 rc.2 with
    | .number x => .ok { d with cell := fun r c => if c = rc.2 ∧ r = rc.1 then .number (npRound x n) else d.cell r c }
    | .floats l => .ok { d with cell := fun r c => if c = rc.2 ∧ r = rc.1 then .floats (l.map (npRound · n)) else d.cell r c }
    | _ => .ok d

/-- correlation.py:1010-1036 _postprocess_dataframe for distinct labels. -/
noncomputable def postprocess (F : PostFormat) (d : PostFrame) : Except PyErr PostFrame :=
  (d.rows.flatMap fun r => d.cols.map fun c => (r, c)).foldlM (postCell F) d

end Metcalcpy
