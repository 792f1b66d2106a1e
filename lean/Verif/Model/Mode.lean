/-
metcalcpy/util/mode_ratio_statistics.py, mode_arearat_statistics.py and their 2d/3d variants, with the row
filters of metcalcpy/util/utils.py:329-375.
-/
import Verif.Model.Frame
import Verif.Model.Round

namespace Metcalcpy

/-- A filter value: an integer flag or a text. -/
inductive FVal
  | int (z : ℤ)
  | str (s : String)
  deriving DecidableEq, Repr

/-- Python's `int(x)` of a float: truncation towards zero. -/
def pyTrunc (q : ℚ) : ℤ := if q < 0 then ⌈q⌉ else ⌊q⌋

/-- utils.py:351 `column.astype(type(value)) == value` for one cell; `none` is the ValueError of a missing
or non-numeric cell converted to int. -/
def cellEq (v : Val) : FVal → Option Bool
  | .int z => match v with
    | .num q _ => some (pyTrunc q == z)
    | .str s => (pyInt? s).map (· == z)
    | .null => none
  | .str s => some (v.text == s)

/-- Why filtering failed: the column is missing (the function returns the integer 0, line 349) or a cell
could not be converted. -/
inductive FilterFail
  | missingColumn | badCell
  deriving DecidableEq, Repr

/-- utils.py:351-352: one filter. -/
def filterStep (f : Frame) (name : String) (value : FVal) : Except FilterFail Frame :=
  match f.idx? name with
  | none => .error .missingColumn
  | some i =>
    match f.rows.mapM (fun r => (cellEq (cellAt r i) value).map (fun b => (r, b))) with
    | none => .error .badCell
    | some marked => .ok { f with rows := (marked.filter (fun p => p.2)).map Prod.fst }

/-- utils.py:329-357 column_data_by_name_value. -/
def filterData (f : Frame) : List (String × FVal) → Except FilterFail Frame
  | [] => .ok f
  | (name, value) :: rest => do
    let f' ← filterStep f name value
    filterData f' rest

/-- utils.py:360-375 nrow_column_data_by_name_value inside the `try` of a statistic: a missing column is an
AttributeError that is not handled, a bad cell a handled ValueError (`ok none`). -/
def nrowFiltered (f : Frame) (fs : List (String × FVal)) : Except PyErr (Option ℚ) :=
  match filterData f fs with
  | .ok f' => .ok (some (f'.rows.length : ℚ))
  | .error .missingColumn => .error .attributeError
  | .error .badCell => .ok none

/-- Is a cell text? -/
def Val.isText : Val → Bool
  | .str _ => true
  | _ => false

/-- The number in a cell. -/
def Val.number? : Val → Option ℚ
  | .num q _ => some q
  | _ => none

/-- utils.py:262-294 sum_column_data_by_name on a frame: missing values are skipped, `none` when there is
no number; a text cell is a ValueError, handled by the caller (`none`). -/
def sumFrame (f : Frame) (name : String) : Option ℚ :=
  match f.idx? name with
  | none => none
  | some i =>
    let cells := f.rows.map (fun r => cellAt r i)
    if cells.any Val.isText then none
    else
      let nums := cells.filterMap Val.number?
      if nums.isEmpty then none else some nums.sum

/-- Sum of the column 'area' over the filtered rows, e.g. mode_arearat_statistics.py:40-43. -/
def areaFiltered (f : Frame) (fs : List (String × FVal)) : Except PyErr (Option ℚ) :=
  match filterData f fs with
  | .ok f' => .ok (sumFrame f' "area")
  | .error _ => .ok none

/-- The shapes of the statistics: numerator / denominator, numerator / 2, numerator,
numerator / (d₁ + 2 d₂), numerator / (d₁ + d₂ / 2). -/
inductive ModeStat
  | ratio (num den : List (String × ℤ))
  | half (num : List (String × ℤ))
  | plain (num : List (String × ℤ))
  | weighted (num d₁ d₂ : List (String × ℤ))
  | halved (num d₁ d₂ : List (String × ℤ))

/-- `nominator / denominator` and rounding inside the `try`. -/
def roundedQuot (n d : Option ℚ) : Option ℚ := do
  let a ← n
  let b ← d
  let q ← pyDiv a b
  some (roundHalfUp q PRECISION)

/-- The body of a statistic; `m` is the number of rows or the summed area of a filter. -/
def evalMode (m : List (String × FVal) → Except PyErr (Option ℚ)) : ModeStat → Except PyErr (Option ℚ)
  | .ratio num den => do
    let n ← m (num.map (fun p => (p.1, .int p.2)))
    let d ← m (den.map (fun p => (p.1, .int p.2)))
    .ok (roundedQuot n d)
  | .half num => do
    let n ← m (num.map (fun p => (p.1, .int p.2)))
    .ok (roundedQuot n (some 2))
  | .plain num => do
    let n ← m (num.map (fun p => (p.1, .int p.2)))
    .ok (n.map (fun x => roundHalfUp x PRECISION))
  | .weighted num d₁ d₂ => do
    let n ← m (num.map (fun p => (p.1, .int p.2)))
    let a ← m (d₁.map (fun p => (p.1, .int p.2)))
    let b ← m (d₂.map (fun p => (p.1, .int p.2)))
    .ok (roundedQuot n (do let x ← a; let y ← b; some (x + 2 * y)))
  | .halved num d₁ d₂ => do
    let n ← m (num.map (fun p => (p.1, .int p.2)))
    let a ← m (d₁.map (fun p => (p.1, .int p.2)))
    let b ← m (d₂.map (fun p => (p.1, .int p.2)))
    .ok (roundedQuot n (do let x ← a; let y ← b; some (x + y / 2)))

/-- A statistic of mode_ratio_statistics.py applied to a frame. -/
def modeCount (s : ModeStat) (f : Frame) : Except PyErr (Option ℚ) := evalMode (nrowFiltered f) s

/-- A statistic of mode_arearat_statistics.py applied to a frame. -/
def modeArea (s : ModeStat) (f : Frame) : Except PyErr (Option ℚ) := evalMode (areaFiltered f) s

/-- utils.py:48-49 TWO_D_DATA_FILTER and THREE_D_DATA_FILTER: the rows whose object_type is `dim`; `none`
when the column is missing. -/
def dimFilter (dim : String) (f : Frame) : Option Frame :=
  match filterData f [("object_type", .str dim)] with
  | .ok f' => some f'
  | .error _ => none

/-- mode_2d_ratio_statistics.py and mode_3d_ratio_statistics.py: filter on object_type ('2d' or '3d'), then
the statistic of mode_ratio_statistics.py. -/
def modeCountDim (dim : String) (s : ModeStat) (f : Frame) : Except PyErr (Option ℚ) :=
  match dimFilter dim f with
  | some f' => modeCount s f'
  | none => .error .attributeError

/-- mode_2d_arearat_statistics.py. -/
def modeArea2d (s : ModeStat) (f : Frame) : Except PyErr (Option ℚ) :=
  match dimFilter "2d" f with
  | some f' => modeArea s f'
  | none => .ok none

/-- mode_3d_volrat_statistics.py:627-642 rename_column: every column called 'volume' becomes 'area'.  The
result is a Python list, not a NumPy array. -/
def renameVolume (cols : List String) : List String := cols.map (fun c => if c = "volume" then "area" else c)

/-- `np.where(columns == key)[0]` when `columns` is a Python list: comparing a list with a string gives
`False`, so no index is found. -/
def whereInList (_columns : List String) (_key : String) : Option ℕ := none

/-- mode_3d_volrat_statistics.py: rename, filter on object_type '3d', area statistic.  When no index is found
the filter returns 0 (utils.py:349) and every later lookup in the same list fails as well, so the sums are
None and the statistic is None.  (NumPy also warns about `nonzero` of a 0-d array; under the strict filter
this warning escapes from the first lookup, see Model/Filter.) -/
def modeVolume3d (s : ModeStat) (f : Frame) : Except PyErr (Option ℚ) :=
  let cols := renameVolume f.cols
  match whereInList cols "object_type" with
  | none => .ok none
  | some _ =>
    match dimFilter "3d" { f with cols := cols } with
    | some f' => modeArea s f'
    | none => .ok none

/-- mode_ratio_statistics.py:21-44 calculate_ratio_asm_asa: "% of simple objects that are matched". -/
def ModeRatio.asm_asa : ModeStat := .ratio [("simple_flag", 1), ("matched_flag", 1)] [("simple_flag", 1)]

/-- mode_ratio_statistics.py:47-70 calculate_ratio_fsa_asa: "% of simple objects that are forecast". -/
def ModeRatio.fsa_asa : ModeStat := .ratio [("fcst_flag", 1), ("simple_flag", 1)] [("simple_flag", 1)]

/-- mode_ratio_statistics.py:73-96 calculate_ratio_osa_asa: "% of simple objects that are observation". -/
def ModeRatio.osa_asa : ModeStat := .ratio [("fcst_flag", 0), ("simple_flag", 1)] [("simple_flag", 1)]

/-- mode_ratio_statistics.py:99-122 calculate_ratio_asu_asa: "% of simple objects that are unmatched". -/
def ModeRatio.asu_asa : ModeStat := .ratio [("simple_flag", 1), ("matched_flag", 0)] [("simple_flag", 1)]

/-- mode_ratio_statistics.py:125-148 calculate_ratio_fsm_fsa:
"% of simple forecast objects that are matched". -/
def ModeRatio.fsm_fsa : ModeStat :=
  .ratio [("fcst_flag", 1), ("matched_flag", 1)] [("fcst_flag", 1), ("simple_flag", 1)]

/-- mode_ratio_statistics.py:151-174 calculate_ratio_fsu_fsa:
"% of simple forecast objects that are unmatched". -/
def ModeRatio.fsu_fsa : ModeStat :=
  .ratio [("fcst_flag", 1), ("simple_flag", 1), ("matched_flag", 1)] [("fcst_flag", 1), ("simple_flag", 1)]

/-- mode_ratio_statistics.py:177-200 calculate_ratio_osm_osa:
"% of simple simple observation objects that are matched". -/
def ModeRatio.osm_osa : ModeStat :=
  .ratio [("fcst_flag", 0), ("simple_flag", 1), ("matched_flag", 1)] [("fcst_flag", 0), ("simple_flag", 1)]

/-- mode_ratio_statistics.py:203-226 calculate_ratio_osu_osa:
"% of simple simple observation objects that are unmatched". -/
def ModeRatio.osu_osa : ModeStat :=
  .ratio [("fcst_flag", 0), ("simple_flag", 1), ("matched_flag", 0)] [("fcst_flag", 0), ("simple_flag", 1)]

/-- mode_ratio_statistics.py:229-252 calculate_ratio_fsm_asm:
"% of simple matched objects that are forecasts". -/
def ModeRatio.fsm_asm : ModeStat :=
  .ratio [("fcst_flag", 1), ("simple_flag", 1), ("matched_flag", 0)]
    [("matched_flag", 1), ("simple_flag", 1)]

/-- mode_ratio_statistics.py:255-278 calculate_ratio_osm_asm:
"% of simple matched objects that are observations". -/
def ModeRatio.osm_asm : ModeStat :=
  .ratio [("fcst_flag", 0), ("simple_flag", 1), ("matched_flag", 0)]
    [("matched_flag", 1), ("simple_flag", 1)]

/-- mode_ratio_statistics.py:281-304 calculate_ratio_fsu_asu:
"% of simple unmatched objects that are forecast". -/
def ModeRatio.fsu_asu : ModeStat :=
  .ratio [("fcst_flag", 1), ("simple_flag", 1), ("matched_flag", 0)]
    [("matched_flag", 0), ("simple_flag", 1)]

/-- mode_ratio_statistics.py:307-330 calculate_ratio_osu_asu:
"% of simple unmatched objects that are observation". -/
def ModeRatio.osu_asu : ModeStat :=
  .ratio [("fcst_flag", 0), ("simple_flag", 1), ("matched_flag", 0)]
    [("matched_flag", 0), ("simple_flag", 1)]

/-- mode_ratio_statistics.py:333-357 calculate_ratio_fsa_aaa: "?". -/
def ModeRatio.fsa_aaa : ModeStat := .ratio [("fcst_flag", 1), ("simple_flag", 1)] []

/-- mode_ratio_statistics.py:360-384 calculate_ratio_osa_aaa: "?". -/
def ModeRatio.osa_aaa : ModeStat := .ratio [("fcst_flag", 0), ("simple_flag", 1)] []

/-- mode_ratio_statistics.py:387-410 calculate_ratio_fsa_faa:
"% of all forecast objects that are simple". -/
def ModeRatio.fsa_faa : ModeStat := .ratio [("fcst_flag", 1), ("simple_flag", 1)] [("fcst_flag", 1)]

/-- mode_ratio_statistics.py:413-436 calculate_ratio_fca_faa:
"% of all forecast objects that are cluster". -/
def ModeRatio.fca_faa : ModeStat := .ratio [("fcst_flag", 1), ("simple_flag", 0)] [("fcst_flag", 1)]

/-- mode_ratio_statistics.py:439-462 calculate_ratio_osa_oaa:
"% of all observation objects that are simple". -/
def ModeRatio.osa_oaa : ModeStat := .ratio [("fcst_flag", 0), ("simple_flag", 1)] [("fcst_flag", 0)]

/-- mode_ratio_statistics.py:465-488 calculate_ratio_oca_oaa:
"% of all observation objects that are cluster". -/
def ModeRatio.oca_oaa : ModeStat := .ratio [("fcst_flag", 0), ("simple_flag", 0)] [("fcst_flag", 0)]

/-- mode_ratio_statistics.py:491-514 calculate_ratio_fca_aca: "% of cluster objects that are forecast". -/
def ModeRatio.fca_aca : ModeStat := .ratio [("fcst_flag", 1), ("simple_flag", 0)] [("simple_flag", 0)]

/-- mode_ratio_statistics.py:517-540 calculate_ratio_oca_aca:
"% of cluster objects that are observation". -/
def ModeRatio.oca_aca : ModeStat := .ratio [("fcst_flag", 0), ("simple_flag", 0)] [("simple_flag", 0)]

/-- mode_ratio_statistics.py:543-566 calculate_ratio_fsa_osa:
"Ratio of simple forecasts to simple observations [frequency bias]". -/
def ModeRatio.fsa_osa : ModeStat :=
  .ratio [("fcst_flag", 1), ("simple_flag", 1)] [("fcst_flag", 0), ("simple_flag", 1)]

/-- mode_ratio_statistics.py:569-592 calculate_ratio_osa_fsa:
"Ratio of simple observations to simple forecasts [1 / frequency bias]". -/
def ModeRatio.osa_fsa : ModeStat :=
  .ratio [("fcst_flag", 0), ("simple_flag", 1)] [("fcst_flag", 1), ("simple_flag", 1)]

/-- mode_ratio_statistics.py:595-618 calculate_ratio_aca_asa:
"Ratio of cluster objects to simple objects". -/
def ModeRatio.aca_asa : ModeStat := .ratio [("simple_flag", 0)] [("simple_flag", 1)]

/-- mode_ratio_statistics.py:621-644 calculate_ratio_asa_aca:
"Ratio of simple objects to cluster objects". -/
def ModeRatio.asa_aca : ModeStat := .ratio [("simple_flag", 1)] [("simple_flag", 0)]

/-- mode_ratio_statistics.py:647-670 calculate_ratio_fca_fsa:
"Ratio of cluster forecast objects to simple forecast objects". -/
def ModeRatio.fca_fsa : ModeStat :=
  .ratio [("fcst_flag", 1), ("simple_flag", 0)] [("fcst_flag", 1), ("simple_flag", 1)]

/-- mode_ratio_statistics.py:673-696 calculate_ratio_fsa_fca:
"Ratio of simple forecast objects to cluster forecast objects". -/
def ModeRatio.fsa_fca : ModeStat :=
  .ratio [("fcst_flag", 1), ("simple_flag", 1)] [("fcst_flag", 1), ("simple_flag", 0)]

/-- mode_ratio_statistics.py:699-722 calculate_ratio_oca_osa:
"Ratio of cluster observation objects to simple observation objects". -/
def ModeRatio.oca_osa : ModeStat :=
  .ratio [("fcst_flag", 0), ("simple_flag", 0)] [("fcst_flag", 0), ("simple_flag", 1)]

/-- mode_ratio_statistics.py:725-748 calculate_ratio_osa_oca:
"Ratio of simple observation objects to cluster observation objects". -/
def ModeRatio.osa_oca : ModeStat :=
  .ratio [("fcst_flag", 0), ("simple_flag", 1)] [("fcst_flag", 0), ("simple_flag", 0)]

/-- mode_ratio_statistics.py:751-774 calculate_objhits: "Hits =/2". -/
def ModeRatio.objhits : ModeStat := .half [("simple_flag", 1), ("matched_flag", 1)]

/-- mode_ratio_statistics.py:777-799 calculate_objmisses: "Misses = OSU". -/
def ModeRatio.objmisses : ModeStat := .plain [("fcst_flag", 0), ("simple_flag", 1), ("matched_flag", 0)]

/-- mode_ratio_statistics.py:802-824 calculate_objfas: "False Alarms = FSU". -/
def ModeRatio.objfas : ModeStat := .plain [("fcst_flag", 1), ("simple_flag", 1), ("matched_flag", 0)]

/-- mode_ratio_statistics.py:827-855 calculate_objcsi: "CSI = hits //2 + OSU + FSU]". -/
def ModeRatio.objcsi : ModeStat :=
  .weighted [("fcst_flag", 1), ("matched_flag", 0)]
    [("simple_flag", 1), ("matched_flag", 1)] [("simple_flag", 1), ("matched_flag", 0)]

/-- mode_ratio_statistics.py:858-886 calculate_objpody:
"Probability of Detecting Yes PODY = hits //2 + OSU]". -/
def ModeRatio.objpody : ModeStat :=
  .weighted [("simple_flag", 1), ("matched_flag", 1)]
    [("simple_flag", 1), ("matched_flag", 1)] [("fcst_flag", 1), ("simple_flag", 1), ("matched_flag", 0)]

/-- mode_ratio_statistics.py:889-917 calculate_objfar: "False alarm ratio FAR = false alarms //2 + FSU]". -/
def ModeRatio.objfar : ModeStat :=
  .halved [("fcst_flag", 1), ("simple_flag", 1), ("matched_flag", 0)]
    [("fcst_flag", 1), ("simple_flag", 1), ("matched_flag", 0)] [("simple_flag", 1), ("matched_flag", 1)]

/-- mode_arearat_statistics.py:22-48 calculate_arearat_fsa_asa:
"Area-weighted % of simple objects that are forecast". -/
def ModeArea.fsa_asa : ModeStat := .ratio [("fcst_flag", 1), ("simple_flag", 1)] [("simple_flag", 1)]

/-- mode_arearat_statistics.py:51-77 calculate_arearat_osa_asa:
"Area-weighted % of simple objects that are observation". -/
def ModeArea.osa_asa : ModeStat := .ratio [("fcst_flag", 0), ("simple_flag", 1)] [("simple_flag", 1)]

/-- mode_arearat_statistics.py:80-106 calculate_arearat_asm_asa:
"Area-weighted % of simple objects that are matched". -/
def ModeArea.asm_asa : ModeStat := .ratio [("simple_flag", 1), ("matched_flag", 1)] [("simple_flag", 1)]

/-- mode_arearat_statistics.py:109-135 calculate_arearat_asu_asa:
"Area-weighted % of simple objects that are unmatched". -/
def ModeArea.asu_asa : ModeStat := .ratio [("simple_flag", 1), ("matched_flag", 0)] [("simple_flag", 1)]

/-- mode_arearat_statistics.py:138-164 calculate_arearat_fsm_fsa:
"Area-weighted % of simple forecast objects that are matched". -/
def ModeArea.fsm_fsa : ModeStat :=
  .ratio [("fcst_flag", 1), ("simple_flag", 1), ("matched_flag", 1)] [("fcst_flag", 1), ("simple_flag", 1)]

/-- mode_arearat_statistics.py:167-193 calculate_arearat_fsu_fsa:
"Area-weighted % of simple forecast objects that are unmatched". -/
def ModeArea.fsu_fsa : ModeStat :=
  .ratio [("fcst_flag", 1), ("simple_flag", 1), ("matched_flag", 0)] [("fcst_flag", 1), ("simple_flag", 1)]

/-- mode_arearat_statistics.py:196-222 calculate_arearat_osm_osa:
"Area-weighted % of simple simple observation objects that are matched". -/
def ModeArea.osm_osa : ModeStat :=
  .ratio [("fcst_flag", 0), ("simple_flag", 1), ("matched_flag", 1)] [("fcst_flag", 0), ("simple_flag", 1)]

/-- mode_arearat_statistics.py:225-252 calculate_arearat_osu_osa:
"Area-weighted % of simple simple observation objects that are unmatched". -/
def ModeArea.osu_osa : ModeStat :=
  .ratio [("fcst_flag", 0), ("simple_flag", 1), ("matched_flag", 0)] [("fcst_flag", 0), ("simple_flag", 1)]

/-- mode_arearat_statistics.py:255-281 calculate_arearat_fsm_asm:
"Area-weighted % of simple matched objects that are forecasts". -/
def ModeArea.fsm_asm : ModeStat :=
  .ratio [("fcst_flag", 1), ("simple_flag", 1), ("matched_flag", 0)] [("fcst_flag", 1), ("simple_flag", 1)]

/-- mode_arearat_statistics.py:284-310 calculate_arearat_osm_asm:
"Area-weighted % of simple matched objects that are observations". -/
def ModeArea.osm_asm : ModeStat :=
  .ratio [("fcst_flag", 0), ("simple_flag", 1), ("matched_flag", 1)]
    [("simple_flag", 1), ("matched_flag", 1)]

/-- mode_arearat_statistics.py:313-339 calculate_arearat_osu_asu:
"Area-weighted % of simple unmatched objects that are observation". -/
def ModeArea.osu_asu : ModeStat :=
  .ratio [("fcst_flag", 0), ("simple_flag", 1), ("matched_flag", 0)]
    [("simple_flag", 1), ("matched_flag", 0)]

/-- mode_arearat_statistics.py:342-366 calculate_arearat_fsa_aaa: "Area-weighted ?". -/
def ModeArea.fsa_aaa : ModeStat := .ratio [("fcst_flag", 1), ("simple_flag", 1)] []

/-- mode_arearat_statistics.py:369-393 calculate_arearat_osa_aaa: "Area-weighted ?". -/
def ModeArea.osa_aaa : ModeStat := .ratio [("fcst_flag", 0), ("simple_flag", 1)] []

/-- mode_arearat_statistics.py:396-422 calculate_arearat_fsa_faa:
"Area-weighted % of all forecast objects that are simple". -/
def ModeArea.fsa_faa : ModeStat := .ratio [("fcst_flag", 1), ("simple_flag", 1)] [("fcst_flag", 1)]

/-- mode_arearat_statistics.py:425-451 calculate_arearat_fca_faa:
"Area-weighted % of all forecast objects that are cluster". -/
def ModeArea.fca_faa : ModeStat := .ratio [("fcst_flag", 1), ("simple_flag", 0)] [("fcst_flag", 1)]

/-- mode_arearat_statistics.py:454-480 calculate_arearat_osa_oaa:
"Area-weighted % of all observation objects that are simple". -/
def ModeArea.osa_oaa : ModeStat := .ratio [("fcst_flag", 0), ("simple_flag", 1)] [("fcst_flag", 0)]

/-- mode_arearat_statistics.py:483-509 calculate_arearat_oca_oaa:
"Area-weighted % of all observation objects that are cluster". -/
def ModeArea.oca_oaa : ModeStat := .ratio [("fcst_flag", 0), ("simple_flag", 0)] [("fcst_flag", 0)]

/-- mode_arearat_statistics.py:512-538 calculate_arearat_fca_aca:
"Area-weighted % of cluster objects that are forecast". -/
def ModeArea.fca_aca : ModeStat := .ratio [("fcst_flag", 1), ("simple_flag", 0)] [("simple_flag", 0)]

/-- mode_arearat_statistics.py:541-567 calculate_arearat_oca_aca:
"Area-weighted % of cluster objects that are observation". -/
def ModeArea.oca_aca : ModeStat := .ratio [("fcst_flag", 0), ("simple_flag", 0)] [("simple_flag", 0)]

/-- mode_arearat_statistics.py:570-597 calculate_arearat_fsa_osa:
"Area Ratio of simple forecasts to simple observations [frequency bias]". -/
def ModeArea.fsa_osa : ModeStat :=
  .ratio [("fcst_flag", 1), ("simple_flag", 1)] [("fcst_flag", 0), ("simple_flag", 1)]

/-- mode_arearat_statistics.py:600-627 calculate_arearat_osa_fsa:
"Area Ratio of simple observations to simple forecasts [1 / frequency bias]". -/
def ModeArea.osa_fsa : ModeStat :=
  .ratio [("fcst_flag", 0), ("simple_flag", 1)] [("fcst_flag", 0), ("simple_flag", 1)]

/-- mode_arearat_statistics.py:630-656 calculate_arearat_aca_asa:
"Area Ratio of cluster objects to simple objects". -/
def ModeArea.aca_asa : ModeStat := .ratio [("simple_flag", 0)] [("simple_flag", 1)]

/-- mode_arearat_statistics.py:659-685 calculate_arearat_asa_aca:
"Area Ratio of simple objects to cluster objects". -/
def ModeArea.asa_aca : ModeStat := .ratio [("simple_flag", 1)] [("simple_flag", 0)]

/-- mode_arearat_statistics.py:688-714 calculate_arearat_fca_fsa:
"Area Ratio of cluster forecast objects to simple forecast objects". -/
def ModeArea.fca_fsa : ModeStat :=
  .ratio [("fcst_flag", 1), ("simple_flag", 0)] [("fcst_flag", 1), ("simple_flag", 1)]

/-- mode_arearat_statistics.py:717-743 calculate_arearat_fsa_fca:
"Area Ratio of simple forecast objects to cluster forecast objects". -/
def ModeArea.fsa_fca : ModeStat :=
  .ratio [("fcst_flag", 1), ("simple_flag", 1)] [("fcst_flag", 1), ("simple_flag", 0)]

/-- mode_arearat_statistics.py:746-773 calculate_arearat_oca_osa:
"Area Ratio of cluster observation objects to simple observation objects". -/
def ModeArea.oca_osa : ModeStat :=
  .ratio [("fcst_flag", 0), ("simple_flag", 0)] [("fcst_flag", 0), ("simple_flag", 1)]

/-- mode_arearat_statistics.py:776-803 calculate_arearat_osa_oca:
"Area Ratio of simple observation objects to cluster observation objects". -/
def ModeArea.osa_oca : ModeStat :=
  .ratio [("fcst_flag", 0), ("simple_flag", 1)] [("fcst_flag", 0), ("simple_flag", 0)]

/-- mode_arearat_statistics.py:806-830 calculate_objahits: "Area Hits =/2". -/
def ModeArea.objahits : ModeStat := .half [("simple_flag", 1), ("matched_flag", 1)]

/-- mode_arearat_statistics.py:833-856 calculate_objamisses: "Area Misses = OSU". -/
def ModeArea.objamisses : ModeStat := .plain [("fcst_flag", 0), ("simple_flag", 1), ("matched_flag", 0)]

/-- mode_arearat_statistics.py:859-882 calculate_objafas: "Area False Alarms = FSU". -/
def ModeArea.objafas : ModeStat := .plain [("fcst_flag", 1), ("simple_flag", 1), ("matched_flag", 0)]

/-- mode_arearat_statistics.py:885-918 calculate_objacsi:
"Area critical success index CSI = hits //2 + OSU + FSU]". -/
def ModeArea.objacsi : ModeStat :=
  .weighted [("simple_flag", 1), ("matched_flag", 1)]
    [("simple_flag", 1), ("matched_flag", 1)] [("simple_flag", 1), ("matched_flag", 0)]

/-- mode_arearat_statistics.py:921-954 calculate_objapody:
"Area prob of detecting yes PODY = hits //2 + OSU]". -/
def ModeArea.objapody : ModeStat :=
  .weighted [("simple_flag", 1), ("matched_flag", 1)]
    [("simple_flag", 1), ("matched_flag", 1)] [("fcst_flag", 0), ("simple_flag", 1), ("matched_flag", 0)]

/-- mode_arearat_statistics.py:957-990 calculate_objafar: "Area FAR = false alarms //2 + FSU]". -/
def ModeArea.objafar : ModeStat :=
  .weighted [("fcst_flag", 1), ("simple_flag", 1), ("matched_flag", 0)]
    [("fcst_flag", 1), ("simple_flag", 1), ("matched_flag", 0)] [("simple_flag", 1), ("matched_flag", 1)]

end Metcalcpy
