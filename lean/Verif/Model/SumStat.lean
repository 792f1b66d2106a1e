/-
metcalcpy/sum_stat.py: statistics of every row of a table.
-/
import Verif.Model.AggregateField
import Verif.Model.AggPoints

namespace Metcalcpy

/-- The parameters sum_stat.py:124-243 reads (`none`: the parameter is missing).
Simplification: no entry of `indy_vals` is None. -/
structure SumConfig where
  lineType : String
  indyVar : String
  indyVals : List String
  series1 : Option (List (String × List String))
  series2 : Option (List (String × List String))
  deriving DecidableEq, Repr

/-- sum_stat.py:107-122 STATISTIC_TO_FIELDS. -/
def sumFields : List (String × List String) :=
  [("ctc", ["total", "fy_oy", "fy_on", "fn_oy", "fn_on"]),
   ("sl1l2", ["total", "fbar", "obar", "fobar", "ffbar", "oobar"]),
   ("grad", ["total", "fgbar", "ogbar", "mgbar", "egbar"]),
   ("sal1l2", ["total", "fbar", "obar", "fobar", "ffbar", "oobar"]),
   ("vl1l2", ["total", "ufbar", "vfbar", "uobar", "vobar", "uvfobar", "uvffbar", "uvoobar", "f_speed_bar",
     "o_speed_bar"]),
   ("val1l2", ["total", "ufabar", "vfabar", "uoabar", "voabar", "uvfoabar", "uvffabar", "uvooabar"]),
   ("pct", ["total", "oy_i", "on_i", "thresh_i"]),
   ("nbrcnt", ["total", "fbs", "fss", "afss", "ufss", "f_rate", "o_rate"]),
   ("ecnt", ["total", "rmse", "rmse_oerr", "crps"]),
   ("nbrctc", ["total", "fy_oy", "fy_on", "fn_oy", "fn_on"]),
   ("rps", ["total", "rpss", "rps", "rps_comp"])]

/-- sum_stat.py:133-140: the names of anomaly columns that are changed for sal1l2. -/
def sumRename (lineType : String) (c : String) : String :=
  if lineType = "sal1l2" then
    match c with
    | "fabar" => "fbar"
    | "oabar" => "obar"
    | "foabar" => "fobar"
    | "ffabar" => "ffbar"
    | "ooabar" => "oobar"
    | c => c
  else c

/-- `GROUP_SEPARATOR in i` for some character `i` of the text. -/
def hasColon (s : String) : Bool := s.toList.contains ':'

/-- sum_stat.py:188-193: is there a value to aggregate?  The iteration over `indy_vals` looks at the characters of each
value, the one over the series at the characters of each variable name. -/
def sumAggregates (c : SumConfig) (series : List (String × List String)) : Bool :=
  !series.isEmpty && (c.indyVals.any hasColon || series.any (fun p => hasColon p.1))

/-- sum_stat.py:214-223: the values a requested text stands for. -/
def sumParts (v : String) : List String :=
  if hasSemi v then semiParts v else (splitAt1 ':' v.toList).map String.ofList

/-- sum_stat.py:211-225: the rows of a point. -/
def sumPointRows (cols : List String) (vars : List String) (point : List String) (rows : List (ℕ × List Val)) :
    Except PyErr (List (ℕ × List Val)) :=
  (vars.zip point).foldlM (fun rows q => do
    let i ← (⟨cols, []⟩ : Frame).col q.1
    .ok (rows.filter (fun r => (sumParts q.2).any (partMatches (cellAt r.2 i))))) rows

/-- sum_stat.py:181-243 aggregate_special_fields.  The dictionary of the series is changed when an independent value is
aggregated (234-235); the accumulator is (that dictionary, collected rows).  Without any point the frame loses its
columns. -/
def aggregateSpecial (c : SumConfig) (series : List (String × List String)) (f : IFrame) : Except PyErr IFrame :=
  if sumAggregates c series then do
    let points := product (series.map Prod.snd)
    let st ← c.indyVals.foldlM (fun (st : List (String × List String) × List (List Val)) indy => do
      let i ← f.col c.indyVar
      let byIndy := f.rows.filter (fun r => isinTexts (cellAt r.2 i) (semiParts indy))
      points.foldlM (fun (st : List (String × List String) × List (List Val)) point => do
        let rows ← sumPointRows f.cols (series.map Prod.fst) point byIndy
        if point.any hasSemi then
          let g ← aggregateFieldValues c.lineType st.1 ⟨f.cols, rows⟩
          .ok (st.1, st.2 ++ g.rows.map Prod.snd)
        else if hasSemi indy then
          let series' := dictSet st.1 c.indyVar [indy]
          let g ← aggregateFieldValues c.lineType series' ⟨f.cols, rows⟩
          .ok (series', st.2 ++ g.rows.map Prod.snd)
        else .ok (st.1, st.2 ++ rows.map Prod.snd)) st) (series, [])
    .ok ⟨if c.indyVals.isEmpty || points.isEmpty then [] else f.cols,
      st.2.zipIdx.map (fun p => (p.2, p.1))⟩
  else .ok f

/-- `frame.at[label, 'stat_value'] = value` on a frame that has the column: every row with the label is changed. -/
def setAt (i label : ℕ) (v : Val) (rows : List (ℕ × List Val)) : List (ℕ × List Val) :=
  rows.map (fun r => if r.1 == label then (r.1, r.2.set i v) else r)

/-- The frame with a column `stat_value`, which the first assignment creates (missing elsewhere). -/
def withStatValue (f : IFrame) : IFrame :=
  match f.frame.idx? "stat_value" with
  | some _ => f
  | none => ⟨f.cols ++ ["stat_value"], f.rows.map (fun r => (r.1, r.2 ++ [Val.null]))⟩

/-- sum_stat.py:245-260 process_rows, one row: its statistic and value.  `statOf` is calculate_statistic
(`globals()[..]` is a KeyError for an unknown statistic). -/
def rowValue (statOf : String → List Val → Except PyErr Cell) (cols : List String) (r : List Val) : Except PyErr Cell := do
  let k ← (⟨cols, []⟩ : Frame).col "stat_name"
  match cellAt r k with
  | .str s => statOf (lower s) r
  | _ => .error .attributeError

/-- sum_stat.py:250-260, the loop over the rows of the frame as it was at the start: the changed frame, and the error that
ended the loop.  -/
def processLoop (statOf : String → List Val → Except PyErr Cell) (cols : List String) :
    List (ℕ × List Val) → IFrame → IFrame × Option PyErr
  | [], f => (f, none)
  | r :: rs, f =>
    match rowValue statOf cols r.2 with
    | .error e => (f, some e)
    | .ok v =>
      let g := withStatValue f
      processLoop statOf cols rs ⟨g.cols, setAt (g.cols.idxOf "stat_value") r.1 (numVal v) g.rows⟩

/-- sum_stat.py:245-260 process_rows. -/
def processRows (statOf : String → List Val → Except PyErr Cell) (f : IFrame) : IFrame × Option PyErr :=
  processLoop statOf f.cols f.rows f

/-- sum_stat.py:152-160: the aggregation for both axes and the statistics, with the error that ended it. -/
def sumSteps (statOf : String → List Val → Except PyErr Cell) (c : SumConfig) (f : IFrame) : IFrame × Option PyErr :=
  if f.rows.isEmpty then (f, none)
  else match c.series1 with
    | none => (f, some .keyError)
    | some s1 => match aggregateSpecial c s1 f with
      | .error e => (f, some e)
      | .ok f1 => match c.series2 with
        | none => (f1, some .keyError)
        | some s2 => match aggregateSpecial c s2 f1 with
          | .error e => (f1, some e)
          | .ok f2 => processRows statOf f2

/-- `frame.drop(name, axis=1)`; KeyError for a missing column.  Simplification: column names are distinct. -/
def dropColumn (f : Frame) (name : String) : Except PyErr Frame :=
  match f.idx? name with
  | none => .error .keyError
  | some i => .ok ⟨f.cols.eraseIdx i, f.rows.map (fun r => r.eraseIdx i)⟩

/-- sum_stat.py:124-179 calculate_stats without event equalization: the table written.  A KeyError in the steps is
logged, and the frame as it is then is written.  Simplification: the set of fields is removed in the order listed. -/
def sumStat (statOf : String → List Val → Except PyErr Cell) (c : SumConfig) (f : IFrame) : Except PyErr Frame :=
  match sumFields.lookup c.lineType with
  | none => (if "equalize" ∈ f.cols then dropColumn f.frame "equalize" else .ok f.frame)
  | some fields => do
    let f0 : IFrame := ⟨f.cols.map (sumRename c.lineType), f.rows⟩
    let out ← match sumSteps statOf c f0 with
      | (g, none) => .ok g
      | (g, some .keyError) => .ok g
      | (_, some e) => .error e
    let g ← fields.foldlM (fun g name => if name ∈ f0.cols then dropColumn g name else .ok g) out.frame
    if "equalize" ∈ g.cols then dropColumn g "equalize" else .ok g

end Metcalcpy
