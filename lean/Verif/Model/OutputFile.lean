/-
The files of results written by agg_stat.py, agg_eclv.py and scorecard.py.
-/
import Verif.Model.ScorecardRun

namespace Metcalcpy

/-- The files of a machine: path to lines, a line being the texts of its cells.
Simplification: the joining of cells by tabs and the quoting of cells are left out, as is a line broken off at the end. -/
abbrev TableDisk := String → Option (List (List String))

/-- A parameter as yaml.load gives it (agg_stat.py:1185): a quoted text, a bare true or false, or anything else. -/
inductive YamlVal
  | str (s : String)
  | bool (b : Bool)
  | other
  deriving DecidableEq, Repr

/-- `'append_to_file' in params.keys() and params['append_to_file'] == 'True'` (agg_stat.py:1169, agg_eclv.py:306,
scorecard.py:181); `none` is a missing parameter.  A bool is never equal to a text. -/
def appendMode : Option YamlVal → Bool
  | some (.str s) => s == "True"
  | _ => false

/-- `frame.to_csv(path, index=None, header=header, mode=mode)`: mode 'a' keeps the lines of the file, if there is one,
mode 'w' does not.  The cells are given as texts (na_rep and float_format are applied before).
Simplification: the file can be opened and written to. -/
def saveTable (d : TableDisk) (path : String) (header append : Bool) (cols : List String) (rows : List (List String)) : TableDisk :=
  fun p => if p = path then
    some ((if append then (d p).getD [] else []) ++ (if header then [cols] else []) ++ rows) else d p

/-- agg_stat.py:1166-1175 and agg_eclv.py:303-312: the end of calculate_stats_and_ci, which writes the frame of results. -/
def saveResults (d : TableDisk) (path : String) (a : Option YamlVal) (cols : List String) (rows : List (List String)) : TableDisk :=
  if appendMode a then saveTable d path false true cols rows else saveTable d path true false cols rows

/-- scorecard.py:73-100 and 102-186: making a Scorecard of the input frame and calculate_scorecard_data.  An empty input
writes the header of the input and raises ValueError (lines 89-97); a run without rows writes nothing (line 178).
`shown` is the text of a cell.  Simplification: rows have the columns of the first row, as they come from one input. -/
def scorecardFile (sig : List PyNum → List PyNum → Except PyErr PyNum) (shown : Val → String) (d : TableDisk) (path : String)
    (a : Option YamlVal) (f : Frame) (c : AggConfig) : Except PyErr Unit × TableDisk :=
  if f.isEmpty then (.error .valueError, saveTable d path true false f.cols [])
  else match scorecard sig f c with
    | .error e => (.error e, d)
    | .ok [] => (.ok (), d)
    | .ok (r :: rs) =>
      (.ok (), saveResults d path a (r.map Prod.fst) ((r :: rs).map (fun w => w.map (fun x => shown x.2))))

end Metcalcpy
