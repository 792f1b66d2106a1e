/-
metcalcpy/agg_stat_eqz.py (event equalization of MODE/MTD attribute statistics against stored cases) and
metcalcpy/agg_stat_event_equalize.py (event equalization of such statistics).
-/
import Verif.Model.EqualizeAxis

namespace Metcalcpy

/-- agg_stat_eqz.py:114-117, agg_stat_event_equalize.py:128-131: every listed value split at ':'. -/
def plainUngroup (vals : List String) : List String :=
  vals.flatMap fun v => (splitColon v.toList).map String.ofList

/-- agg_stat_eqz.py:119-129: rows of a forecast variable with one of the listed values of a series variable; an unknown
column is a KeyError. -/
def eqzFilter (f : Frame) (fcstVar : String) (sv : String × List String) : Except PyErr Frame := do
  let i ← f.col "fcst_var"
  let j ← f.col sv.1
  return f.filterRows fun r => isinTexts (cellAt r i) [fcstVar] && isinTexts (cellAt r j) (plainUngroup sv.2)

/-- agg_stat_eqz.py:111-143: one forecast variable and one series variable. -/
def eqzStep (f prev : Frame) (out : Frame) (p : String × (String × List String)) : Except PyErr Frame := do
  let data ← eqzFilter f p.1 p.2
  let stored ← eqzFilter prev p.1 p.2
  let k ← stored.col "equalize"
  let (_, ee) ← eventEqualizeAgainstValues data (stored.rows.map fun r => (cellAt r k).text)
  return out.appendOrReplace ee

/-- agg_stat_eqz.py:103-144 perform_ee_on_axis. -/
def eqzAxis (f prev : Frame) (fcstVars : List String) (series : List (String × List String)) : Except PyErr Frame :=
  (fcstVars ×ˢ series).foldlM (eqzStep f prev) { cols := [], rows := [] }

/-- `pd.concat([a, b])` of frames with the same columns, either of which may be the empty frame. -/
def concatFrames (a b : Frame) : Frame :=
  { cols := if a.cols = [] then b.cols else a.cols, rows := a.rows ++ b.rows }

/-- agg_stat_eqz.py:72-101 calculate_values: the frame written to the output file. -/
def aggStatEqz (f prev : Frame) (eventEqual : Bool) (fcst₁ fcst₂ : List String) (s₁ s₂ : List (String × List String)) :
    Except PyErr Frame := do
  if !f.isEmpty && eventEqual then
    let o₁ ← eqzAxis f prev fcst₁ s₁
    if s₂ ≠ [] then
      let o₂ ← eqzAxis f prev fcst₂ s₂
      return concatFrames o₁ o₂
    else return o₁
  else return f

/-- agg_stat_event_equalize.py:119-151 run_ee_on_axis.  `fixVars` are the names of the fixed variables and `fixVals`
their permuted values (lines 76-85). -/
def aggEqualizeAxis (f : Frame) (indy : String) (series : List (String × List String)) (fixVars : List String)
    (fixVals : List (List String)) : Except PyErr Frame :=
  series.foldlM (fun out sv => do
    let j ← f.col sv.1
    let (_, ee) ← eventEqualize (f.filterRows fun r => isinTexts (cellAt r j) (plainUngroup sv.2)) indy series fixVars
      fixVals true
    return out.appendOrReplace ee) { cols := [], rows := [] }

/-- `frame.drop('equalize', axis=1)`: a KeyError without the column. -/
def Frame.dropKey (f : Frame) : Except PyErr Frame :=
  if "equalize" ∈ f.cols then .ok (f.dropCol "equalize") else .error .keyError

/-- agg_stat_event_equalize.py:70-117 calculate_values: the frame written to the output file.  Lines 100-102 list the values
of the second axis twice and not those of the first.  `np.unique` also sorts, which does not matter. -/
def aggStatEqualize (f : Frame) (indy : String) (s₁ s₂ : List (String × List String)) (fixVars : List String)
    (fixVals : List (List String)) : Except PyErr Frame := do
  if f.isEmpty then return { cols := [], rows := [] }
  else
    let o₁ ← aggEqualizeAxis f indy s₁ fixVars fixVals
    if s₂ ≠ [] then
      let o₂ ← aggEqualizeAxis f indy s₂ fixVars fixVals
      let a ← o₁.dropKey
      let b ← o₂.dropKey
      let all := s₂.map fun p => (p.1, (p.2 ++ p.2).dedup)
      let (_, ee) ← eventEqualize (concatFrames a b) indy all fixVars fixVals true
      return ee
    else return o₁

end Metcalcpy
