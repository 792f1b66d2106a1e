/-
metcalcpy/event_equalize.py and metcalcpy/event_equalize_against_values.py
-/
import Verif.Model.Frame

namespace Metcalcpy

/-- metcalcpy/event_equalize.py:53 exception_columns. -/
def exceptionColumns : List String :=
  ["", "fcst_valid_beg", "fcst_lead", "fcst_valid", "fcst_init", "fcst_init_beg", "VALID", "LEAD"]

/-- `d[key] = v` on an insertion-ordered dictionary. -/
def dictSet {β : Type*} (d : List (String × β)) (key : String) (v : β) : List (String × β) :=
  if d.any (fun p => p.1 == key) then d.map (fun p => if p.1 == key then (key, v) else p)
  else d ++ [(key, v)]

/-- metcalcpy/event_equalize.py:75-88: series variables and their ungrouped values. -/
def seriesVarsForEE (seriesVarVals : List (String × List String)) : List (String × List String) :=
  seriesVarVals.foldl (fun d p =>
    if p.1 ∈ exceptionColumns then d else dictSet d p.1 (p.2.flatMap ungroup)) []

/-- metcalcpy/event_equalize.py:91-97: add the fixed variables; `fix_vals_permuted[i]` raises an
IndexError when it has no entry for a variable that is not an exception column. -/
def addFixVars : List (String × List String) → List String → List (List String) →
    Except PyErr (List (String × List String))
  | d, [], _ => .ok d
  | d, v :: vs, vals =>
    if v ∈ exceptionColumns then addFixVars d vs vals.tail
    else match vals with
      | [] => .error .indexError
      | w :: ws => addFixVars (dictSet d v w) vs ws

/-- `itertools.product(*lists)`. -/
def product {α : Type*} : List (List α) → List (List α)
  | [] => [[]]
  | l :: ls => l.flatMap (fun a => (product ls).map (fun p => a :: p))

/-- metcalcpy/event_equalize.py:109-118: does a cell match one value of a permutation? -/
def cellMatches (v : Val) (p : String) : Bool :=
  match pyInt? p with
  | some z => match v with
    | .num q _ => q == (z : ℚ)
    | _ => false
  | none =>
    if p = "NA" then v == .null
    else v == .str p

/-- metcalcpy/event_equalize.py:107-118: rows selected by one permutation; an unknown variable is a
KeyError (even when no row is left). -/
def selectPermutation (f : Frame) : List (String × String) → List (List Val) →
    Except PyErr (List (List Val))
  | [], rows => .ok rows
  | (var, val) :: rest, rows =>
    match f.idx? var with
    | none => .error .keyError
    | some i => selectPermutation f rest (rows.filter (fun r => cellMatches (cellAt r i) val))

/-- metcalcpy/event_equalize.py:103-148: the list of common cases.  `k` is the position of the key
column. -/
def equalizationCases (f : Frame) (k : ℕ) (vars : List String) :
    List (List String) → Except PyErr (List String)
  | [] => .ok []
  | p :: ps => do
    let first ← selectPermutation f (vars.zip p) f.rows
    ps.foldlM (fun cases q => do
      let rows ← selectPermutation f (vars.zip q) f.rows
      let keys := rows.map (fun r => (cellAt r k).text)
      return cases.filter (fun c => decide (c ∈ keys)))
      (first.map (fun r => (cellAt r k).text))

/-- metcalcpy/event_equalize.py:57-70: the frame with its key column.
Simplification: the key cells are strings. -/
def addKeyColumn (f : Frame) (indyVar : String) (byIndep : Bool) : Except PyErr Frame := do
  let f₁ ← (if "equalize" ∈ f.cols then .ok f
    else if "fcst_valid_beg" ∈ f.cols then do
      let v ← f.col "fcst_valid_beg"
      let l ← f.col "fcst_lead"
      .ok (f.setCol "equalize" (fun r => .str ((cellAt r v).text ++ " " ++ (cellAt r l).text)))
    else if "fcst_valid" ∈ f.cols then do
      let v ← f.col "fcst_valid"
      let l ← f.col "fcst_lead"
      .ok (f.setCol "equalize" (fun r => .str ((cellAt r v).text ++ " " ++ (cellAt r l).text)))
    else .ok f)
  if byIndep ∧ indyVar ∉ exceptionColumns then do
    let k ← f₁.col "equalize"
    let i ← f₁.col indyVar
    .ok (f₁.setCol "equalize" (fun r => .str ((cellAt r k).text ++ " " ++ (cellAt r i).text)))
  else .ok f₁

/-- metcalcpy/event_equalize.py:26-160 event_equalize.  Returns the caller's frame after the call
(which has gained the key column) and the equalized frame.  Printed warnings (and hence `multi`) are
not modelled. -/
def eventEqualize (f : Frame) (indyVar : String) (seriesVarVals : List (String × List String))
    (fixVars : List String) (fixVals : List (List String)) (byIndep : Bool) :
    Except PyErr (Frame × Frame) := do
  let f' ← addKeyColumn f indyVar byIndep
  let vars ← addFixVars (seriesVarsForEE seriesVarVals) fixVars fixVals
  let k ← f'.col "equalize"
  let cases ← equalizationCases f' k (vars.map Prod.fst) (product (vars.map Prod.snd))
  return (f', f'.filterRows (fun r => decide ((cellAt r k).text ∈ cases)))

/-- `frame.drop([name], axis=1)` for the last column. -/
def Frame.dropLast (f : Frame) : Frame :=
  { cols := f.cols.dropLast, rows := f.rows.map List.dropLast }

/-- metcalcpy/event_equalize_against_values.py:21-67.  Returns the caller's frame after the call and the
result. `series_data.insert` raises a ValueError when the column 'equalize' already exists. -/
def eventEqualizeAgainstValues (f : Frame) (cases : List String) : Except PyErr (Frame × Frame) :=
  match f.idx? "fcst_valid" with
  | none => .ok (f, { cols := [], rows := [] })
  | some v =>
    match f.idx? "fcst_lead" with
    | none => .error .keyError
    | some l =>
      if "equalize" ∈ f.cols then .error .valueError
      else
        let key := fun r : List Val => (cellAt r v).text ++ " " ++ (cellAt r l).text
        let f' := f.setCol "equalize" (fun r => .str (key r))
        let kept := f'.filterRows (fun r => decide ((cellAt r f.cols.length).text ∈ cases))
        if kept.rows.length = 0 then .ok (f', { cols := [], rows := [] })
        else .ok (f', kept.dropLast)

end Metcalcpy
