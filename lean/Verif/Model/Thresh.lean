/-
metcalcpy/util/ctc_statistics.py:188-233, 980-1066: ordering by threshold, ROC table.
-/
import Verif.Model.Ctc
import Mathlib.Data.List.Sort
import Mathlib.Data.String.Basic
import Mathlib.Data.Prod.Lex

namespace Metcalcpy

inductive ThrOp
  | lt | le | eq | ge | gt
  deriving DecidableEq, Repr

/-- ctc_statistics.py:1034 `wt_maps`, and 1037-1046: no operator counts as `==`. -/
def opWeight : Option ThrOp → ℕ
  | some .lt => 1
  | some .le => 2
  | some .eq => 3
  | some .ge => 4
  | some .gt => 5
  | none => 3

def isOpChar (c : Char) : Bool := c == '<' || c == '=' || c == '>'

/-- Group 1 of `(\<|\<=|\==|\>=|\>)*` when the whole of `p` must be consumed (the regular expression engine
backtracks): `none` when impossible, otherwise the operator matched by the last iteration. -/
def opsFull : List Char → Option (Option ThrOp)
  | [] => some none
  | '<' :: '=' :: r =>
    match opsFull ('=' :: r) with
    | some o => some (o.orElse (fun _ => some .lt))
    | none => match opsFull r with
      | some o => some (o.orElse (fun _ => some .le))
      | none => none
  | '<' :: r =>
    match opsFull r with
    | some o => some (o.orElse (fun _ => some .lt))
    | none => none
  | '=' :: '=' :: r =>
    match opsFull r with
    | some o => some (o.orElse (fun _ => some .eq))
    | none => none
  | '>' :: '=' :: r =>
    match opsFull r with
    | some o => some (o.orElse (fun _ => some .ge))
    | none => match opsFull ('=' :: r) with
      | some o => some (o.orElse (fun _ => some .gt))
      | none => none
  | '>' :: r =>
    match opsFull r with
    | some o => some (o.orElse (fun _ => some .gt))
    | none => none
  | _ :: _ => none

/-- `(-)*([0-9])(.)*` at the start of a string. -/
def numberStart (s : List Char) : Bool :=
  match s.dropWhile (· == '-') with
  | c :: _ => c.isDigit
  | [] => false

/-- ctc_statistics.py:1021 `re.match(r'(\<|\<=|\==|\>=|\>)*((-)*([0-9])(.)*)', thresh)`: groups 1 and 2.
Simplification: no newline in the string (`.` would stop there), only ASCII digits. -/
def matchNumber (s : List Char) : Option (Option ThrOp × List Char) :=
  let p := s.takeWhile isOpChar
  let rest := s.dropWhile isOpChar
  if numberStart rest then (opsFull p).map (fun o => (o, rest)) else none

/-- ctc_statistics.py:1022 `re.match(r'(\<|\<=|\==|\>=|\>)*((.)*)', thresh)`: always matches, the first
alternative that fits is taken and never revised. -/
def matchText (last : Option ThrOp) : List Char → Option ThrOp × List Char
  | '<' :: r => matchText (some .lt) r
  | '=' :: '=' :: r => matchText (some .eq) r
  | '>' :: '=' :: r => matchText (some .ge) r
  | '>' :: r => matchText (some .gt) r
  | s => (last, s)

/-- What one pass of the loop 1017-1031 appends: an operator, and either a number or a text. -/
inductive ThrVal
  | num (v : ℚ)
  | text (s : String)
  deriving DecidableEq, Repr

/-- ctc_statistics.py:1017-1031, one pass.  `float` is Python's conversion; `none` is its ValueError. -/
def classify (float : List Char → Option ℚ) (s : String) : Except PyErr (Option ThrOp × ThrVal) :=
  match matchNumber s.toList with
  | some (o, rest) => match float rest with
    | some v => .ok (o, .num v)
    | none => .error .valueError
  | none => let (o, r) := matchText none s.toList; .ok (o, .text (String.ofList r))

def ThrVal.num? : ThrVal → Option ℚ
  | .num v => some v
  | .text _ => none

def ThrVal.text? : ThrVal → Option String
  | .num _ => none
  | .text s => some s

/-- Stable sort by value, then weight; descending: both reversed.  (pandas sorts by several columns with a
stable sort.) -/
def sortKeyed {κ α : Type} [LinearOrder κ] (ascending : Bool) (l : List ((κ × ℕ) × α)) : List ((κ × ℕ) × α) :=
  if ascending then l.insertionSort (fun a b => toLex a.1 ≤ toLex b.1)
  else l.insertionSort (fun a b => toLex b.1 ≤ toLex a.1)

/-- metcalcpy/util/ctc_statistics.py:980-1066 sort_by_thresh.  A frame is a list of rows, each with its
threshold and the rest `α`.  Numbers and texts go to separate lists; the list of the kind of the last row is
attached as a column, so a mixture raises ValueError; an empty frame leaves `match` unbound. -/
def sortByThresh {α : Type} (float : List Char → Option ℚ) (ascending : Bool) (rows : List (String × α)) :
    Except PyErr (List (String × α)) := do
  let cls ← rows.mapM (fun r => classify float r.1)
  match cls.getLast? with
  | none => .error .unboundLocalError
  | some (_, .num _) =>
    let vals := cls.filterMap (fun c => c.2.num?)
    if vals.length ≠ rows.length then .error .valueError
    else
      let keyed := (vals.zip (cls.map (fun c => opWeight c.1))).zip rows
      .ok ((sortKeyed ascending keyed).map Prod.snd)
  | some (_, .text _) =>
    let vals := cls.filterMap (fun c => c.2.text?)
    if vals.length ≠ rows.length then .error .valueError
    else
      let keyed := (vals.zip (cls.map (fun c => opWeight c.1))).zip rows
      .ok ((sortKeyed ascending keyed).map Prod.snd)

/-- One line of the ROC table. -/
structure RocRow where
  thresh : String
  pody : Option ℚ
  pofd : Option ℚ
  deriving DecidableEq, Repr

/-- metcalcpy/util/ctc_statistics.py:188-233 calculate_ctc_roc: `np.sort(np.unique(...))` of the threshold
strings (212), reversed if not ascending (217-218). -/
def ctcRoc (float : List Char → Option ℚ) (cols : List String) (ascending : Bool)
    (rows : List (String × List Cell)) : Except PyErr (List RocRow) := do
  let sorted ← sortByThresh float ascending rows
  let ts := ((sorted.map Prod.fst).dedup).insertionSort (· ≤ ·)
  let ts := if ascending then ts else ts.reverse
  .ok (ts.map (fun th =>
    let sub : Table := ⟨cols, (sorted.filter (fun r => r.1 == th)).map Prod.snd⟩
    ⟨th, ctcPody sub, ctcPofd sub⟩))

end Metcalcpy
