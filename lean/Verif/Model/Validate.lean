/-
metcalcpy/validate_mv_python.py:45-54, 182-236
-/
import Verif.Model.Base
import Verif.Model.Strings
import Mathlib.Data.List.Sort
import Mathlib.Data.String.Basic

namespace Metcalcpy

/-- `old_name.replace(".", "_" + postfix + ".")` on characters. -/
def replaceNameChars (old post : List Char) : List Char :=
  old.flatMap (fun c => if c = '.' then '_' :: (post ++ ['.']) else [c])

/-- metcalcpy/validate_mv_python.py:45-54 replace_name. -/
def replaceName (old post : String) : String := String.ofList (replaceNameChars old.toList post.toList)

/-- A calendar date. -/
structure Date where
  year : ℕ
  month : ℕ
  day : ℕ
  deriving DecidableEq, Repr

/-- Comparison of `datetime.date` objects: `a <= b`. -/
def Date.le (a b : Date) : Bool :=
  decide (a.year < b.year ∨ (a.year = b.year ∧ (a.month < b.month ∨ (a.month = b.month ∧ a.day ≤ b.day))))

/-- Comparison of `datetime.date` objects: `a < b`. -/
def Date.lt (a b : Date) : Bool :=
  decide (a.year < b.year ∨ (a.year = b.year ∧ (a.month < b.month ∨ (a.month = b.month ∧ a.day < b.day))))

/-- Leap years of `datetime` (proleptic Gregorian calendar). -/
def isLeap (y : ℕ) : Bool := y % 4 = 0 && (y % 100 != 0 || y % 400 = 0)

/-- Days of a month of `datetime`. -/
def daysInMonth (y m : ℕ) : ℕ :=
  if m = 2 then (if isLeap y then 29 else 28)
  else if m = 4 ∨ m = 6 ∨ m = 9 ∨ m = 11 then 30 else 31

/-- `datetime.date(y, m, d)` is defined. -/
def Date.valid (t : Date) : Bool :=
  decide (1 ≤ t.year ∧ t.year ≤ 9999 ∧ 1 ≤ t.month ∧ t.month ≤ 12 ∧ 1 ≤ t.day ∧ t.day ≤ daysInMonth t.year t.month)

/-- `(now - timedelta(1)).date()`; before year 1 an OverflowError. -/
def Date.prev (t : Date) : Except PyErr Date :=
  if 1 < t.day then .ok { t with day := t.day - 1 }
  else if 1 < t.month then .ok ⟨t.year, t.month - 1, daysInMonth t.year (t.month - 1)⟩
  else if 1 < t.year then .ok ⟨t.year - 1, 12, 31⟩
  else .error .overflowError

/-- The regular expression of `%m`: `1[0-2]|0[1-9]|[1-9]` followed by `-`. -/
def parseMonthDash : List Char → Option (ℕ × List Char)
  | '1' :: c :: '-' :: r => if c = '0' ∨ c = '1' ∨ c = '2' then some (10 + digitVal c, r) else none
  | '0' :: c :: '-' :: r => if c.isDigit ∧ c ≠ '0' then some (digitVal c, r) else none
  | c :: '-' :: r => if c.isDigit ∧ c ≠ '0' then some (digitVal c, r) else none
  | _ => none

/-- The regular expression of `%d`: `3[0-1]|[1-2]\d|0[1-9]|[1-9]| [1-9]`, and nothing behind it. -/
def parseDayEnd : List Char → Option ℕ
  | [a, b] =>
    if a = '3' then (if b = '0' ∨ b = '1' then some (30 + digitVal b) else none)
    else if a = '1' ∨ a = '2' then (if b.isDigit then some (10 * digitVal a + digitVal b) else none)
    else if a = '0' ∨ a = ' ' then (if b.isDigit ∧ b ≠ '0' then some (digitVal b) else none)
    else none
  | [a] => if a.isDigit ∧ a ≠ '0' then some (digitVal a) else none
  | _ => none

/-- `datetime.strptime(s, '%Y-%m-%d').date()` (Python standard library); every mismatch is a ValueError.
Simplification: only ASCII digits are digits. -/
def strpDate (s : List Char) : Except PyErr Date :=
  match s with
  | a :: b :: c :: d :: '-' :: r =>
    if a.isDigit ∧ b.isDigit ∧ c.isDigit ∧ d.isDigit then
      match parseMonthDash r with
      | none => .error .valueError
      | some (m, r') =>
        match parseDayEnd r' with
        | none => .error .valueError
        | some day =>
          let t : Date := ⟨1000 * digitVal a + 100 * digitVal b + 10 * digitVal c + digitVal d, m, day⟩
          if t.valid then .ok t else .error .valueError
    else .error .valueError
  | _ => .error .valueError

/-- metcalcpy/validate_mv_python.py:221-231: the date of the parameter if it is present, else a default. -/
def dateOr (param : Option String) (default : Except PyErr Date) : Except PyErr Date :=
  match param with
  | some t => strpDate t.toList
  | none => default

/-- metcalcpy/validate_mv_python.py:209-236 get_testing_period.  The optional arguments are the texts of
'start_date' and 'end_date'; `now₁` and `now₂` are the dates of the two readings of the clock. -/
def getTestingPeriod (startDate endDate : Option String) (now₁ now₂ : Date) : Except PyErr (Date × Date) := do
  let s ← dateOr startDate now₁.prev
  let e ← dateOr endDate (.ok now₂)
  if e.lt s then .error .keyError else .ok (s, e)

/-- `os.path.splitext(file)[1]` (Python standard library, posix) for a file name without a slash: everything
from the last dot, unless only dots precede it. -/
def extensionOf (file : List Char) : List Char :=
  if '.' ∈ file then
    let ext := (file.reverse.takeWhile (· != '.')).reverse
    let stem := file.take (file.length - ext.length - 1)
    if stem.any (· != '.') then '.' :: ext else []
  else []

/-- metcalcpy/validate_mv_python.py:182-206 get_test_xml.  A file of the directory is its name and its
modification date; `dir` is the text of 'input_xml_dir'. -/
def getTestXml (dir : String) (files : List (String × Date)) (startDate endDate : Option String) (now₁ now₂ : Date) :
    Except PyErr (List String) := do
  let (s, e) ← getTestingPeriod startDate endDate now₁ now₂
  let fresh := files.filter (fun f => s.le f.2 && f.2.le e && decide (extensionOf f.1.toList = ".xml".toList))
  .ok ((fresh.map (fun f => dir ++ f.1)).insertionSort (· ≤ ·))

end Metcalcpy
