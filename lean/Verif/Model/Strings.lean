/-
String tests of metcalcpy/util/utils.py and metcalcpy/event_equalize.py, on character lists.
Simplification: only ASCII digits and the usual blank characters count as digits / white space.
-/
import Mathlib.Data.Int.Basic
import Mathlib.Data.List.Basic

namespace Metcalcpy

/-- Characters removed by `str.strip()` inside `int(...)`. -/
def isBlank (c : Char) : Bool := c == ' ' || c == '\t' || c == '\n' || c == '\r'

def stripBlank (cs : List Char) : List Char :=
  ((cs.dropWhile isBlank).reverse.dropWhile isBlank).reverse

def digitVal (c : Char) : ℕ := c.toNat - '0'.toNat

/-- Digits after the first one; a single underscore may stand between two digits. -/
def parseDigits (acc : ℕ) : List Char → Option ℕ
  | [] => some acc
  | c :: cs =>
    if c.isDigit then parseDigits (acc * 10 + digitVal c) cs
    else if c == '_' then
      match cs with
      | [] => none
      | d :: ds => if d.isDigit then parseDigits (acc * 10 + digitVal d) ds else none
    else none

/-- An unsigned literal: one digit, then more digits. -/
def parseNat (cs : List Char) : Option ℕ :=
  match cs with
  | [] => none
  | c :: cs => if c.isDigit then parseDigits (digitVal c) cs else none

/-- Python's `int(s)` for a string (base 10): surrounding blanks, one sign, digits. `none` is the
ValueError. -/
def pyInt? (s : String) : Option ℤ :=
  match stripBlank s.toList with
  | '-' :: cs => (parseNat cs).map (fun n : ℕ => -(n : ℤ))
  | '+' :: cs => (parseNat cs).map (fun n : ℕ => (n : ℤ))
  | cs => (parseNat cs).map (fun n : ℕ => (n : ℤ))

/-- metcalcpy/util/utils.py:82-96 and metcalcpy/event_equalize.py:163-177 is_string_integer
(string argument). -/
def isStringInteger (s : String) : Bool := (pyInt? s).isSome

/-- `s.replace('.', '', 1)`: removes the first dot. -/
def removeFirstDot : List Char → List Char
  | [] => []
  | c :: cs => if c == '.' then cs else c :: removeFirstDot cs

/-- metcalcpy/util/utils.py:99-113 is_string_strictly_float (`none` is Python's None). -/
def isStringStrictlyFloat (s : Option String) : Bool :=
  match s with
  | none => false
  | some s =>
    let cs := match s.toList with
      | '-' :: cs => cs
      | cs => cs
    let rest := removeFirstDot cs
    cs.contains '.' && (!rest.isEmpty && rest.all Char.isDigit)

/-- `series_val.split(':')` on character lists (GROUP_SEPARATOR, metcalcpy/__init__.py:12). -/
def splitColon : List Char → List (List Char)
  | [] => [[]]
  | c :: cs =>
    match splitColon cs with
    | [] => [[c]]          -- unreachable: splitColon never returns []
    | w :: ws => if c == ':' then [] :: w :: ws else (c :: w) :: ws

/-- Does the list start with a match of DATE_TIME_REGEX
`\d{4}-\d{2}-\d{2}\s\d{2}:\d{2}:\d{2}` (metcalcpy/__init__.py:13)? -/
def startsWithDateTime (cs : List Char) : Bool :=
  match cs.take 19 with
  | [y1, y2, y3, y4, s1, m1, m2, s2, d1, d2, b, h1, h2, c1, n1, n2, c2, e1, e2] =>
    [y1, y2, y3, y4, m1, m2, d1, d2, h1, h2, n1, n2, e1, e2].all Char.isDigit &&
      s1 == '-' && s2 == '-' && isBlank b && c1 == ':' && c2 == ':'
  | _ => false

/-- `re.findall(DATE_TIME_REGEX, s)`: leftmost non-overlapping matches.  The first argument is the
number of characters still belonging to the previous match. -/
def findDateTimes : ℕ → List Char → List String
  | _, [] => []
  | 0, c :: cs =>
    if startsWithDateTime (c :: cs) then
      String.ofList ((c :: cs).take 19) :: findDateTimes 18 cs
    else findDateTimes 0 cs
  | k + 1, _ :: cs => findDateTimes k cs

/-- metcalcpy/event_equalize.py:83-86: the actual values of one (possibly grouped) series value. -/
def ungroup (s : String) : List String :=
  let dates := findDateTimes 0 s.toList
  if dates.length = 0 then (splitColon s.toList).map String.ofList else dates

end Metcalcpy
