/-
metcalcpy/contributed/blocking_weather_regime/WeatherRegime.py: the file of regimes (write_K_means_file) and the reconstruction
of heights from patterns (reconstruct_heights).
-/
import Verif.Model.Strings
import Verif.Model.RegimeIO

namespace Metcalcpy

/-! ### Dates: the part of Python's datetime that is used -/

/-- A leap year of the calendar of datetime. -/
def pyIsLeap (y : ℕ) : Bool := y % 4 == 0 && (y % 100 != 0 || y % 400 == 0)

/-- datetime's `_days_before_year`. -/
def daysBeforeYr (y : ℕ) : ℕ := (y - 1) * 365 + (y - 1) / 4 - (y - 1) / 100 + (y - 1) / 400

/-- datetime's `_DAYS_IN_MONTH` with February of leap years; `m` from 1 to 12. -/
def pyMonthLength (y m : ℕ) : ℕ := if m = 2 ∧ pyIsLeap y = true then 29 else [31, 28, 31, 30, 31, 30, 31, 31, 30, 31, 30, 31].getD (m - 1) 0

/-- datetime's `_days_before_month`. -/
def daysBeforeMonth (y m : ℕ) : ℕ :=
  [0, 31, 59, 90, 120, 151, 181, 212, 243, 273, 304, 334].getD (m - 1) 0 + if 2 < m ∧ pyIsLeap y = true then 1 else 0

/-- `date.toordinal()`. -/
def ordinal (d : ℕ × ℕ × ℕ) : ℕ := daysBeforeYr d.1 + daysBeforeMonth d.1 d.2.1 + d.2.2

/-- `datetime.datetime(y, m, d, 0, 0, 0)`: refused outside the years 1 to 9999 or the months and days of the calendar. -/
def mkDate (y m d : ℤ) : Except PyErr (ℕ × ℕ × ℕ) :=
  if 1 ≤ y ∧ y ≤ 9999 ∧ 1 ≤ m ∧ m ≤ 12 ∧ 1 ≤ d ∧ d ≤ pyMonthLength y.toNat m.toNat then .ok (y.toNat, m.toNat, d.toNat)
  else .error .valueError

/-! ### write_K_means_file, 186-252 -/

/-- A file of regimes: lines of text, or time (days since `ref`), date and regime of every day. -/
inductive RegimeFile
  | text (lines : List (List Char))
  | netcdf (ref : ℕ × ℕ × ℕ) (time : List ℤ) (date : List ℤ) (regime : List ℕ)
  deriving DecidableEq, Repr

/-- 193-197: year, month and day of a valid time. -/
def stampParts (v : List Char) : List Char × List Char × List Char := (v.take 4, (v.drop 4).take 2, (v.drop 6).take 2)

/-- `int(text)`. -/
def intOf (t : List Char) : Except PyErr ℤ :=
  match pyInt? (String.ofList t) with
  | some z => .ok z
  | none => .error .valueError

/-- 209, 213: the date of a valid time. -/
def stampDate (v : List Char) : Except PyErr (ℕ × ℕ × ℕ) := do
  let p := stampParts v
  let y ← intOf p.1
  let m ← intOf p.2.1
  let d ← intOf p.2.2
  mkDate y m d

/-- `'%Ns' % text`: padded with blanks on the left, never shortened. -/
def padLeft (w : ℕ) (t : List Char) : List Char := List.replicate (w - t.length) ' ' ++ t

/-- 241-252: a line of the text file.  The regime is a float array (`wr*1.0/1.0`) turned to text: `3.0`. -/
def regimeLine (v : List Char) (r : ℕ) : List Char :=
  let p := stampParts v
  padLeft 6 p.1 ++ ' ' :: (padLeft 3 p.2.1 ++ ' ' :: (padLeft 4 p.2.2 ++ ' ' :: (padLeft 6 (Nat.toDigits 10 r ++ ['.', '0']) ++ ['\n'])))

/-- 252: the header, with the comment sign of np.savetxt. -/
def regimeHeader : List Char := "# Year Month Day WeatherRegime\n".toList

/-- 204-238: the netCDF file.  Simplification: `float(text)` of the date (215) is read as an integer. -/
def netcdfRegimes (valid : List (List Char)) (wrc : List ℕ) : Except PyErr RegimeFile :=
  match valid with
  | [] => .error .indexError
  | v :: _ => do
    let ref ← stampDate v
    let rows ← valid.mapM fun v => do
      let d ← stampDate v
      let p := stampParts v
      let n ← intOf (p.1 ++ p.2.1 ++ p.2.2)
      return ((ordinal d : ℤ) - ordinal ref, n)
    return .netcdf ref (rows.map Prod.fst) (rows.map Prod.snd) wrc

/-- WeatherRegime.py:186-252 write_K_means_file: from the present contents of the output file (none when there is no file) to
the contents afterwards and the exception, if any.  `valid` are the valid times and `wrc` the regimes, both in the order of days
(190, 198); the two output names differ by their ending only and are one file here. -/
def writeKMeans (type : String) (old : Option RegimeFile) (valid : List (List Char)) (wrc : List ℕ) :
    Option RegimeFile × Except PyErr Unit :=
  if valid.length ≠ wrc.length then (old, .error .valueError)
  else if type = "netcdf" then
    match netcdfRegimes valid wrc with
    | .ok f => (some f, .ok ())
    | .error e => (none, .error e)
  else if type = "text" then
    (some (.text (regimeHeader :: (valid.zip wrc).map fun p => regimeLine p.1 p.2)), .ok ())
  else (old, .ok ())

/-! ### reconstruct_heights, 130-140 -/

/-- WeatherRegime.py:130-140 reconstruct_heights: `matmul(pc, eofs)`; `pc` one row per day with one number per pattern, `eofs` one
row per pattern with one value per grid point.  `NUMPCS` (`npcs`) has to be the number of patterns (137) and of columns of `pc`.
`R` are the numbers. -/
def reconstructHeights {R : Type} [Field R] (npcs : ℕ) (eofs pc : List (List R)) : Except PyErr (List (List R)) :=
  if eofs.length ≠ npcs then .error .valueError
  else if pc.any fun r => r.length ≠ npcs then .error .valueError
  else .ok (pc.map fun r => (List.range (eofs.headD []).length).map fun g =>
    (((List.range npcs).map fun k => r.getD k 0 * (eofs.getD k []).getD g 0).sum))

end Metcalcpy
