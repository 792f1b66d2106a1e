/-
metcalcpy/contributed/blocking_weather_regime: reading the seasons (read_nc_met), the central blocking latitude (run_CBL) and
instantaneous blocking of all seasons (run_Calc_IBL).
-/
import Verif.Model.Blocking
import Mathlib.Analysis.SpecialFunctions.Trigonometric.Basic
import Mathlib.Analysis.Real.Sqrt

namespace Metcalcpy

/-! ### read_nc_met, Blocking_WeatherRegime_util.py:77-128 -/

/-- The contents of an input file that are used: the coordinates and the field, one row per latitude. -/
structure MetFile where
  lats : List ℚ
  lons : List ℚ
  field : List (List Cell)

/-- The numbers of read_nc_met: seasons, days of a season, latitudes, longitudes, with the coordinates. -/
structure Seasons where
  days : List (List (List (List Cell)))
  lats : List ℚ
  lons : List ℚ

/-- Blocking_WeatherRegime_util.py:109-119: the field of one file on a grid of `a` by `b` points; a file given as `missing`
(`none`) is filled with NaN (109, 113).  Simplification: a field of another shape is refused (numpy would repeat a field with
one latitude or longitude). -/
def fileField (a b : ℕ) : Option MetFile → Except PyErr (List (List Cell))
  | none => .ok (List.replicate a (List.replicate b none))
  | some f => if f.field.length = a ∧ ∀ r ∈ f.field, r.length = b then .ok f.field else .error .valueError

/-- Blocking_WeatherRegime_util.py:77-128 read_nc_met: `none` stands for the file name `missing`.  With no file at all an
Exception is raised (82-83, here valueError); the coordinates are those of the first file (86-91); `np.reshape` (121) wants as
many files as days of all seasons.  The times (98-117, 124-126) are in Verif/Model/RegimeIO.lean.  Simplification: no masked values; the numbers of
coordinates of the first file are those of its field. -/
def readNcMet (files : List (Option MetFile)) (nseasons dseasons : ℕ) : Except PyErr Seasons :=
  match files.reduceOption with
  | [] => .error .valueError
  | f :: _ => do
    let fields ← files.mapM (fileField f.lats.length f.lons.length)
    if files.length = nseasons * dseasons then
      return ⟨(List.range nseasons).map fun s => (fields.drop (s * dseasons)).take dseasons, f.lats, f.lons⟩
    else .error .valueError

/-! ### run_CBL, Blocking.py:46-76 -/

/-- `np.nanvar` of some values: missing ones are left out, NaN for none. -/
def nanVar (xs : List Cell) : Cell :=
  let ys := xs.reduceOption
  if ys.length = 0 then none
  else some ((ys.map fun y => (y - ys.sum / ys.length) ^ 2).sum / ys.length)

/-- Blocking.py:51-55: the weight of a latitude, `sqrt(cos(lat))`. -/
noncomputable def latWeight (lat : ℚ) : ℝ := Real.sqrt (Real.cos ((lat : ℝ) * Real.pi / 180))

/-- Blocking.py:60-61 at one season and grid point: the standard deviation over the days (the square root of `nanVar`) times
the weight of the latitude. -/
noncomputable def weightedStd (lat : ℚ) (xs : List Cell) : Option ℝ :=
  (nanVar xs).map fun v : ℚ => Real.sqrt (v : ℝ) * latWeight lat

/-- The position of the first largest number. -/
noncomputable def firstMax : List ℝ → ℕ
  | [] => 0
  | [_] => 0
  | x :: y :: ys => if x < (y :: ys).getD (firstMax (y :: ys)) 0 then firstMax (y :: ys) + 1 else 0

/-- `np.argmax` along an axis: NaN counts as largest, the first position is taken, an empty axis is refused. -/
noncomputable def npArgmax (xs : List (Option ℝ)) : Except PyErr ℕ :=
  if xs.length = 0 then .error .valueError
  else match xs.findIdx? (·.isNone) with
    | some i => .ok i
    | none => .ok (firstMax (xs.map (·.getD 0)))

/-- All values of a season at row `i` and column `j`. -/
def pointSeries (season : List (List (List Cell))) (i j : ℕ) : List Cell := season.map fun d => (d.getD i []).getD j none

/-- Blocking.py:62-65 at one season and longitude: the latitude of the largest weighted standard deviation. -/
noncomputable def peakLat (lats : List ℚ) (season : List (List (List Cell))) (j : ℕ) : Except PyErr ℚ := do
  let i ← npArgmax ((List.range lats.length).map fun i => weightedStd (lats.getD i 0) (pointSeries season i j))
  return lats.getD i 0

/-- Blocking.py:46-76 run_CBL: the smoothed latitudes of every season.  The weights are repeated to 360 columns (56), so that
another number of longitudes is refused: at 61, or for one longitude at 65.  `mhweight` and the times are not returned here. -/
noncomputable def runCbl (pts : ℕ) (files : List (Option MetFile)) (nseasons dseasons : ℕ) :
    Except PyErr (List (List ℤ) × List ℚ × List ℚ) := do
  let z ← readNcMet files nseasons dseasons
  if z.lons.length ≠ 360 then .error .valueError
  else
    let cbl ← z.days.mapM fun season => (List.range z.lons.length).mapM (peakLat z.lats season)
    let cblf ← cbl.mapM fun row => (List.range row.length).mapM (cblSmooth pts row)
    return (cblf, z.lats, z.lons)

/-! ### run_Calc_IBL, Blocking.py:113-129 -/

/-- Blocking.py:123: the mean latitude of all seasons at every longitude.  Simplification: `cbl` has at least one season. -/
def meanCbl (cbl : List (List ℤ)) : List ℚ :=
  (List.range (cbl.headD []).length).map fun j => (cbl.map fun row => ((row.getD j 0 : ℤ) : ℚ)).sum / cbl.length

/-- Blocking.py:79-110 for one day: the flags of all longitudes.  Simplification: a profile with one latitude only is refused
(numpy would use it at all longitudes). -/
def iblDay (meth : String) (db : ℤ) (deltas : List ℤ) (mean : List ℚ) (n : ℕ) (day : List (List Cell)) :
    Except PyErr (List ℚ) :=
  if meth = "PH" ∧ n < mean.length then .error .indexError
  else if meth = "PH" ∧ mean.length < n then .error .valueError
  else (List.range n).mapM fun j => do
    let b ← blocking1d meth (day.map fun row => row.getD j none) (mean.getD j 0) db deltas
    return b.2

/-- Blocking.py:113-129 run_Calc_IBL: the flags of all seasons, days and longitudes. -/
def calcIbl (meth : String) (db : ℤ) (deltas : List ℤ) (cbl : List (List ℤ)) (files : List (Option MetFile))
    (nseasons dseasons : ℕ) : Except PyErr (List (List (List ℚ))) := do
  let z ← readNcMet files nseasons dseasons
  z.days.mapM fun season => season.mapM (iblDay meth db deltas (meanCbl cbl) z.lons.length)

end Metcalcpy
