/-
Model of metcalcpy/contributed/tropical_diagnostics/ccew_activity.py: removal of the annual cycle (lines 112-120, 140-174) and
wave_skill (206-222).
-/
import Verif.Model.WeatherRegime

namespace Metcalcpy

/-- A day: year, month, day of the month. -/
abbrev YMD := ℕ × ℕ × ℕ

/-- Leap years of the Gregorian calendar, as pandas reckons them. -/
def isLeapYear (y : ℕ) : Bool := (y % 4 == 0 && y % 100 != 0) || y % 400 == 0

/-- Number of days in the months before month `m` of year `y`. -/
def daysBefore (y m : ℕ) : ℕ :=
  (([31, if isLeapYear y then 29 else 28, 31, 30, 31, 30, 31, 31, 30, 31, 30, 31] : List ℕ).take (m - 1)).sum

/-- `time.dayofyear` (ccew_activity.py:114). -/
def dayOfYear (d : YMD) : ℕ := daysBefore d.1 d.2.1 + d.2.2

/-- The difference of two cells; missing if one of them is. -/
def subCell : Cell → Cell → Cell
  | some x, some m => some (x - m)
  | _, _ => none

/-- rem_seas_cyc (ccew_activity.py:140-161) at one grid point: from each value the mean of the values of the same month and
day is subtracted (line 149: the label is `%m-%d`). The mean skips missing values (xarray's default). -/
def remSeasCyc (days : List YMD) (vals : List Cell) : List Cell :=
  List.zipWith (fun d v => subCell v (nanMean (((days.zip vals).filter fun p => decide (p.1.2 = d.2)).map Prod.snd)))
    days vals

/-- rem_seas_mean (ccew_activity.py:163-174): from each value the mean over all times. -/
def remSeasMean (vals : List Cell) : List Cell := vals.map fun v => subCell v (nanMean vals)

/-- `doy[0::spd]` (ccew_activity.py:115). -/
def everyNth {α : Type} (n : ℕ) (l : List α) : List α := (l.zipIdx.filter fun p => p.2 % n == 0).map Prod.fst

/-- ccew_activity.py:114-120: the climatology is by calendar day when a day of the year occurs twice. -/
def removeAnnual (spd : ℕ) (days : List YMD) (vals : List Cell) : Except PyErr (List Cell) :=
  if spd = 0 then .error .valueError
  else
    let doyOad := everyNth spd (days.map dayOfYear)
    if doyOad.length - doyOad.dedup.length > 0 then .ok (remSeasCyc days vals) else .ok (remSeasMean vals)

/-- One forecast hour of wave_skill (ccew_activity.py:218-220). `skill` is a view of `act`, so line 220 stores the correlation
of line `ll + 1` as the first value of that line. `corr` is entry [0, 1] of `np.corrcoef`. -/
def skillHour (corr : List Cell → List Cell → Cell) (lines : List (List Cell)) : List (List Cell) :=
  (List.range (lines.length - 1)).foldl
    (fun A ll => A.modify (ll + 1) fun row => row.set 0 (corr row (A.getD 0 []))) lines

/-- wave_skill (ccew_activity.py:206-222) for forecast hours with equally many lines (observation first) and times. Result:
the skill of every hour and line, and the array `act` of the caller afterwards. No times: `act[:, 1::, 0]` raises. `squeeze` removes axes
of length one, after which `skill[ff, ll]` raises. Simplification: hours are independent and treated by a map. -/
def waveSkill (corr : List Cell → List Cell → Cell) (act : List (List (List Cell))) (nlines ntim : ℕ) :
    Except PyErr (List (List Cell) × List (List (List Cell))) :=
  if ntim = 0 then .error .indexError
  else if nlines = 0 then .ok (act.map fun _ => [], act)
  else if (act.length = 1 ∨ nlines - 1 = 1) ∧ 0 < act.length ∧ 0 < nlines - 1 then .error .indexError
  else
    let after := act.map (skillHour corr)
    .ok (after.map fun lines => (lines.drop 1).map fun row => row.getD 0 none, after)

end Metcalcpy
