/-
metcalcpy/contributed/blocking_weather_regime/Blocking_WeatherRegime_util.py:77-128 read_nc_met with masked values and times.
-/
import Verif.Model.BlockingRun
import Verif.Model.RegimeIO

namespace Metcalcpy

/-- The contents of an input file that are used.  A point of the field is masked (`none`) or has a value (`some none` is NaN); `fill` is
what the netCDF library leaves below the mask.  `lead` are the seconds between the two times (102), a ValueError if one cannot be read. -/
structure MaskedFile where
  lats : List ℚ
  lons : List ℚ
  fill : Cell
  field : List (List (Option Cell))
  init : String
  valid : String
  lead : Except PyErr ℤ

/-- Line 118 `var_3d[i,:,:] = new_invar`: the assignment to an array without a mask takes the numbers below the mask. -/
def MaskedFile.stored (f : MaskedFile) : MetFile := ⟨f.lats, f.lons, f.field.map fun r => r.map fun c => c.getD f.fill⟩

/-- Lines 100-117: initial time, valid time and lead label of one file; empty texts for `missing`. -/
def metTimes : Option MaskedFile → Except PyErr (String × String × String)
  | none => .ok ("", "", "")
  | some f => match f.lead with
    | .ok secs => .ok (f.init, f.valid, leadLabel secs)
    | .error e => .error e

/-- Lines 77-128 read_nc_met: the fields and, per season and day, the three texts of the time dictionary.  All exceptions of the loop
are ValueErrors, so their order does not matter. -/
def readNcMetTimes (files : List (Option MaskedFile)) (nseasons dseasons : ℕ) :
    Except PyErr (Seasons × List (List (String × String × String))) := do
  let z ← readNcMet (files.map (Option.map MaskedFile.stored)) nseasons dseasons
  let times ← files.mapM metTimes
  return (z, (List.range nseasons).map fun s => (times.drop (s * dseasons)).take dseasons)

end Metcalcpy
