/-
metcalcpy/contributed/tropical_diagnostics/example_kelvin_activity.py: the skill of the Kelvin wave activity.
-/
import Verif.Model.CcewActivity

namespace Metcalcpy

/-- example_kelvin_activity.py:47: `A * 1000/4`. -/
def rescalePrecip (a : List (List (List Cell))) : List (List (List Cell)) :=
  a.map fun day => day.map fun lat => lat.map fun c => c.map fun x => x * 1000 / 4

/-- example_kelvin_activity.py:38-76: the skill computed.  `model` and `obs` are the precipitation (time, latitude, longitude) in the
chosen period, with `nlat` latitudes and `nlon` longitudes of `obs`; `waveact` is ccew_activity.waveact with the settings of the script.
The activities `waveactA` and `waveactB` are computed and printed; line 76 passes `B`, the observed precipitation.
Simplification: reading, printing and attributes are left out, and what `wave_skill` stores into `B` is not returned. -/
def kelvinSkill {β : Type} (waveact : List (List (List Cell)) → Except PyErr β) (corr : List Cell → List Cell → Cell)
    (model obs : List (List (List Cell))) (nlat nlon : ℕ) : Except PyErr (List (List Cell)) := do
  let _waveactA ← waveact (rescalePrecip model)
  let _waveactB ← waveact obs
  let r ← waveSkill corr obs nlat nlon
  return r.1

end Metcalcpy
