/-
metcalcpy/contributed/blocking_weather_regime/Blocking_WeatherRegime_util.py: parse_steps.
-/
import Verif.Model.ObjectBootstrap

namespace Metcalcpy

/-- `text.split("+")`. -/
def plusParts (s : String) : List String := (splitAt1 '+' s.toList).map String.ofList

/-- Blocking_WeatherRegime_util.py:19-27 parse_steps; `env` are the environment variables. -/
def parseSteps (env : String → Option String) : List String × List String :=
  (plusParts ((env "FCST_STEPS").getD ""), plusParts ((env "OBS_STEPS").getD ""))

end Metcalcpy
