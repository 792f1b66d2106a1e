/-
The header line of the matched pair files (metcalcpy/contributed/blocking_weather_regime/Blocking_WeatherRegime_util.py).
-/
import Verif.Model.RegimeIO

namespace Metcalcpy

/-- Blocking_WeatherRegime_util.py:48-50: the widths of `format_string`, written out separately from those of the lines (51-54). -/
def mprHeaderWidths (i : MprInfo) : List ℕ :=
  [7, max 5 i.mname.length + 3, max 4 i.mname.length + 1, 12, 18, 18, 12, 17, 17, max 8 i.fvar.length + 3,
   max 8 i.funit.length + 3, max 8 i.flev.length + 3, max 7 i.ovar.length + 3, max 8 i.ounit.length + 3,
   max 7 i.olev.length + 3, 10, max 7 i.maskname.length + 3, 13, 13, 13, 13, 13, 13, 9]

/-- Blocking_WeatherRegime_util.py:64-67: the names of the columns. -/
def mprHeaderNames : List String :=
  ["VERSION", "MODEL", "DESC", "FCST_LEAD", "FCST_VALID_BEG", "FCST_VALID_END", "OBS_LEAD", "OBS_VALID_BEG", "OBS_VALID_END",
   "FCST_VAR", "FCST_UNITS", "FCST_LEV", "OBS_VAR", "OBS_UNITS", "OBS_LEV", "OBTYPE", "VX_MASK", "INTERP_MTHD", "INTERP_PNTS",
   "FCST_THRESH", "OBS_THRESH", "COV_THRESH", "ALPHA", "LINE_TYPE"]

/-- Blocking_WeatherRegime_util.py:64-67: the header line. -/
def mprHeader (i : MprInfo) : List Char := formatColumns ((mprHeaderWidths i).zip (mprHeaderNames.map String.toList))

/-- Blocking_WeatherRegime_util.py:63-74: the text of the file of a day with its header, or none when the forecast has no valid time. -/
def mprText (i : MprInfo) (outfile : String) (d : MprDay) : Option (List Char × List (List Char)) :=
  (mprFile i outfile d).map fun f => (f.1, mprHeader i :: f.2)

end Metcalcpy
