/-
metcalcpy/contributed/blocking_weather_regime/Blocking_WeatherRegime_util.py: the lead label of read_nc_met and the matched
pair files of write_mpr_file.  Reading netCDF files is not modelled.
-/
import Verif.Model.Base

namespace Metcalcpy

/-! ### read_nc_met, 103-108 -/

/-- `str(z)` for an integer. -/
def intChars (z : ℤ) : List Char := if z < 0 then '-' :: Nat.toDigits 10 z.natAbs else Nat.toDigits 10 z.natAbs

/-- `str(z).zfill(2)` for an integer: a text shorter than two characters is filled (a sign counts as a character). -/
def zfill2 (z : ℤ) : List Char :=
  let t := intChars z
  if t.length < 2 then '0' :: t else t

/-- Blocking_WeatherRegime_util.py:104-108: the lead label from the number of seconds between initialisation and valid time.
`divmod` rounds down. -/
def leadLabel (secs : ℤ) : String :=
  let leadmin := secs / 60
  let leadsec := secs % 60
  let leadhr := leadmin / 60
  let leadmin := leadmin % 60
  String.ofList (zfill2 leadhr ++ zfill2 leadmin ++ zfill2 leadsec)

/-! ### write_mpr_file, 30-74 -/

/-- `'%-Ns' % text`: padded with blanks on the right, never shortened. -/
def padRight (w : ℕ) (t : List Char) : List Char := t ++ List.replicate (w - t.length) ' '

/-- `format_string % fields` for a format of left-aligned columns separated by one blank. -/
def formatColumns : List (ℕ × List Char) → List Char
  | [] => ['\n']
  | [(w, t)] => padRight w t ++ ['\n']
  | (w, t) :: rest => padRight w t ++ ' ' :: formatColumns rest

/-- The texts that are the same for all lines of a call. -/
structure MprInfo where
  mname : String
  desc : String
  fvar : String
  funit : String
  flev : String
  ovar : String
  ounit : String
  olev : String
  maskname : String
  obslev : String

/-- The column widths, 38-53 (the width of DESC is computed from the model name, 40). -/
def mprWidths (i : MprInfo) : List ℕ :=
  [7, max 5 i.mname.length + 3, max 4 i.mname.length + 1, 12, 18, 18, 12, 17, 17, max 8 i.fvar.length + 3,
   max 8 i.funit.length + 3, max 8 i.flev.length + 3, max 7 i.ovar.length + 3, max 8 i.ounit.length + 3,
   max 7 i.olev.length + 3, 10, max 7 i.maskname.length + 3, 13, 13, 13, 13, 13, 13, 9,
   10, 10, 10, 12, 12, 10, 10, 12, 12, 10, 10, 10, 10]

/-- The 37 fields of a line, 68-74.  Numbers (latitude, longitude, forecast, observation) are given as the texts that
`%.4f` makes of them. -/
def mprFields (i : MprInfo) (fLead fValid oLead oValid total index lat lon fcst obs : String) : List String :=
  ["V9.1", i.mname, i.desc, fLead, fValid, fValid, oLead, oValid, oValid, i.fvar, i.funit, i.flev, i.ovar, i.ounit, i.olev,
   "ADPUPA", i.maskname, "NEAREST", "1", "NA", "NA", "NA", "NA", "MPR", total, index, "NA", lat, lon, i.obslev, "NA", fcst, obs,
   "NA", "NA", "NA", "NA"]

/-- One line of the file. -/
def mprLine (i : MprInfo) (fLead fValid oLead oValid total index lat lon fcst obs : String) : List Char :=
  formatColumns ((mprWidths i).zip ((mprFields i fLead fValid oLead oValid total index lat lon fcst obs).map String.toList))

/-- 58-61: the name of the file of a day, from the label of the lead and the valid time (15 characters). -/
def mprName (outfile fLead fValid : List Char) : List Char :=
  outfile ++ '_' :: (fLead ++ 'L' :: '_' :: (fValid.take 8 ++ '_' :: ((fValid.drop 9).take 6 ++ ['V']))) ++ ".stat".toList

/-- One day of a call: times of forecast and observation, and for every point latitude, longitude, forecast, observation. -/
structure MprDay where
  fLead : String
  fValid : String
  oLead : String
  oValid : String
  points : List (String × String × String × String)

/-- 56-74: the file of a day, or none when the forecast has no valid time (58).  The header line (61-66) is left out. -/
def mprFile (i : MprInfo) (outfile : String) (d : MprDay) : Option (List Char × List (List Char)) :=
  if d.fValid = "" then none
  else some (mprName outfile.toList d.fLead.toList d.fValid.toList,
    d.points.mapIdx fun k p => mprLine i d.fLead d.fValid d.oLead d.oValid (toString d.points.length) (toString (k + 1))
      p.1 p.2.1 p.2.2.1 p.2.2.2)

end Metcalcpy
