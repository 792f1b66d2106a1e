/-
metcalcpy/contributed/spacetime/spacetime_utils.py and contributed/tropical_diagnostics/utils.py: save_Spectra.
-/
import Verif.Model.Blocking

namespace Metcalcpy

/-- The contents of a file of spectra: the variables freq, wnum, var and STC, and the attribute varnames. -/
structure SpectraFile where
  freq : List ℚ
  wnum : List ℤ
  var : List ℤ
  stc : List (List (List Cell))
  names : List String
  deriving DecidableEq, Repr

/-- spacetime_utils.py:29-61 save_Spectra: `stc` is an array of shape (nvar, nfrq, nwave).  Assignment to a variable of
type int cuts numbers towards zero; assignment of arrays of other lengths raises.
Simplifications: an array of one number is refused as well where netCDF4 would repeat it; the file can be written; the
attributes with units and long names are left out. -/
def saveSpectra (nvar nfrq nwave : ℕ) (stc : List (List (List Cell))) (freq wnum : List ℚ) : Except PyErr SpectraFile :=
  if freq.length ≠ nfrq then .error .valueError
  else if wnum.length ≠ nwave then .error .valueError
  else .ok
    { freq := freq
      wnum := wnum.map truncInt
      var := (List.range nvar).map fun k : ℕ => truncInt ((nvar - 1 : ℚ) * k / (nvar - 1))
      stc := stc
      names := ["PX", "PY", "CXY", "QXY", "COH2", "PHA", "V1", "V2"] }

/-- `os.path.join(a, b)` on Linux. -/
def osJoin (a b : List Char) : List Char :=
  if b.head? = some '/' then b
  else if a = [] ∨ a.getLast? = some '/' then a ++ b
  else a ++ '/' :: b

/-- The file written by contributed/spacetime (spacetime_utils.py:30-32). -/
def spectraPath (filepath filename : List Char) : List Char := osJoin filepath (filename ++ ".nc".toList)

/-- The file written by the copy in contributed/tropical_diagnostics (utils.py:30). -/
def spectraPathTropical (filepath filename : List Char) : List Char := filepath ++ filename ++ ".nc".toList

end Metcalcpy
