/-
metcalcpy/vertical_interp.py:544-561 (write_dataset) and 689-691: the reference time taken from the name of the output file.
-/
import Verif.Model.RegimeFile

namespace Metcalcpy

/-- Line 690: `filename_out.split('.')[1]`. -/
def refTimeText (filename : List Char) : Except PyErr (List Char) :=
  if '.' ∈ filename then .ok (((filename.dropWhile (· != '.')).drop 1).takeWhile (· != '.'))
  else .error .indexError

/-- Lines 555-561: the seconds written.  `zone t h` is the offset of local time from universal time in seconds, at hour `h` of day `t`:
`timestamp()` takes the time as local. -/
def refSeconds (zone : ℕ × ℕ × ℕ → ℕ → ℤ) (text : List Char) : Except PyErr ℤ := do
  let y ← intOf (text.take 4)
  let m ← intOf ((text.drop 4).take 2)
  let d ← intOf ((text.drop 6).take 2)
  let h ← intOf ((text.drop 8).take 2)
  let t ← mkDate y m d
  if 0 ≤ h ∧ h ≤ 23 then
    return ((ordinal t : ℤ) - ordinal (1970, 1, 1)) * 86400 + h * 3600 - zone t h.toNat
  else .error .valueError

/-- Lines 686-699: what becomes of the reference time for an output file of the given path.  Any exception of the first attempt is
caught; the second attempt calls a method that a NetCDF file does not have (AttributeError). -/
def refTimeOfFile (zone : ℕ × ℕ × ℕ → ℕ → ℤ) (filename : List Char) : Except PyErr ℤ :=
  match (do let s ← refTimeText filename; refSeconds zone s : Except PyErr ℤ) with
  | .ok z => .ok z
  | .error _ => .error .attributeError

end Metcalcpy
