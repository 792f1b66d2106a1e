/-
metcalcpy/util/utils.py:986-1038 longitude conversion.
-/
import Verif.Model.Base
import Mathlib.Data.List.Sort

namespace Metcalcpy

/-- `np.mod(a, m)` for `m > 0`: the remainder with the sign of the divisor. -/
def npMod (a m : ℚ) : ℚ := a - m * ⌊a / m⌋

/-- `np.sort` of a one-dimensional array (specified up to the algorithm used). -/
def npSort (l : List ℚ) : List ℚ := l.insertionSort (fun a b => a ≤ b)

/-- `np.argsort` of a one-dimensional array.  NumPy does not fix the order of equal keys; the model takes
the stable order. -/
def npArgsort (l : List ℚ) : List ℕ :=
  (l.zipIdx.insertionSort (fun a b => a.1 ≤ b.1)).map Prod.snd

/-- metcalcpy/util/utils.py:986-1010 convert_lon_360_to_180. -/
def convertLon360To180 (longitude : List ℚ) : List ℚ :=
  npSort (longitude.map fun lon => npMod (lon + 180) 360 - 180)

/-- metcalcpy/util/utils.py:1013-1038 convert_lons_indices (for `range_in > 0`; NumPy returns NaN for
`range_in = 0`).  Result: (reordered_lons, lonsortlocs). -/
def convertLonsIndices (lonsIn : List ℚ) (minlonIn rangeIn : ℚ) : List ℚ × List ℕ :=
  let minlon := |minlonIn|                                                -- 1026
  let newlons := lonsIn.map fun lon => npMod (lon + minlon) rangeIn - minlon  -- 1030
  let lonsortlocs := npArgsort newlons                                    -- 1033
  (lonsortlocs.map fun i : ℕ => newlons.getD i 0, lonsortlocs)            -- 1036

end Metcalcpy
