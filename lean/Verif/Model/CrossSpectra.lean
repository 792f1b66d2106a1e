/-
metcalcpy/contributed/spacetime/cross_spectra.py: the checks, segments and files of the script.
-/
import Verif.Model.Base

namespace Metcalcpy

/-- `a - b` for two one-dimensional DataArrays, given by labels and values: with the same labels entry by entry, otherwise on the
labels they have in common (xarray's default `arithmetic_join='inner'`); labels that occur twice cannot be aligned. -/
def alignedDiff (a b : List (ℚ × ℚ)) : Except PyErr (List (ℚ × ℚ)) :=
  if a.map Prod.fst = b.map Prod.fst then .ok (List.zipWith (fun p q => (p.1, p.2 - q.2)) a b)
  else if ¬ (a.map Prod.fst).Nodup ∨ ¬ (b.map Prod.fst).Nodup then .error .valueError
  else .ok (a.filterMap fun p => (b.lookup p.1).map fun v => (p.1, p.2 - v))

/-- A coordinate variable: its values are its labels. -/
def coordinate (lats : List ℚ) : List (ℚ × ℚ) := lats.map fun l => (l, l)

/-- cross_spectra.py:124-125 `if any(latA - latB) != 0`: is the message about the latitudes printed?  The script goes on either way. -/
def latitudeMessage (latA latB : List ℚ) : Except PyErr Bool := do
  let d ← alignedDiff (coordinate latA) (coordinate latB)
  .ok (d.any fun p => decide (p.2 ≠ 0))

/-- One of the three spectra of the script. -/
structure CrossRun where
  /-- name of the file without `.nc` -/
  file : List Char
  /-- number of values of a segment -/
  nperseg : ℤ
  /-- number of values between segments -/
  overlap : ℤ
  /-- factor from cycles per value to cycles per day -/
  spd : ℤ
  deriving DecidableEq, Repr

/-- cross_spectra.py:69-72 and 158-187: the calls of mjo_cross and save_Spectra for the configured observations per day, days of a
segment and days of overlap; `spdText` is `str(spd)`.  Reading of the files, the symmetric components and the spectra themselves are
not part of this definition (`mjo_cross` and `save_Spectra` are modelled elsewhere). -/
def crossRuns (model symmetry spdText : List Char) (spd nperseg segOverLap : ℤ) : List CrossRun :=
  [⟨"SpaceTimeSpectra_".toList ++ model ++ "_P_D850_".toList ++ symmetry ++ ['_'] ++ spdText ++ "spd".toList,
      nperseg * spd, segOverLap * spd, spd⟩,
   ⟨"SpaceTimeSpectra_".toList ++ model ++ "_P_D200_".toList ++ symmetry ++ ['_'] ++ spdText ++ "spd".toList,
      nperseg * spd, segOverLap * spd, spd⟩,
   ⟨"SpaceTimeSpectra_ERAI_".toList ++ model ++ "_P_".toList ++ symmetry ++ ['_'] ++ "2".toList ++ "spd".toList,
      nperseg * spd, segOverLap * spd, 2⟩]

end Metcalcpy
