/-
metcalcpy/pre_processing/directional_means.py and metcalcpy/process_tcrmw.py (wind components).
-/
import Verif.Model.Base
import Mathlib.Analysis.SpecialFunctions.Trigonometric.Basic

namespace Metcalcpy
open Classical

/-- A profile along the latitude dimension: latitude in degrees and value (`none` is NaN). -/
structure LatCell where
  lat : ℝ
  value : Option ℝ

/-- `np.cos(np.deg2rad(lat))`. -/
noncomputable def cosDeg (lat : ℝ) : ℝ := Real.cos (lat * (Real.pi / 180))

/-- xarray's `DataArray.weighted(w).mean(dim)`: missing values are skipped; NaN when the weights of the
valid values add up to zero. -/
noncomputable def weightedMean (cells : List (ℝ × Option ℝ)) : Option ℝ :=
  let valid := cells.filterMap (fun p => p.2.map (fun v => (p.1, v)))
  let total := (valid.map Prod.fst).sum
  if total = 0 then none else some ((valid.map (fun p => p.1 * p.2)).sum / total)

/-- metcalcpy/pre_processing/directional_means.py:32-62 meridional_mean: the band limits passed by the caller
are checked, but the band that is averaged is 60..90 degrees (lines 60-62).  Simplification: one profile,
exact real arithmetic. -/
noncomputable def meridionalMean (dat : List LatCell) (lat1 lat2 : ℝ) : Except PyErr (Option ℝ) :=
  if lat1 > lat2 then .error .valueError
  else if lat1 = lat2 then .error .valueError
  else
    let band := dat.filter (fun c => decide (c.lat ≥ 60 ∧ c.lat ≤ 90))
    .ok (weightedMean (band.map (fun c => (cosDeg c.lat, c.value))))

/-- metcalcpy/pre_processing/directional_means.py:16-29 zonal_mean: mean over the longitudes, missing values
skipped. -/
noncomputable def zonalMean (dat : List (Option ℝ)) : Option ℝ :=
  let valid := dat.filterMap id
  if valid.length = 0 then none else some (valid.sum / valid.length)

/-- metcalcpy/process_tcrmw.py:40-46: the angle used at azimuth index `j` (degrees). Simplification: reals
instead of float32. -/
noncomputable def windTheta (azimuth : ℕ → ℝ) (j : ℕ) : ℝ :=
  let theta := (Real.pi / 180) * azimuth j + Real.pi / 2
  if theta > 2 * Real.pi then theta - 2 * Real.pi else theta

/-- metcalcpy/process_tcrmw.py:33-50 compute_wind_components; the fields are indexed by range, azimuth,
level and track index.  Result: (u_radial, u_tangential). -/
noncomputable def windComponents (azimuth : ℕ → ℝ) (u v : ℕ → ℕ → ℕ → ℕ → ℝ) (i j k t : ℕ) : ℝ × ℝ :=
  let theta := windTheta azimuth j
  (Real.cos theta * u i j k t + Real.sin theta * v i j k t,
   -Real.sin theta * u i j k t + Real.cos theta * v i j k t)

end Metcalcpy
