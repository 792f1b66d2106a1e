/-
contributed/tropical_diagnostics/ccew_activity.py:395-443 eof_comp and contributed/rmm_omi/compute_mjo_indices.py:298-310
zon_avg_variance.
-/
import Verif.Model.Base
import Verif.Model.WeatherRegime
import Verif.Model.BlockingRun
import Mathlib.Analysis.Real.Sqrt
import Mathlib.Algebra.BigOperators.Ring.Finset
import Mathlib.Algebra.BigOperators.Field

namespace Metcalcpy

/-- ccew_activity.py:424 `np.reshape(data, (nt, nlat * nlon))`: column `p` is the point (p / nlon, p % nlon). -/
def flatPoints (nlon : ℕ) (data : ℕ → ℕ → ℕ → ℝ) (t p : ℕ) : ℝ := data t (p / nlon) (p % nlon)

/-- `np.mean(a, axis=0)`. -/
noncomputable def eofMean (nt : ℕ) (a : ℕ → ℕ → ℝ) (p : ℕ) : ℝ := (∑ t ∈ Finset.range nt, a t p) / nt

/-- `np.std(a, axis=0)`. -/
noncomputable def eofStd (nt : ℕ) (a : ℕ → ℕ → ℝ) (p : ℕ) : ℝ :=
  Real.sqrt ((∑ t ∈ Finset.range nt, (a t p - eofMean nt a p) ^ 2) / nt)

open Classical in
/-- ccew_activity.py:427-431: the matrix that is decomposed.  A column without spread becomes NaN, which `np.linalg.svd` refuses
(LinAlgError, a ValueError). -/
noncomputable def eofMatrix (nt n : ℕ) (covariance : Bool) (a : ℕ → ℕ → ℝ) : Except PyErr (ℕ → ℕ → ℝ) :=
  if covariance then .ok a
  else if ∃ p < n, eofStd nt a p = 0 then .error .valueError
  else .ok fun t p => (a t p - eofMean nt a p) / eofStd nt a p

/-- The three arrays of eof_comp: time series `[t, k]`, shares of the variance `[k]`, patterns `[k, lat, lon]`. -/
structure EofResult where
  series : ℕ → ℕ → ℝ
  shares : ℕ → Option ℝ
  patterns : ℕ → ℕ → ℕ → ℝ

open Classical in
/-- ccew_activity.py:395-443 eof_comp for an array of times, latitudes and longitudes and `dim = 0` (another `dim` fails: moveaxis
of a DataArray).  `svd` is `np.linalg.svd(a, full_matrices=False)`: arrays u[t, k], s[k], vh[k, p] with `min(nt, n)` values k.
More patterns than that cannot be reshaped.  A share is NaN (none) when all values are 0. -/
noncomputable def eofComp (svd : (ℕ → ℕ → ℝ) → (ℕ → ℕ → ℝ) × (ℕ → ℝ) × (ℕ → ℕ → ℝ)) (nt nlat nlon neof : ℕ) (covariance : Bool)
    (data : ℕ → ℕ → ℕ → ℝ) : Except PyErr EofResult := do
  let a ← eofMatrix nt (nlat * nlon) covariance (flatPoints nlon data)
  let (u, s, vh) := svd a
  let varsum := ∑ k ∈ Finset.range (min nt (nlat * nlon)), s k ^ 2
  if min nt (nlat * nlon) < neof then .error .valueError
  else
    .ok ⟨u, fun k => if varsum = 0 then none else some (s k ^ 2 / varsum), fun k i j => vh k (i * nlon + j)⟩

/-- compute_mjo_indices.py:298-310 zon_avg_variance: the columns are the longitudes, each with its values in time. -/
def zonAvgVariance (cols : List (List Cell)) : Cell := nanMean (cols.map nanVar)

end Metcalcpy
