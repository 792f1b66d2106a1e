/-
Model of two windows: metcalcpy/contributed/rmm_omi/compute_mjo_indices.py:313-328 (taper_vector_to_zero) and
metcalcpy/contributed/spacetime/spacetime.py:343-361 (window_cosbell).
-/
import Verif.Model.Base
import Mathlib.Analysis.SpecialFunctions.Trigonometric.Basic

namespace Metcalcpy

/-- compute_mjo_indices.py:325 (and 327): the weight of index `k` in a window of length `w`. -/
noncomputable def taperWeight (w : ℕ) (k : ℤ) : ℝ := 0.5 * (1 - Real.cos (k * Real.pi / w))

/-- taper_vector_to_zero (compute_mjo_indices.py:313-328). Windows longer than the series raise (the weights cannot be
multiplied with the shorter slice), except that an empty series with window 1 stays empty. Line 322:
`endinds = arange(-w-1, -1) + 2` runs from `-w+1` to 0. Both assignments act on the same memory, one after the other. -/
noncomputable def taperToZero (data : List ℝ) (w : ℕ) : Except PyErr (List ℝ) :=
  if data.length < w ∧ ¬ (data = [] ∧ w = 1) then .error .valueError
  else
    let first := data.mapIdx fun i x => if i < w then x * taperWeight w i else x
    .ok (first.mapIdx fun i x =>
      if data.length - w ≤ i then x * taperWeight w (-(w : ℤ) - 1 + ((i - (data.length - w) : ℕ) : ℤ) + 2) else x)

/-- window_cosbell (spacetime.py:343-361), line 357: the weight of the `i`-th value from either end. -/
noncomputable def cosbellWeight (M i : ℕ) : ℝ := 0.5 - 0.5 * Real.cos (Real.pi / M * (i - 0.5))

/-- spacetime.py:352-354: the number of tapered values at each end; `pct` and N are not negative. -/
def cosbellM (N : ℕ) (pct : ℚ) : ℕ :=
  let M := (⌊(pct * N + 0.5) / 2⌋).toNat
  if M < 1 then 1 else M

/-- One turn of the loop of spacetime.py:356-359: `x[i-1]` and `x[-i]` are multiplied by the weight, in this order;
positions outside of the array raise. -/
noncomputable def cosbellStep (M : ℕ) (x : List ℝ) (i : ℕ) : Except PyErr (List ℝ) :=
  if x.length < i then .error .indexError
  else
    let y := x.set (i - 1) (x.getD (i - 1) 0 * cosbellWeight M i)
    .ok (y.set (y.length - i) (y.getD (y.length - i) 0 * cosbellWeight M i))

/-- window_cosbell (spacetime.py:343-361). -/
noncomputable def windowCosbell (N : ℕ) (pct : ℚ) : Except PyErr (List ℝ) :=
  ((List.range (cosbellM N pct)).map (· + 1)).foldlM (cosbellStep (cosbellM N pct)) (List.replicate N 1)

end Metcalcpy
