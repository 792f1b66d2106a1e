/-
metcalcpy/contributed/rmm_omi/compute_mjo_indices.py: rmm as a whole (22-90) with regress_2dim_data_onto_eofs (174-199).
Simplifications: no values are missing, the fields have a row for every time, the normalisation factors are not zero.
-/
import Verif.Model.MjoIndex

namespace Metcalcpy

/-- compute_mjo_indices.py:51-53: one field `x time lon` without its 120-day mean, as the list of its longitudes. -/
def rmmField (times : List ℚ) (nlon : ℕ) (x : ℕ → ℕ → ℚ) : Except PyErr (List (List Cell)) :=
  (List.range nlon).mapM fun l => rem120dayMean times ((List.range times.length).map fun t => some (x t l))

/-- `data[idx,:]` (compute_mjo_indices.py:189): the values of one time. -/
def rowAt (cols : List (List Cell)) (t : ℕ) : List ℚ := cols.map fun c => (c.getD t none).getD 0

/-- rmm (compute_mjo_indices.py:22-90). The grid checks (38-48) never refuse (C145). -/
def rmm (times : List ℚ) (nlon : ℕ) (olr u850 u200 : ℕ → ℕ → ℚ) (e1 e2 : List ℚ × List ℚ × List ℚ) (norm : ℚ × ℚ × ℚ)
    (pcNorm : ℚ × ℚ) : Except PyErr (List (Option (ℚ × ℚ))) := do
  let o ← rmmField times nlon olr
  let u ← rmmField times nlon u850
  let v ← rmmField times nlon u200
  (List.range times.length).mapM fun t => rmmAt (rowAt o t) (rowAt u t) (rowAt v t) e1 e2 norm pcNorm

end Metcalcpy
