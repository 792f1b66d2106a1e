/-
metcalcpy/util/vcnt_statistics.py: the direction of the vector difference and the absolute direction error.
-/
import Verif.Model.Vector

namespace Metcalcpy

/-- vcnt_statistics.py:363-390 calculate_vcnt_vdiff_dir. -/
noncomputable def vcntVdiffDir (t : Table) (aggregation : Bool) : Option ℝ := do
  let uf ← colMean "ufbar" t aggregation
  let uo ← colMean "uobar" t aggregation
  let vf ← colMean "vfbar" t aggregation
  let vo ← colMean "vobar" t aggregation
  let d ← calcDirection (-((uf - uo : ℚ) : ℝ)) (-((vf - vo : ℚ) : ℝ))
  some (roundHalfUp d PRECISION)

/-- vcnt_statistics.py:489-513 calculate_vcnt_dir_abser: `abs` of a missing direction error is a handled TypeError. -/
noncomputable def vcntDirAbser (t : Table) (aggregation : Bool) : Option ℝ := do
  let e ← vcntDirErr t aggregation
  some (roundHalfUp |e| PRECISION)

end Metcalcpy
