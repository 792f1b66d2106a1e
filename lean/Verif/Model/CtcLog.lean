/-
metcalcpy/util/ctc_statistics.py: the contingency-table statistics that use logarithms (over ℝ).
The column sums are the rational sums of `Verif.Model.Table` seen as reals.
-/
import Verif.Model.Ctc
import Mathlib.Analysis.SpecialFunctions.Log.Basic

namespace Metcalcpy

/-- `math.log` (ValueError for x ≤ 0, handled) and `np.log` under `filterwarnings('error')`
(RuntimeWarning for x ≤ 0, handled): both lead to the result `None`. -/
noncomputable def pyLog (x : ℝ) : Option ℝ := if 0 < x then some (Real.log x) else none

/-- Division of floats inside the try blocks, see `pyDiv`. -/
noncomputable def pyDivR (a b : ℝ) : Option ℝ := if b = 0 then none else some (a / b)

/-- Column sum as a real. -/
noncomputable def sumColumnR (t : Table) (name : String) : Option ℝ :=
  (sumColumn t name).map (fun q => (q : ℝ))

/-- metcalcpy/util/ctc_statistics.py:432-458 calculate_lodds. -/
noncomputable def ctcLodds (t : Table) : Option ℝ := do
  let a ← sumColumnR t "fy_oy"
  let b ← sumColumnR t "fy_on"
  let c ← sumColumnR t "fn_oy"
  let d ← sumColumnR t "fn_on"
  let v := (← pyLog a) + (← pyLog d) - (← pyLog b) - (← pyLog c)
  some (roundHalfUp v PRECISION)

/-- metcalcpy/util/ctc_statistics.py:461-493 calculate_bagss.  `lambertW` stands for the real part of
`scipy.special.lambertw`. -/
noncomputable def ctcBagss (lambertW : ℝ → ℝ) (t : Table) : Option ℝ := do
  let a ← sumColumnR t "fy_oy"
  let c ← sumColumnR t "fn_oy"
  let total ← sumColumnR t "total"
  let b ← sumColumnR t "fy_on"
  if a = 0 ∨ c = 0 ∨ total = 0 then none else do
    let o := a + c
    let lf ← pyLog (← pyDivR o c)
    let w := lambertW ((← pyDivR o b) * lf)
    let ha := o - (← pyDivR b lf) * w
    let r ← pyDivR (o ^ 2) total
    let q ← pyDivR (ha - r) (2 * o - ha - r)
    some (roundHalfUp q PRECISION)

/-- metcalcpy/util/ctc_statistics.py:857-885 calculate_sedi (hit rate already rounded). -/
noncomputable def ctcSedi (t : Table) : Option ℝ := do
  let d ← sumColumnR t "fn_on"
  let b ← sumColumnR t "fy_on"
  let f ← pyDivR b (b + d)
  let h := ((← podYes t : ℚ) : ℝ)
  let num := (← pyLog f) - (← pyLog h) - (← pyLog (1 - f)) + (← pyLog (1 - h))
  let den := (← pyLog f) + (← pyLog h) + (← pyLog (1 - f)) + (← pyLog (1 - h))
  let q ← pyDivR num den
  some (roundHalfUp q PRECISION)

/-- metcalcpy/util/ctc_statistics.py:888-916 calculate_seds. -/
noncomputable def ctcSeds (t : Table) : Option ℝ := do
  let a ← sumColumnR t "fy_oy"
  let b ← sumColumnR t "fy_on"
  let c ← sumColumnR t "fn_oy"
  let total ← sumColumnR t "total"
  let num := (← pyLog (← pyDivR (a + b) total)) + (← pyLog (← pyDivR (a + c) total))
  let den ← pyLog (← pyDivR a total)
  let q ← pyDivR num den
  some (roundHalfUp (q - 1) PRECISION)

/-- metcalcpy/util/ctc_statistics.py:919-947 calculate_edi.  The unused `total` sum of line 936 cannot
fail and is dropped. -/
noncomputable def ctcEdi (t : Table) : Option ℝ := do
  let d ← sumColumnR t "fn_on"
  let b ← sumColumnR t "fy_on"
  let f ← pyDivR b (b + d)
  let h := ((← podYes t : ℚ) : ℝ)
  let num := (← pyLog f) - (← pyLog h)
  let den := (← pyLog f) + (← pyLog h)
  let q ← pyDivR num den
  some (roundHalfUp q PRECISION)

/-- metcalcpy/util/ctc_statistics.py:950-977 calculate_eds. -/
noncomputable def ctcEds (t : Table) : Option ℝ := do
  let a ← sumColumnR t "fy_oy"
  let c ← sumColumnR t "fn_oy"
  let total ← sumColumnR t "total"
  let num ← pyLog (← pyDivR (a + c) total)
  let den ← pyLog (← pyDivR a total)
  let q ← pyDivR (2 * num) den
  some (roundHalfUp (q - 1) PRECISION)

end Metcalcpy
