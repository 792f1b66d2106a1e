/-
metcalcpy/util/vl1l2_statistics.py, val1l2_statistics.py, vcnt_statistics.py, grad_statistics.py and the wind helpers
of metcalcpy/util/met_stats.py.

`none` is the result `None`: exceptions inside the `try` blocks are handled by returning None.
-/
import Verif.Model.Ensemble
import Mathlib.Analysis.SpecialFunctions.Complex.Arg

namespace Metcalcpy

/-- metcalcpy/util/met_stats.py:59-73 calc_speed. -/
noncomputable def calcSpeed (u v : ℝ) : ℝ := Real.sqrt (u * u + v * v)

/-- metcalcpy/util/met_stats.py:37-56 calc_direction: `np.arctan2(u, v)` is the argument of `v + i u`, an
angle in radians; it is then reduced modulo 360.  `none` when both components are below the tolerance. -/
noncomputable def calcDirection (u v : ℝ) : Option ℝ :=
  if |u| < 1 / 10 ^ 5 ∧ |v| < 1 / 10 ^ 5 then none
  else
    let direction := Complex.arg ⟨v, u⟩
    some (direction - 360 * ⌊direction / 360⌋)

/-- vl1l2_statistics.py:25-48 calculate_vl1l2_bias (`np.sqrt` of a negative number is a handled warning). -/
noncomputable def vlBias (t : Table) (aggregation : Bool) : Option ℝ := do
  let ff ← colMean "uvffbar" t aggregation
  let oo ← colMean "uvoobar" t aggregation
  if ff < 0 ∨ oo < 0 then none
  else some (roundHalfUp (Real.sqrt (ff : ℝ) - Real.sqrt (oo : ℝ)) PRECISION)

/-- Common body of vl1l2_statistics.py:51-75 calculate_vl1l2_fvar and 78-102 calculate_vl1l2_ovar. -/
def vlVar (square speed : String) (t : Table) (aggregation : Bool) : Option ℚ := do
  let ff ← colMean square t aggregation
  let s ← colMean speed t aggregation
  some (roundHalfUp (ff - s * s) PRECISION)

def vlFvar := vlVar "uvffbar" "f_speed_bar"
def vlOvar := vlVar "uvoobar" "o_speed_bar"

/-- Common body of vl1l2_statistics.py:105-130 calculate_vl1l2_fspd, 133-158 calculate_vl1l2_ospd,
vcnt_statistics.py calculate_vcnt_fbar_speed, calculate_vcnt_obar_speed: the length of the mean vector. -/
noncomputable def vlSpeed (u v : String) (t : Table) (aggregation : Bool) : Option ℝ := do
  let ub ← colMean u t aggregation
  let vb ← colMean v t aggregation
  some (roundHalfUp (calcSpeed (ub : ℝ) (vb : ℝ)) PRECISION)

noncomputable def vlFspd := vlSpeed "ufbar" "vfbar"
noncomputable def vlOspd := vlSpeed "uobar" "vobar"

/-- vl1l2_statistics.py:161-182 calculate_vl1l2_speed_err; vcnt_statistics.py calculate_vcnt_speed_err. -/
noncomputable def vlSpeedErr (t : Table) (aggregation : Bool) : Option ℝ := do
  let f ← vlFspd t aggregation
  let o ← vlOspd t aggregation
  some (roundHalfUp (f - o) PRECISION)

/-- vl1l2_statistics.py:185-213 calculate_vl1l2_msve; vcnt_statistics.py calculate_vcnt_msve. -/
def vlMsve (t : Table) (aggregation : Bool) : Option ℚ := do
  let ff ← colMean "uvffbar" t aggregation
  let fo ← colMean "uvfobar" t aggregation
  let oo ← colMean "uvoobar" t aggregation
  if ff - 2 * fo + oo < 0 then none else some (roundHalfUp (ff - 2 * fo + oo) PRECISION)

/-- vl1l2_statistics.py:216-234 calculate_vl1l2_rmsve; vcnt_statistics.py calculate_vcnt_rmsve. -/
noncomputable def vlRmsve (t : Table) (aggregation : Bool) : Option ℝ := do
  let m ← vlMsve t aggregation
  if m < 0 then none else some (roundHalfUp (Real.sqrt (m : ℝ)) PRECISION)

/-- vcnt_statistics.py calculate_vcnt_fs_rms, calculate_vcnt_os_rms. -/
noncomputable def vcntRms (column : String) (t : Table) (aggregation : Bool) : Option ℝ := do
  let ff ← colMean column t aggregation
  if ff < 0 then none else some (roundHalfUp (Real.sqrt (ff : ℝ)) PRECISION)

/-- vcnt_statistics.py calculate_vcnt_fstdev, calculate_vcnt_ostdev: the root of a NaN is rejected by
`round_half_up` inside the `try`. -/
noncomputable def vcntStdev (square speed : String) (t : Table) (aggregation : Bool) : Option ℝ := do
  let v ← vlVar square speed t aggregation
  if v < 0 then none else some (roundHalfUp (Real.sqrt (v : ℝ)) PRECISION)

/-- vcnt_statistics.py calculate_vcnt_fdir, calculate_vcnt_odir. -/
noncomputable def vcntDir (u v : String) (t : Table) (aggregation : Bool) : Option ℝ := do
  let ub ← colMean u t aggregation
  let vb ← colMean v t aggregation
  let d ← calcDirection (-(ub : ℝ)) (-(vb : ℝ))
  some (roundHalfUp d PRECISION)

/-- vcnt_statistics.py calculate_vcnt_vdiff_speed. -/
noncomputable def vcntVdiffSpeed (t : Table) (aggregation : Bool) : Option ℝ := do
  let uf ← colMean "ufbar" t aggregation
  let uo ← colMean "uobar" t aggregation
  let vf ← colMean "vfbar" t aggregation
  let vo ← colMean "vobar" t aggregation
  some (roundHalfUp (calcSpeed ((uf - uo : ℚ) : ℝ) ((vf - vo : ℚ) : ℝ)) PRECISION)

/-- vcnt_statistics.py calculate_vcnt_speed_abserr. -/
noncomputable def vcntSpeedAbserr (t : Table) (aggregation : Bool) : Option ℝ := do
  let e ← vlSpeedErr t aggregation
  some (roundHalfUp |e| PRECISION)

/-- vcnt_statistics.py:446-487 calculate_vcnt_dir_err.  `calculate_vcnt_obar_speed` is called without
`aggregation`.  Simplification: a rounded length of zero (division giving NaN or infinity) is modelled as the
result None. -/
noncomputable def vcntDirErr (t : Table) (aggregation : Bool) : Option ℝ := do
  let fLen ← vlFspd t aggregation
  let ufbar ← colMean "ufbar" t aggregation
  let vfbar ← colMean "vfbar" t aggregation
  let oLen ← vlOspd t false
  let uobar ← colMean "uobar" t aggregation
  let vobar ← colMean "vobar" t aggregation
  if fLen = 0 ∨ oLen = 0 then none
  else do
    let uf := (ufbar : ℝ) / fLen
    let vf := (vfbar : ℝ) / fLen
    let uo := (uobar : ℝ) / oLen
    let vo := (vobar : ℝ) / oLen
    let d ← calcDirection (vf * uo - uf * vo) (uf * uo + vf * vo)
    some (roundHalfUp d PRECISION)

/-- val1l2_statistics.py:52-73 calc_wind_corr. -/
noncomputable def calcWindCorr (uf vf uo vo uvfo uvff uvoo : ℚ) : Option ℝ :=
  let a := uvff - uf * uf - vf * vf
  let b := uvoo - uo * uo - vo * vo
  if a < 0 ∨ b < 0 then none
  else if a = 0 ∨ b = 0 then none
  else some (((uvfo - uf * uo - vf * vo : ℚ) : ℝ) / (Real.sqrt (a : ℝ) * Real.sqrt (b : ℝ)))

/-- val1l2_statistics.py:22-49 calculate_val1l2_anom_corr. -/
noncomputable def valAnomCorr (t : Table) (aggregation : Bool) : Option ℝ := do
  let uf ← colMean "ufabar" t aggregation
  let vf ← colMean "vfabar" t aggregation
  let uo ← colMean "uoabar" t aggregation
  let vo ← colMean "voabar" t aggregation
  let uvfo ← colMean "uvfoabar" t aggregation
  let uvff ← colMean "uvffabar" t aggregation
  let uvoo ← colMean "uvooabar" t aggregation
  let r ← calcWindCorr uf vf uo vo uvfo uvff uvoo
  some (roundHalfUp r PRECISION)

/-- `if result > 1: 1.0 elif result < -1: -1.0`. -/
noncomputable def clampCorr (r : ℝ) : ℝ := if r > 1 then 1 else if r < -1 then -1 else r

/-- vcnt_statistics.py calculate_vcnt_anom_corr (not rounded). -/
noncomputable def vcntAnomCorr (t : Table) (aggregation : Bool) : Option ℝ := do
  let total ← getTotalValues t aggregation
  let f ← sumColumn t "fa_speed_bar"
  let o ← sumColumn t "oa_speed_bar"
  let ff ← sumColumn t "uvffabar"
  let fo ← sumColumn t "uvfoabar"
  let oo ← sumColumn t "uvooabar"
  let v := (total * ff - f * f) * (total * oo - o * o)
  if v ≤ 0 then none
  else some (clampCorr (((total * fo - f * o : ℚ) : ℝ) / Real.sqrt (v : ℝ)))

/-- vcnt_statistics.py calculate_vcnt_anom_corr_uncntr (not rounded). -/
noncomputable def vcntAnomCorrUncntr (t : Table) (_aggregation : Bool) : Option ℝ := do
  let ff ← sumColumn t "uvffabar"
  let oo ← sumColumn t "uvooabar"
  let fo ← sumColumn t "uvfoabar"
  let v := ff * oo
  if v ≤ 0 then none
  else some (clampCorr ((fo : ℝ) / Real.sqrt (v : ℝ)))

/-- grad_statistics.py calculate_s1 (egbar, mgbar), calculate_s1_og (egbar, ogbar), calculate_fgog_ratio
(fgbar, ogbar). -/
def gradRatio (num den : String) (t : Table) (aggregation : Bool) : Option ℚ := do
  let a ← colMean num t aggregation
  let b ← colMean den t aggregation
  let q ← pyDiv (100 * a) b
  some (roundHalfUp q PRECISION)

end Metcalcpy
