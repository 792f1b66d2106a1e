/-
metcalcpy/contributed/rmm_omi/compute_mjo_indices.py: omi with everything it calls (93-171, 202-217, 331-489), and the masks of
bandpass_filter_3D (220-274).  The transforms are given by their definitions, over the real and complex numbers.
Simplifications: no values are missing, times increase; `time` and the times of the data are the same.
-/
import Verif.Model.MjoIndex
import Verif.Model.Taper
import Mathlib.Analysis.SpecialFunctions.Trigonometric.Basic

namespace Metcalcpy

/-- `scipy.signal.detrend(x, type='linear')` of one series of `n` values: the values less those of the least squares line. -/
noncomputable def detrendSeries (n : ℕ) (x : ℕ → ℝ) (t : ℕ) : ℝ :=
  let tm := (∑ s ∈ Finset.range n, (s : ℝ)) / n
  let xm := (∑ s ∈ Finset.range n, x s) / n
  let slope := (∑ s ∈ Finset.range n, ((s : ℝ) - tm) * (x s - xm)) / ∑ s ∈ Finset.range n, ((s : ℝ) - tm) ^ 2
  x t - (xm + slope * (t - tm))

/-- `np.fft.fft2`. -/
noncomputable def fft2 (nt nl : ℕ) (x : ℕ → ℕ → ℝ) (i j : ℕ) : ℂ :=
  ∑ t ∈ Finset.range nt, ∑ m ∈ Finset.range nl,
    (x t m : ℂ) * Complex.exp (-(2 * Real.pi * Complex.I * ((i : ℂ) * t / nt + (j : ℂ) * m / nl)))

/-- `np.real(np.fft.ifft2(Z))`. -/
noncomputable def ifft2Real (nt nl : ℕ) (Z : ℕ → ℕ → ℂ) (t m : ℕ) : ℝ :=
  (1 / ((nt : ℝ) * nl)) * ∑ i ∈ Finset.range nt, ∑ j ∈ Finset.range nl,
    (Z i j * Complex.exp (2 * Real.pi * Complex.I * ((i : ℂ) * t / nt + (j : ℂ) * m / nl))).re

/-- The series of one point in perform_3dim_spectral_filtering, detrended, padded to `nt` values and tapered (373-393); `w` is the
length of the window, `int(10 * dataperday)`. -/
noncomputable def omiSeries (n nt w : ℕ) (x : ℕ → ℝ) : Except PyErr (List ℝ) :=
  taperToZero ((List.range nt).map fun t => if t < n then detrendSeries n x t else 0) w

/-- perform_3dim_spectral_filtering (331-489) for one latitude: `n` times, `nl` longitudes, `nt` = n + 1000.
Simplification: there are at least two longitudes (np.squeeze drops a single one, and fft2 then raises). -/
noncomputable def omiFilterLat (n nl : ℕ) (dt periodMin periodMax wmin wmax : ℚ) (x : ℕ → ℕ → ℝ) : Except PyErr (ℕ → ℕ → ℝ) := do
  let nt := n + 1000
  let w := (truncInt (10 * (1 / dt))).toNat
  let series ← (List.range nl).mapM fun l => omiSeries n nt w fun t => x t l
  return ifft2Real nt nl (omiFilter nt nl dt periodMin periodMax wmin wmax (fft2 nt nl fun t m => (series.getD m []).getD t 0))

/-- `np.linalg.lstsq` with two columns (202-217): the solution of least norm, by the pseudoinverse of the matrix of scalar products.
Fields whose size is not that of the EOFs cannot be reshaped (ValueError). Simplification: `rcond` is 0. -/
noncomputable def lstsqTwo (v e1 e2 : List ℝ) : ℝ × ℝ :=
  let dot := fun x y : List ℝ => (List.zipWith (· * ·) x y).sum
  let det := dot e1 e1 * dot e2 e2 - dot e1 e2 * dot e1 e2
  let tr := dot e1 e1 + dot e2 e2
  if det ≠ 0 then ((dot e1 v * dot e2 e2 - dot e2 v * dot e1 e2) / det, (dot e2 v * dot e1 e1 - dot e1 v * dot e1 e2) / det)
  else if tr ≠ 0 then ((dot e1 e1 * dot e1 v + dot e1 e2 * dot e2 v) / tr ^ 2, (dot e1 e2 * dot e1 v + dot e2 e2 * dot e2 v) / tr ^ 2)
  else (0, 0)

/-- One day of regress_3dim_data_onto_eofs (158-169). -/
noncomputable def omiDay (eof1 eof2 : List (List ℝ)) (doy : ℕ) (field : List ℝ) : Except PyErr (ℝ × ℝ) :=
  match eof1[doy - 1]?, eof2[doy - 1]? with
  | some e1, some e2 =>
    if e1.length = field.length ∧ e2.length = field.length then .ok (lstsqTwo field e1 e2) else .error .valueError
  | _, _ => .error .indexError

/-- `np.nanstd` without missing values. -/
noncomputable def stdReal (xs : List ℝ) : ℝ :=
  let m := xs.sum / xs.length
  Real.sqrt ((xs.map fun x => (x - m) ^ 2).sum / xs.length)

/-- omi (93-135): `times` are days with the day of the year, `x t lat lon` the OLR.  The result is the OLR array of the caller after
the call and the two series, `none` when the standard deviation is 0 (they are then infinite or NaN).
The grid checks (114-117, 150-153) never refuse (C145).  `detrend(..., overwrite_data=True)` (374) works in the memory of the array
handed to omi. Equal first times: `int(inf)` (393) raises. Simplifications: there is at least one point and there are at least two longitudes; that array holds floating-point numbers in one block of memory (others are copied by scipy). -/
noncomputable def omi (nm nl : ℕ) (times : List (ℚ × ℕ)) (eof1 eof2 : List (List ℝ)) (x : ℕ → ℕ → ℕ → ℝ) :
    (ℕ → ℕ → ℕ → ℝ) × Except PyErr (Option (List ℝ × List ℝ)) :=
  match times with
  | a :: b :: _ =>
    let dt := b.1 - a.1
    let n := times.length
    let after : ℕ → ℕ → ℕ → ℝ := fun t i l => if t < n ∧ i < nm ∧ l < nl then detrendSeries n (fun s => x s i l) t else x t i l
    (after, do
        if 2 ^ 17 < n then .error .valueError
        else if dt = 0 then .error .overflowError
        else
          let lats ← (List.range nm).mapM fun i => omiFilterLat n nl dt 20 96 (-720) 720 fun t l => x t i l
          let raw ← (times.zipIdx).mapM fun p => omiDay eof1 eof2 p.1.2 (lats.flatMap fun y => (List.range nl).map fun l => y p.2 l)
          let s := stdReal (raw.map Prod.fst)
          if s = 0 then .ok none
          else .ok (some (raw.map fun r => r.1 * (1 / s), raw.map fun r => r.2 * (1 / s))))
  | _ => (x, .error .indexError)

/-- `fftfreq(n, dt)` of scipy for even `n`. -/
def fftfreqQ (n : ℕ) (dt : ℚ) (j : ℕ) : ℚ := if j < n / 2 then j / (n * dt) else ((j : ℚ) - n) / (n * dt)

/-- bandpass_filter_3D (220-274), lines 258-268: whether coefficient `j` of the array of `rfft` is kept; `P` is infinite for j = 0. -/
def bandpassKeeps (n : ℕ) (dt a b : ℚ) (j : ℕ) : Bool :=
  if fftfreqQ n dt j = 0 then false                                          -- P = inf > b
  else !decide (1 / fftfreqQ n dt j < a) && !decide (b < 1 / fftfreqQ n dt j)

/-- `scipy.fftpack.rfft` for even `n`: the sum, then for each frequency the real and the imaginary part, last the real part for n/2. -/
noncomputable def rfftPacked (n : ℕ) (x : ℕ → ℝ) (j : ℕ) : ℝ :=
  if j = 0 then ∑ s ∈ Finset.range n, x s
  else if j % 2 = 1 then ∑ s ∈ Finset.range n, x s * Real.cos (2 * Real.pi * ((j + 1) / 2 : ℕ) * s / n)
  else -∑ s ∈ Finset.range n, x s * Real.sin (2 * Real.pi * (j / 2 : ℕ) * s / n)

/-- `scipy.fftpack.irfft` for even `n`. -/
noncomputable def irfftPacked (n : ℕ) (c : ℕ → ℝ) (t : ℕ) : ℝ :=
  (c 0 + (∑ k ∈ Finset.range (n / 2 - 1), 2 * (c (2 * k + 1) * Real.cos (2 * Real.pi * (k + 1 : ℕ) * t / n) -
    c (2 * k + 2) * Real.sin (2 * Real.pi * (k + 1 : ℕ) * t / n))) + c (n - 1) * Real.cos (2 * Real.pi * (n / 2 : ℕ) * t / n)) / n

/-- bandpass_filter_3D (220-274), lines 256-271, for the padded and tapered series of one point. -/
noncomputable def bandpassFilter (n : ℕ) (dt a b : ℚ) (x : ℕ → ℝ) : ℕ → ℝ :=
  irfftPacked n fun j => if bandpassKeeps n dt a b j then rfftPacked n x j else 0

end Metcalcpy
