/-
Model of metcalcpy/pre_processing/waves.py on one circle of longitudes.
-/
import Verif.Model.Base
import Mathlib.Analysis.SpecialFunctions.Complex.Arg
import Mathlib.Analysis.SpecialFunctions.Trigonometric.Basic

namespace Metcalcpy

/-- `scipy.fft.rfft`: the coefficient of wavenumber `k` (waves.py:87). -/
noncomputable def rfftAt (x : List ℝ) (k : ℕ) : ℂ :=
  ∑ j ∈ Finset.range x.length, (x.getD j 0 : ℂ) * Complex.exp (-(2 * Real.pi * Complex.I * ((k : ℂ) * j / x.length)))

/-- `fc.sel(lon_wavenum=waves)` (waves.py:58): a wavenumber that is not there raises. -/
def selWaves (fc : List (ℕ × ℂ)) : List ℕ → Except PyErr (List (ℕ × ℂ))
  | [] => .ok []
  | k :: ks =>
    match fc.find? (fun p => p.1 = k) with
    | none => .error .keyError
    | some p => do .ok (p :: (← selWaves fc ks))

/-- zonal_wave_coeffs (waves.py:18-90): wavenumbers and coefficients; a transform of no values raises. Simplification: the
coefficients of xrft are taken to be those of scipy. -/
noncomputable def zonalWaveCoeffs (x : List ℝ) (waves : Option (List ℕ)) (fftpkg : String) : Except PyErr (List (ℕ × ℂ)) :=
  if fftpkg ≠ "scipy" ∧ fftpkg ≠ "xrft" then .error .valueError
  else if x.length = 0 then .error .valueError
  else
    let fc := (List.range (x.length / 2 + 1)).map fun k => (k, rfftAt x k)
    match waves with
    | none => .ok fc
    | some w => selWaves fc w

/-- Conversion to the type of the data: integers are truncated. -/
noncomputable def asType (intData : Bool) (y : ℝ) : ℝ :=
  if intData then (if 0 ≤ y then ((⌊y⌋ : ℤ) : ℝ) else ((⌈y⌉ : ℤ) : ℝ)) else y

/-- zonal_wave_ampl_phase (waves.py:117-160): for every wavenumber, amplitude and phase. -/
noncomputable def zonalWaveAmplPhase (intData : Bool) (x : List ℝ) (waves : Option (List ℕ)) (phaseDeg : Bool) (fftpkg : String) :
    Except PyErr (List (ℕ × ℝ × ℝ)) := do
  let fc ← zonalWaveCoeffs x waves fftpkg
  .ok (fc.map fun p => (p.1, asType intData ((if p.1 ≠ 0 then 2 else 1) * ‖p.2‖ / x.length),
    asType intData (if phaseDeg then Complex.arg p.2 * (180 / Real.pi) else Complex.arg p.2)))

/-- `scipy.fft.irfft` of `c`, for 2 (m - 1) values where m is the number of coefficients: the value at `j`. -/
noncomputable def irfftAt (c : List ℂ) (j : ℕ) : ℝ :=
  (1 / ((2 * (c.length - 1) : ℕ) : ℝ)) * ∑ p ∈ Finset.range c.length, (if p = 0 ∨ p = c.length - 1 then 1 else 2) *
    (c.getD p 0 * Complex.exp (2 * Real.pi * Complex.I * ((p : ℂ) * j / (2 * (c.length - 1) : ℕ)))).re

/-- zonal_wave_contributions (waves.py:163-219): for every wavenumber, the contribution at every longitude. An array that does
not have the longitudes of the data raises (line 205), as does a transform to no values; for xrft there is no array (line 219).
Simplification: the data are floating-point numbers (`astype` would truncate the contributions of integer data). -/
noncomputable def zonalWaveContributions (x : List ℝ) (waves : Option (List ℕ)) (fftpkg : String) :
    Except PyErr (List (ℕ × List ℝ)) := do
  let fc ← zonalWaveCoeffs x waves fftpkg
  if fftpkg = "scipy" then
    if fc.length < 2 ∨ 2 * (fc.length - 1) ≠ x.length then .error .valueError
    else .ok ((fc.map Prod.fst).map fun k =>
      (k, (List.range x.length).map fun j => irfftAt (fc.map fun p => if p.1 = k then p.2 else 0) j))
  else .error .attributeError

/-- zonal_wave_covariance (waves.py:222-262): line 254 reads `dimvar`, which is neither an argument (they are `dimvar1` and `dimvar2`) nor
a variable of the module; `globals` are the names of the module that have a value. -/
noncomputable def zonalWaveCovariance (globals : List String) (x y : List ℝ) (waves : Option (List ℕ)) (fftpkg : String) :
    Except PyErr (List (ℕ × ℝ)) := do
  if "dimvar" ∉ globals then .error .nameError
  else
    let fc1 ← zonalWaveCoeffs x waves fftpkg
    let fc2 ← zonalWaveCoeffs y waves fftpkg
    .ok (List.zipWith (fun p q => (p.1, (if p.1 ≠ 0 then 2 else 1) * (p.2 * (starRingEnd ℂ) q.2).re / (x.length : ℝ) ^ 2)) fc1 fc2)

/-- The names of the module (waves.py:12-18, 63, 93, 117, 163, 222). -/
def wavesGlobals : List String :=
  ["np", "xr", "scipy", "xrft", "zonal_wave_coeffs", "_zonal_wave_coeffs_scipy", "_zonal_wave_coeffs_xrft", "zonal_wave_ampl_phase",
    "zonal_wave_contributions", "zonal_wave_covariance"]

end Metcalcpy
