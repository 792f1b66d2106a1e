/-
Model of metcalcpy/contributed/spacetime/spacetime.py: symmetric parts, the spectra of one segment by the complex transform, and the
filter for convectively coupled waves.
-/
import Verif.Model.Spacetime
import Verif.Model.Scorecard
import Mathlib.Analysis.SpecialFunctions.Trigonometric.Basic

namespace Metcalcpy

/-- The loop of get_symmasymm over the first `n` rows (spacetime.py:233-247), at one time and longitude: `x[ll] = 0.5 * (X[ll] ±
X[NM - ll - 1])`; assigning beyond the end of `x` raises. -/
def symmFill (sgn : ℚ) (X x : List ℚ) (n : ℕ) : Except PyErr (List ℚ) :=
  (List.range n).foldlM (fun x ll =>
    if ll < x.length then .ok (x.set ll (1 / 2 * (X.getD ll 0 + sgn * X.getD (X.length - ll - 1) 0))) else .error .indexError) x

/-- `X[:, mask, :]` at one time and longitude: a mask of another length raises. -/
def maskRows (X lat : List ℚ) (p : ℚ → Bool) : Except PyErr (List ℚ) :=
  if X.length = lat.length then .ok (((X.zip lat).filter fun q => p q.2).map Prod.fst) else .error .indexError

/-- get_symmasymm (spacetime.py:219-251), at one time and longitude; an option that is neither symmetric nor antisymmetric leaves
the result without a value. -/
def getSymmasymm (X lat : List ℚ) (opt : String) : Except PyErr (List ℚ) := do
  if opt = "symm" then
    let x ← maskRows X lat (fun l => decide (0 ≤ l))
    if lat.length % 2 = 1 then symmFill 1 X x (X.length / 2 + 1) else symmFill 1 X x (X.length / 2)
  else if opt = "asymm" ∨ opt = "anti-symm" then
    let x ← maskRows X lat (fun l => decide (0 < l))
    if lat.length % 2 = 1 then symmFill (-1) X x (X.length / 2) else symmFill (-1) X x (X.length / 2)
  else .error .unboundLocalError

/-- mjo_cross_segment at one frequency and wavenumber (spacetime.py:74-80). -/
noncomputable def crossAtComplex (c : List (ℂ × ℂ)) : Spectrum where
  px := (c.map fun p => ‖p.1‖ ^ 2).sum / c.length
  py := (c.map fun p => ‖p.2‖ ^ 2).sum / c.length
  co := ((c.map fun p => (starRingEnd ℂ) p.2 * p.1).sum / c.length).re
  quad := ((c.map fun p => (starRingEnd ℂ) p.2 * p.1).sum / c.length).im

/-- Rows of the array of mjo_cross_segment (spacetime.py:85-127) for its entry number `entry` (powers of X and Y, co- and
quadrature spectrum): one more row for an even number of times; with an even number of longitudes only entry 0 of it is set (line 124). The columns
are already reversed; the one in front for an even number of longitudes is in `segmentColumns`. -/
def complexRows (NL entry : ℕ) (rows : List (List ℝ)) : List (List ℝ) :=
  if rows.length % 2 = 1 then rows
  else if NL % 2 = 1 then rows ++ rows.take 1
  else if entry = 0 then rows ++ rows.take 1
  else rows ++ [List.replicate NL 0]

/-- Earth's radius (spacetime.py:47). -/
def earthRe : ℝ := 6371008

/-- Gravitational acceleration (spacetime.py:48). -/
noncomputable def earthG : ℝ := 980665 / 100000

/-- beta at the equator (spacetime.py:49-50). -/
noncomputable def earthBeta : ℝ := 2 * (7292 / 100000000) / earthRe

/-- Parameters of kf_filter. -/
structure KfParams where
  obsPerDay : ℚ
  tMin : ℚ
  tMax : ℚ
  kMin : ℤ
  kMax : ℤ
  hMin : ℝ
  hMax : ℝ
  waveName : String

/-- The limit of wavenumbers as a column (spacetime.py:486-498). -/
def kfColumn (nk : ℕ) (k : ℤ) : ℤ := if k < 0 then max (nk + k) (nk / 2 : ℕ) else min k (nk / 2 : ℕ)

/-- Limits of frequencies as rows (spacetime.py:481-484). Simplification: periods and observations per day are positive. -/
def kfRows (nf : ℕ) (p : KfParams) : ℤ × ℤ :=
  let nt : ℚ := ((nf : ℚ) - 1) * 2
  (nearestEven (nt / (p.tMax * p.obsPerDay)), min (nearestEven (nt / (p.tMin * p.obsPerDay))) nf)

/-- What is left of row `j` and column `i` by the ranges of frequencies and wavenumbers (spacetime.py:502-514). -/
def kfInRange (nk nf : ℕ) (p : KfParams) (i j : ℕ) : Prop :=
  let jMin := (kfRows nf p).1
  let jMax := (kfRows nf p).2
  let iMin := kfColumn nk p.kMin
  let iMax := kfColumn nk p.kMax
  ¬ (0 < jMin ∧ (j : ℤ) < jMin) ∧ ¬ (jMax < nf ∧ jMax + 1 ≤ (j : ℤ)) ∧
    (iMin < iMax → ¬ (0 < iMin ∧ (i : ℤ) < iMin) ∧ ¬ (iMax < nk ∧ iMax + 1 ≤ (i : ℤ))) ∧
    (¬ iMin < iMax → ¬ (iMax + 1 ≤ (i : ℤ) ∧ (i : ℤ) < iMin))

/-- The speeds (spacetime.py:516-525): `empty` is what is in memory where an array is made but not set, which is the case when
only one of the depths is given. Simplification: depths are positive; a speed that is NaN is not used. -/
noncomputable def kfSpeeds (empty : ℝ × ℝ) (p : KfParams) : ℝ × ℝ :=
  if p.hMin = -9999 ∨ p.hMax = -9999 then empty else (√(earthG * p.hMin), √(earthG * p.hMax))

/-- Frequency on the dispersion curve (spacetime.py:542-564) in radians per second; `none` for other names. -/
noncomputable def kfCurve (name : String) (k c : ℝ) : Option ℝ :=
  if name = "Kelvin" ∨ name = "kelvin" ∨ name = "KELVIN" then some (k * c)
  else if name = "ER" ∨ name = "er" then some (-earthBeta * k / (k ^ 2 + 3 * earthBeta / c))
  else if name = "MRG" ∨ name = "IG0" ∨ name = "mrg" ∨ name = "ig0" then
    some (if k = 0 then √(earthBeta * c)
      else if 0 < k then k * c * (1 / 2 + 1 / 2 * √(1 + 4 * earthBeta / (k ^ 2 * c)))
      else k * c * (1 / 2 - 1 / 2 * √(1 + 4 * earthBeta / (k ^ 2 * c))))
  else if name = "IG1" ∨ name = "ig1" then some (√(3 * earthBeta * c + k ^ 2 * c ^ 2))
  else if name = "IG2" ∨ name = "ig2" then some (√(5 * earthBeta * c + k ^ 2 * c ^ 2))
  else none

/-- The wavenumber that column `i` is taken for, per metre (spacetime.py:531-537). -/
noncomputable def kfWavenumber (nk i : ℕ) : ℝ := if 2 * i < nk then i / earthRe else -((nk : ℝ) - i) / earthRe

/-- Seconds per cycle (spacetime.py:527). -/
noncomputable def kfSpc (p : KfParams) : ℝ := 24 * 3600 / (2 * Real.pi * (p.obsPerDay : ℝ))

/-- Rows between which column `i` is kept (spacetime.py:539-575). -/
noncomputable def kfWaveRows (empty : ℝ × ℝ) (nk nf : ℕ) (p : KfParams) (i : ℕ) : ℤ × ℤ :=
  let c := kfSpeeds empty p
  let k := kfWavenumber nk i
  let nt : ℝ := ((nf : ℝ) - 1) * 2
  let f0 := (kfCurve p.waveName k c.1).getD 0
  let f1 := (kfCurve p.waveName k c.2).getD (nf / kfSpc p)
  (min (if p.hMin = -9999 then 0 else ⌊f0 * kfSpc p * nt⌋) nf, max (if p.hMax = -9999 then (nf : ℤ) else ⌈f1 * kfSpc p * nt⌉) 0)

/-- What is left of row `j` and column `i` by the dispersion curves (spacetime.py:577-581). -/
def kfOnCurve (empty : ℝ × ℝ) (nk nf : ℕ) (p : KfParams) (i j : ℕ) : Prop :=
  let r := kfWaveRows empty nk nf p i
  ¬ (0 < r.1 ∧ (j : ℤ) < r.1) ∧ ¬ (r.2 < nf ∧ r.2 + 1 ≤ (j : ℤ))

open Classical in
/-- kf_filter_mask (spacetime.py:460-586): transposed and with the columns reversed, the coefficient of wavenumber index `κ` is in
column nk - 1 - κ. -/
noncomputable def kfMask (empty : ℝ × ℝ) (nk nf : ℕ) (p : KfParams) (Z : ℕ → ℕ → ℂ) (κ j : ℕ) : ℂ :=
  if kfInRange nk nf p (nk - 1 - κ) j ∧ kfOnCurve empty nk nf p (nk - 1 - κ) j then Z κ j else 0

/-- `np.fft.rfft2` over longitude and time: the coefficient of wavenumber index `κ` < nk and frequency `f` ≤ nt / 2. -/
noncomputable def rfft2 (nk nt : ℕ) (data : ℕ → ℕ → ℝ) (κ f : ℕ) : ℂ :=
  ∑ m ∈ Finset.range nk, ∑ t ∈ Finset.range nt,
    (data t m : ℂ) * Complex.exp (-(2 * Real.pi * Complex.I * ((κ : ℂ) * m / nk + (f : ℂ) * t / nt)))

/-- `np.fft.irfft2` over longitude and time, with nf frequencies: 2 (nf - 1) times; frequencies but the first and the last count twice,
and imaginary parts are dropped. -/
noncomputable def irfft2 (nk nf : ℕ) (Z : ℕ → ℕ → ℂ) (t m : ℕ) : ℝ :=
  (1 / ((nk : ℝ) * (2 * (nf - 1) : ℕ))) * ∑ κ ∈ Finset.range nk, ∑ f ∈ Finset.range nf,
    (if f = 0 ∨ f = nf - 1 then 1 else 2) *
      (Z κ f * Complex.exp (2 * Real.pi * Complex.I * ((κ : ℂ) * m / nk + (f : ℂ) * t / (2 * (nf - 1) : ℕ)))).re

/-- kf_filter (spacetime.py:589-614): the number of times of the result, and its values. -/
noncomputable def kfFilter (empty : ℝ × ℝ) (nk nt : ℕ) (p : KfParams) (data : ℕ → ℕ → ℝ) : ℕ × (ℕ → ℕ → ℝ) :=
  let nf := nt / 2 + 1
  (2 * (nf - 1), irfft2 nk nf (kfMask empty nk nf p (rfft2 nk nt data)))

end Metcalcpy
