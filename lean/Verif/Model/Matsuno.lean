import Mathlib.Analysis.SpecialFunctions.Trigonometric.Basic
import Mathlib.Analysis.SpecialFunctions.Sqrt
import Verif.Model.Base

/-!
Model of metcalcpy/contributed/spacetime/matsuno_plot.py: the dispersion curves of the equatorial waves.
Floats are real numbers, `nan` is `none`.  Equivalent depths are positive, and the latitude lies strictly between
the poles, wherever a theorem says so; a division by zero follows Lean (zero) and is excluded there.
-/

namespace Metcalcpy

/-- matsuno_plot.py:49: Earth's radius in metres. -/
noncomputable def earthRadius : ℝ := 6371008

/-- matsuno_plot.py:50: gravitational acceleration. -/
noncomputable def gravityMat : ℝ := 980665 / 100000

/-- matsuno_plot.py:51: angular speed of rotation of the Earth. -/
noncomputable def omegaEarth : ℝ := 7292 / 100000000

/-- matsuno_plot.py:52. -/
noncomputable def deg2rad : ℝ := Real.pi / 180

/-- matsuno_plot.py:53: seconds to days. -/
noncomputable def sec2day : ℝ := 1 / (24 * 60 * 60)

/-- matsuno_plot.py:67-69 beta_parameters: the pair (beta, perimeter). -/
noncomputable def betaParameters (latitude : ℝ) : ℝ × ℝ :=
  (2 * omegaEarth * Real.cos (|latitude| * deg2rad) / earthRadius,
   2 * Real.pi * earthRadius * Real.cos (|latitude| * deg2rad))

/-- matsuno_plot.py:84-86 wn_array: `np.linspace(-max_wn, max_wn, n_wn)`; the absolute value of `n_wn` is used, that of
    `max_wn` is computed and thrown away. -/
noncomputable def wnArray (maxWn : ℝ) (nWn : ℤ) : List ℝ :=
  let n := nWn.natAbs
  (List.range n).map (fun j : ℕ => -maxWn + (j : ℝ) * ((maxWn - -maxWn) / ((n : ℝ) - 1)))

/-- matsuno_plot.py:101-102 wn2k: the wavenumber in radians per metre of one global wavenumber.  At wavenumber zero
    numpy divides by zero, gets an infinite wavelength and from it zero; with Lean's division the result is zero too. -/
noncomputable def wn2k (perimeter wn : ℝ) : ℝ := 2 * Real.pi / (perimeter / wn)

/-- matsuno_plot.py:117-118 afreq2freq: the frequency in cycles per day of one angular frequency. -/
noncomputable def afreq2freq (w : ℝ) : ℝ := 1 / (2 * Real.pi / w * sec2day)

/-- matsuno_plot.py:144-145: the angular frequency of the Kelvin wave at wavenumber `k`. -/
noncomputable def kelvinOmega (he k : ℝ) : Option ℝ :=
  if k ≤ 0 then none else some (Real.sqrt (gravityMat * he) * k)

/-- matsuno_plot.py:178-180: the angular frequency of the mixed Rossby-gravity wave. -/
noncomputable def mrgOmega (he beta k : ℝ) : Option ℝ :=
  if 0 ≤ k then none
  else some (Real.sqrt (gravityMat * he) * k *
    (1 / 2 - 1 / 2 * Real.sqrt (1 + 4 * beta / (k * k * Real.sqrt (gravityMat * he)))))

/-- matsuno_plot.py:211-213: the angular frequency of the eastward inertio-gravity wave with `n = 0`. -/
noncomputable def eig0Omega (he beta k : ℝ) : Option ℝ :=
  if k ≤ 0 then none
  else some (Real.sqrt (gravityMat * he) * k *
    (1 / 2 + 1 / 2 * Real.sqrt (1 + 4 * beta / (k * k * Real.sqrt (gravityMat * he)))))

/-- matsuno_plot.py:366 dispersion. -/
noncomputable def dispersion (k : ℝ) (n : ℕ) (he beta : ℝ) (w : ℝ) : ℝ :=
  w ^ 3 - gravityMat * he * (k ^ 2 + beta * (2 * n + 1) / Real.sqrt (gravityMat * he)) * w - k * beta * gravityMat * he

/-- matsuno_plot.py:250: the approximation from which the search for the Rossby wave starts. -/
noncomputable def erSeed (k : ℝ) (n : ℕ) (he beta : ℝ) : ℝ :=
  -beta * k / (k * k + (2 * n + 1) * (beta / Real.sqrt (gravityMat * he)))

/-- matsuno_plot.py:290 and 330: the approximation from which the searches for the gravity waves start. -/
noncomputable def igSeed (k : ℝ) (n : ℕ) (he beta : ℝ) : ℝ :=
  Real.sqrt ((2 * n + 1) * beta * Real.sqrt (gravityMat * he) + k ^ 2 * gravityMat * he)

/-- matsuno_plot.py:250-253: the angular frequency of the Rossby wave; `solve f seed` stands for scipy's fsolve, which
    is called with all wavenumbers at once, one equation each. -/
noncomputable def erOmega (solve : (ℝ → ℝ) → ℝ → ℝ) (he beta : ℝ) (n : ℕ) (k : ℝ) : Option ℝ :=
  if 0 ≤ k then none else some (solve (dispersion k n he beta) (erSeed k n he beta))

/-- matsuno_plot.py:290-293: eastward inertio-gravity wave. -/
noncomputable def eigOmega (solve : (ℝ → ℝ) → ℝ → ℝ) (he beta : ℝ) (n : ℕ) (k : ℝ) : Option ℝ :=
  if k ≤ 0 then none else some (solve (dispersion k n he beta) (igSeed k n he beta))

/-- matsuno_plot.py:330-333: westward inertio-gravity wave. -/
noncomputable def wigOmega (solve : (ℝ → ℝ) → ℝ → ℝ) (he beta : ℝ) (n : ℕ) (k : ℝ) : Option ℝ :=
  if 0 ≤ k then none else some (solve (dispersion k n he beta) (igSeed k n he beta))

/-- The wave types of the columns of the data frames. -/
inductive WaveMode where
  | kelvin | mrg | eig0 | er (n : ℕ) | eig (n : ℕ) | wig (n : ℕ)
  deriving DecidableEq, Repr

/-- matsuno_plot.py:141-152, 175-187, 208-220, 245-260, 285-300, 325-340: one column, as pairs of wavenumber and frequency
    (the index and the only column of the data frame that each function returns).
    Simplification: some wavenumber has the sign of the wave (otherwise fsolve gets an empty array and scipy raises). -/
noncomputable def modeColumn (solve : (ℝ → ℝ) → ℝ → ℝ) (m : WaveMode) (he latitude maxWn : ℝ) (nWn : ℤ) :
    List (ℝ × Option ℝ) :=
  let bp := betaParameters latitude
  (wnArray maxWn nWn).map (fun wn : ℝ =>
    let k := wn2k bp.2 wn
    let w := match m with
      | .kelvin => kelvinOmega he k
      | .mrg => mrgOmega he bp.1 k
      | .eig0 => eig0Omega he bp.1 k
      | .er n => erOmega solve he bp.1 n k
      | .eig n => eigOmega solve he bp.1 n k
      | .wig n => wigOmega solve he bp.1 n k
    (wn, w.map afreq2freq))

/-- matsuno_plot.py:392-400: the columns of matsuno_dataframe, in order. -/
def matsunoModes (ns : List ℕ) : List WaveMode :=
  [.kelvin, .mrg, .eig0] ++ ns.flatMap (fun n : ℕ => [.er n, .eig n, .wig n])

/-- matsuno_plot.py:402 `pd.merge(left, right, on='Wavenumber')`: inner join on the wavenumber of a frame with rows
    (wavenumber, values) and a one-column frame; every pair of rows with equal wavenumbers, in the order of the left. -/
noncomputable def mergeOn (left : List (ℝ × List (Option ℝ))) (right : List (ℝ × Option ℝ)) :
    List (ℝ × List (Option ℝ)) :=
  open Classical in
  left.flatMap (fun row : ℝ × List (Option ℝ) =>
    (right.filter (fun r : ℝ × Option ℝ => decide (r.1 = row.1))).map
      (fun r : ℝ × Option ℝ => (row.1, row.2 ++ [r.2])))

/-- matsuno_plot.py:392-403 matsuno_dataframe; also the loop body of matsuno_modes_wk (538-549). -/
noncomputable def matsunoDataframe (solve : (ℝ → ℝ) → ℝ → ℝ) (he : ℝ) (ns : List ℕ) (latitude maxWn : ℝ) (nWn : ℤ) :
    List (ℝ × List (Option ℝ)) :=
  let first := (modeColumn solve .kelvin he latitude maxWn nWn).map
    (fun r : ℝ × Option ℝ => (r.1, [r.2]))
  ((matsunoModes ns).drop 1).foldl (fun acc m => mergeOn acc (modeColumn solve m he latitude maxWn nWn)) first

end Metcalcpy
