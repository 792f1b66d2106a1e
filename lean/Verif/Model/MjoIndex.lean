/-
Model of metcalcpy/contributed/rmm_omi/compute_mjo_indices.py: removal of the 120-day mean, the grid checks, the
projection onto EOFs, and the masking of the spectrum in the OMI filter. The Fourier transforms themselves are parameters
(`spectrum` is what `np.fft.fft2` returns for one latitude).
-/
import Verif.Model.WeatherRegime
import Verif.Model.Blocking

namespace Metcalcpy

/-- compute_mjo_indices.py:289-293: the values averaged at time step `idx`, `n = int(120/dt)`. -/
def window120 (n : ℤ) (col : List Cell) (idx : ℕ) : List Cell :=
  if n < (idx : ℤ) then (col.take (idx + 1)).drop ((idx : ℤ) - n).toNat else col.take (idx + 1)

/-- rem_120day_mean (compute_mjo_indices.py:277-295) for the values of one longitude; `times` in days. Fewer than two
times: `time[1]` raises; equal first times: `int(inf)` raises; more times than values: the assignment raises. Values beyond the last
time stay as they are. -/
def rem120dayMean (times : List ℚ) (col : List Cell) : Except PyErr (List Cell) :=
  match times with
  | t0 :: t1 :: _ =>
    if t1 - t0 = 0 then .error .overflowError
    else if col.length < times.length then .error .indexError
    else .ok (col.mapIdx fun idx c =>
      if idx < times.length then
        match c, nanMean (window120 (truncInt (120 / (t1 - t0))) col idx) with
        | some x, some m => some (x - m)
        | _, _ => none
      else c)
  | _ => .error .indexError

/-- `lon == eoflon` for two coordinates of xarray (compute_mjo_indices.py:40, 43, 46, 114, 116, 150, 152): xarray first
aligns both operands on the labels they have in common (inner join, its default for arithmetic and comparisons), then
compares the values found at each label. Labels are distinct (xarray raises otherwise). -/
def alignedEqual (a b : List ℚ) : List Bool :=
  let common := if a = b then a else a.filter fun x => decide (x ∈ b)
  common.map fun x => decide (a.getD (a.idxOf x) 0 = b.getD (b.idxOf x) 0)

/-- `np.all(lon == eoflon)`. -/
def gridsAgree (a b : List ℚ) : Bool := (alignedEqual a b).all id

/-- Scalar product. -/
def dotQ (x y : List ℚ) : ℚ := (List.zipWith (· * ·) x y).sum

/-- regress_vector_onto_eofs (compute_mjo_indices.py:202-217): `np.linalg.lstsq` for two columns, by the normal equations.
Vectors of different lengths raise. Simplification: `none` when the two EOFs are linearly dependent (numpy then returns the
solution of least norm). -/
def regressOntoEofs (v e1 e2 : List ℚ) : Except PyErr (Option (ℚ × ℚ)) :=
  if e1.length ≠ e2.length ∨ v.length ≠ e1.length then .error .valueError
  else
    let det := dotQ e1 e1 * dotQ e2 e2 - dotQ e1 e2 * dotQ e1 e2
    if det = 0 then .ok none
    else .ok (some ((dotQ e1 v * dotQ e2 e2 - dotQ e2 v * dotQ e1 e2) / det,
      (dotQ e2 v * dotQ e1 e1 - dotQ e1 v * dotQ e1 e2) / det))

/-- One day of regress_3dim_data_onto_eofs (compute_mjo_indices.py:160-166), its flattened field with the day of the year:
`EOF1[doy-1]` raises when there is no such day. -/
def regressDay (eof1 eof2 : List (List ℚ)) (d : ℕ × List ℚ) : Except PyErr (Option (ℚ × ℚ)) :=
  match eof1[d.1 - 1]?, eof2[d.1 - 1]? with
  | some e1, some e2 => regressOntoEofs d.2 e1 e2
  | _, _ => .error .indexError

/-- regress_3dim_data_onto_eofs (compute_mjo_indices.py:139-171). -/
def regressDaily (data : List (ℕ × List ℚ)) (eof1 eof2 : List (List ℚ)) : Except PyErr (List (Option (ℚ × ℚ))) :=
  data.mapM (regressDay eof1 eof2)

/-- rmm (compute_mjo_indices.py:54-85) for the anomalies of one time, after the removal of the 120-day mean: fields divided
by `rmm_norm`, put side by side, projected on the EOFs put side by side, coefficients divided by `pc_norm`. -/
def rmmAt (olr u850 u200 : List ℚ) (e1 e2 : List ℚ × List ℚ × List ℚ) (norm : ℚ × ℚ × ℚ) (pcNorm : ℚ × ℚ) :
    Except PyErr (Option (ℚ × ℚ)) := do
  let r ← regressOntoEofs (olr.map (· / norm.1) ++ u850.map (· / norm.2.1) ++ u200.map (· / norm.2.2))
    (e1.1 ++ e1.2.1 ++ e1.2.2) (e2.1 ++ e2.2.1 ++ e2.2.2)
  return r.map fun p => (p.1 * (1 / pcNorm.1), p.2 * (1 / pcNorm.2))

/-- `np.roll(a, k)` of an array of `n` entries, as a function of the position. -/
def rollFn {α : Type} (n k : ℕ) (a : ℕ → α) : ℕ → α := fun i => a ((i + (n - k % n)) % n)

/-- Arrays of two dimensions; a roll of each axis. -/
def roll2 {α : Type} (nt nl kt kl : ℕ) (S : ℕ → ℕ → α) : ℕ → ℕ → α :=
  rollFn nt kt fun i => rollFn nl kl (S i)

/-- freq_axis (compute_mjo_indices.py:399-404). -/
def freqAxis (nt : ℕ) (dataperday : ℚ) (i : ℕ) : ℚ :=
  if (i : ℚ) ≤ (nt : ℚ) / 2 then i * dataperday / nt else -1 * (nt - i) * dataperday / nt

/-- wn_axis (compute_mjo_indices.py:412-420). -/
def wnAxis (nl : ℕ) (i : ℕ) : ℚ := if (i : ℚ) ≤ (nl : ℚ) / 2 then -1 * i else nl - i

/-- The four inequalities of compute_mjo_indices.py:454-457, with f1 = f2 = freq_min, f3 = f4 = freq_max, s1 = s3 = wn_min,
s2 = s4 = wn_max (lines 430-437). -/
def insideBand (fmin fmax wmin wmax ff ss : ℚ) : Bool :=
  decide (ff ≥ (ss * (fmin - fmin) + fmin * wmin - fmin * wmax) / (wmin - wmax)) &&
  decide (ff ≤ (ss * (fmax - fmax) + fmax * wmin - fmax * wmax) / (wmin - wmax)) &&
  decide (ss ≥ (ff * (wmin - wmin) - fmin * wmin + fmax * wmin) / (fmax - fmin)) &&
  decide (ss ≤ (ff * (wmax - wmax) - fmin * wmax + fmax * wmax) / (fmax - fmin))

/-- One assignment `fourier_fft_filtered[i, j] = 0`. -/
def zeroAt {α : Type} [Zero α] (S : ℕ → ℕ → α) (p : ℕ × ℕ) : ℕ → ℕ → α :=
  fun i j => if i = p.1 ∧ j = p.2 then 0 else S i j

/-- The assignments made for the position (i_f, i_wn) outside of the band (compute_mjo_indices.py:460-475). -/
def zeroedFrom (nt nl i j : ℕ) : List (ℕ × ℕ) :=
  (i, j) ::
    (if j = 0 ∧ i = 0 then []
     else if j = 0 then (if nt - i < nt then [(nt - i, j)] else [])
     else if i = 0 then (if nl - j < nl then [(i, nl - j)] else [])
     else if nt - i < nt ∧ nl - j < nl then [(nt - i, nl - j)] else [])

/-- The body of the two loops (compute_mjo_indices.py:452-475). -/
def bandStep {α : Type} [Zero α] (keep : ℕ → ℕ → Bool) (nt nl : ℕ) (S : ℕ → ℕ → α) (p : ℕ × ℕ) : ℕ → ℕ → α :=
  if keep p.1 p.2 then S else (zeroedFrom nt nl p.1 p.2).foldl zeroAt S

/-- perform_3dim_spectral_filtering (compute_mjo_indices.py:441-482), between the transform and its inverse: the spectrum
of one latitude as `np.fft.fft2` orders it, `nt` frequencies and `nl` wavenumbers; the result in the same order.
`fftshift` is a roll by `n // 2`, `ifftshift` a roll by `-(n // 2)`. The limits are frequencies, 1 / period (lines 362-364). -/
def omiFilter {α : Type} [Zero α] (nt nl : ℕ) (timeSpacing periodMin periodMax wmin wmax : ℚ) (spectrum : ℕ → ℕ → α) :
    ℕ → ℕ → α :=
  let shifted := roll2 nt nl (nt / 2) (nl / 2) spectrum                                        -- 443
  let ordered := roll2 nt nl (nt / 2) (nl / 2) shifted                                         -- 444-445
  let keep : ℕ → ℕ → Bool := fun i j =>
    insideBand (1 / periodMax) (1 / periodMin) wmin wmax (freqAxis nt (1 / timeSpacing) i) (wnAxis nl j)
  let filtered := ((List.range (nt / 2 + 1)).flatMap fun i => (List.range nl).map fun j => (i, j)).foldl
    (bandStep keep nt nl) ordered
  let back := roll2 nt nl (nt - nt / 2) (nl - nl / 2) filtered                                 -- 479-480
  roll2 nt nl (nt - nt / 2) (nl - nl / 2) back                                                 -- 481

end Metcalcpy
