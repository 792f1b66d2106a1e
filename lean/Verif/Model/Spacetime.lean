/-
Model of metcalcpy/contributed/spacetime/spacetime.py: the 1-2-1 smoother, the segments, the labels of frequencies and
wavenumbers, and coherence and phase.
-/
import Verif.Model.Base
import Mathlib.Analysis.SpecialFunctions.Complex.Arg

namespace Metcalcpy

/-- One turn of the loop of smooth121_1D (spacetime.py:330-338); `none` is NaN. A negative index is not reached: for i = 0 the
first value is not looked back from. Reading beyond the end raises. -/
def smoothStep {K : Type} [Field K] (temp : List (Option K)) (out : List (Option K)) (i : ℕ) :
    Except PyErr (List (Option K)) :=
  match temp.getD i none with
  | none => .ok (out.set 0 none)
  | some x =>
    if i = 0 ∨ (temp.getD (i - 1) none).isNone then
      match temp[i + 1]? with
      | none => .error .indexError
      | some y => .ok (out.set i (y.map fun y => (3 * x + y) / 4))
    else if i = temp.length - 1 ∨ (temp.getD (i + 1) none).isNone then
      .ok (out.set i ((temp.getD (i - 1) none).map fun y => (3 * x + y) / 4))
    else .ok (out.set i ((temp.getD (i + 1) none).bind fun z => (temp.getD (i - 1) none).map fun y => (z + 2 * x + y) / 4))

/-- smooth121_1D (spacetime.py:312-340). The array starts as zero times the values (line 325), NaN where they are. -/
def smooth121 {K : Type} [Field K] (temp : List (Option K)) : Except PyErr (List (Option K)) :=
  (List.range temp.length).foldlM (smoothStep temp) (temp.map fun x => x.map fun _ => 0)

/-- The loop over segments of mjo_cross (spacetime.py:424-444): the first time steps of the segments, with at most `fuel`
turns; `none` when the loop is not finished by then. Simplification: starts are not negative (a negative one is a wrong slice). -/
def segmentLoop (ntim segLen : ℕ) (segOverLap : ℤ) : ℕ → ℤ → Option (List ℤ)
  | 0, _ => none
  | fuel + 1, ntStrt =>
    let ntLast := ntStrt + segLen
    if ntLast > (ntim : ℤ) - 1 then some []
    else (segmentLoop ntim segLen segOverLap fuel (ntLast + segOverLap - 1)).map (ntStrt :: ·)

/-- Number of frequencies allotted by mjo_cross (spacetime.py:406-409). For odd lengths `segLen/2+1` is not an integer, and
its remainder is not 1. -/
def mjoNfreq (segLen : ℕ) : ℕ :=
  if segLen % 2 = 0 ∧ (segLen / 2 + 1) % 2 = 1 then segLen / 2 + 1 else segLen / 2 + 2

/-- Number of frequencies of one segment (mjo_cross_segment_realfft, spacetime.py:178-197). -/
def segmentNfreq (segLen : ℕ) : ℕ :=
  let NT := segLen / 2 + 1
  if NT % 2 = 1 then NT else NT + 1

/-- The rows of one segment: the frequencies of the transform, and the first row again when their number is even
(spacetime.py:179-214, lines 205 and 213). -/
def segmentRows {α : Type} (rows : List α) : List α :=
  if rows.length % 2 = 1 then rows else rows ++ rows.take 1

/-- `freq = np.linspace(0, 0.5, num=nfreq)` (spacetime.py:418). -/
def mjoFreq (nfreq j : ℕ) : ℚ := (1 / 2) * j / (nfreq - 1 : ℕ)

/-- `wave = np.arange(-int(nwave / 2), int(nwave / 2) + 1, 1.)` (spacetime.py:410-417). -/
def mjoWave (mlon : ℕ) : List ℤ :=
  let nwave := if mlon % 2 = 1 then mlon else mlon + 1
  (List.range (2 * (nwave / 2) + 1)).map fun j : ℕ => (j : ℤ) - (nwave / 2 : ℕ)

/-- `np.fft.fftshift` of one axis. -/
def fftShift {α : Type} (l : List α) : List α := l.drop ((l.length + 1) / 2) ++ l.take ((l.length + 1) / 2)

/-- The columns of one row of a segment (spacetime.py:157-159, 170-214): shifted, reversed, and for an even number of longitudes
with the last column also in front. -/
def segmentColumns {α : Type} (row : List α) : List α :=
  let r := (fftShift row).reverse
  if row.length % 2 = 1 then r else r.drop (r.length - 1) ++ r

/-- Power spectra of X and Y, co- and quadrature spectrum. -/
structure Spectrum where
  px : ℝ
  py : ℝ
  co : ℝ
  quad : ℝ

/-- spacetime.py:161-168 at one frequency and wavenumber: averages over the latitudes of the coefficients of X and Y. -/
noncomputable def crossAt (c : List (ℂ × ℂ)) : Spectrum where
  px := (c.map fun p => ‖p.1‖ ^ 2).sum / c.length
  py := (c.map fun p => ‖p.2‖ ^ 2).sum / c.length
  co := (c.map fun p => ((starRingEnd ℂ) p.1 * p.2).re).sum / c.length
  quad := (c.map fun p => ((starRingEnd ℂ) p.1 * p.2).im).sum / c.length

/-- One entry of the array of a segment, for one wavenumber: the time mean is set to NaN (line 437), the other frequencies are smoothed
(smooth121, spacetime.py:300-307). -/
noncomputable def smoothEntry (l : List ℝ) : Except PyErr (List (Option ℝ)) := do
  let s ← smooth121 (l.tail.map some)
  .ok ((l.take 1).map (fun _ => none) ++ s)

/-- The four entries of the array at one wavenumber, over the frequencies. -/
structure Stc where
  px : List (Option ℝ)
  py : List (Option ℝ)
  co : List (Option ℝ)
  quad : List (Option ℝ)

/-- spacetime.py:435-439 for one segment. -/
noncomputable def segmentStc (seg : List (List (ℂ × ℂ))) : Except PyErr Stc := do
  let rows := segmentRows (seg.map crossAt)
  let px ← smoothEntry (rows.map Spectrum.px)
  let py ← smoothEntry (rows.map Spectrum.py)
  let co ← smoothEntry (rows.map Spectrum.co)
  let quad ← smoothEntry (rows.map Spectrum.quad)
  .ok ⟨px, py, co, quad⟩

/-- Sum of two arrays of equal length. -/
noncomputable def addEntries (a b : List (Option ℝ)) : Except PyErr (List (Option ℝ)) :=
  if a.length = b.length then .ok (List.zipWith (fun x y => x.bind fun x => y.map fun y => x + y) a b) else .error .valueError

/-- `STC = STC + STCseg` (spacetime.py:441). -/
noncomputable def addStc (a b : Stc) : Except PyErr Stc := do
  let px ← addEntries a.px b.px
  let py ← addEntries a.py b.py
  let co ← addEntries a.co b.co
  let quad ← addEntries a.quad b.quad
  .ok ⟨px, py, co, quad⟩

/-- Coherence squared, phase and the two phase components at one frequency (mjo_cross_coh2pha, spacetime.py:262-280): a power of Y
that is zero becomes NaN. 0/0 is NaN; a positive number over zero does not occur here for genuine spectra. -/
noncomputable def coh2pha (px py co quad : Option ℝ) : Option ℝ × Option ℝ × Option ℝ × Option ℝ :=
  match px, py, co, quad with
  | some px, some py, some c, some q =>
    (if px = 0 ∨ py = 0 then none else some ((c ^ 2 + q ^ 2) / (px * py)), some (Complex.arg ⟨c, q⟩),
      if √(q ^ 2 + c ^ 2) = 0 then none else some (-q / √(q ^ 2 + c ^ 2)),
      if √(q ^ 2 + c ^ 2) = 0 then none else some (c / √(q ^ 2 + c ^ 2)))
  | _, _, _, _ => (none, none, none, none)

/-- `STC / kseg` (spacetime.py:446). -/
noncomputable def divEntry (l : List (Option ℝ)) (k : ℕ) : List (Option ℝ) := l.map fun x => if k = 0 then none else x.map (· / k)

/-- spacetime.py:416, 433-449 at one wavenumber: segments summed, divided by their number, and coherence and phase from the averages. -/
noncomputable def mjoCross (nfreq : ℕ) (segs : List (List (List (ℂ × ℂ)))) :
    Except PyErr (List (Option ℝ × Option ℝ × Option ℝ × Option ℝ)) := do
  let zero := List.replicate nfreq (some (0 : ℝ))
  let s ← segs.foldlM (fun s seg => do addStc s (← segmentStc seg)) (⟨zero, zero, zero, zero⟩ : Stc)
  .ok ((List.range nfreq).map fun j => coh2pha ((divEntry s.px segs.length).getD j none) ((divEntry s.py segs.length).getD j none)
    ((divEntry s.co segs.length).getD j none) ((divEntry s.quad segs.length).getD j none))

end Metcalcpy
