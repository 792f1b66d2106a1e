import Mathlib.Analysis.SpecialFunctions.Integrals.Basic
import Mathlib.MeasureTheory.Integral.IntervalIntegral.Basic
import Verif.Model.Base

/-!
Model of metcalcpy/contributed/mjo_enso/compute_mjo_enso.py: calc_tau_MJO and calc_wpower_MJO.
Floats are real numbers; `none` stands for nan and for the infinite results of a division by zero.  Arrays are functions
of their indices together with their sizes.
-/

namespace Metcalcpy

/-- Sum over `i < n`; missing if any term is missing. -/
noncomputable def osum (n : ℕ) (f : ℕ → Option ℝ) : Option ℝ :=
  if ∀ i < n, (f i).isSome then some (∑ i ∈ Finset.range n, (f i).getD 0) else none

/-- Product of two values, either of which may be missing. -/
noncomputable def omul (a b : Option ℝ) : Option ℝ := a.bind (fun x => b.map (fun y => x * y))

/-- Difference of two values. -/
noncomputable def osub (a b : Option ℝ) : Option ℝ := a.bind (fun x => b.map (fun y => x - y))

/-- Sum of two values. -/
noncomputable def oadd (a b : Option ℝ) : Option ℝ := a.bind (fun x => b.map (fun y => x + y))

/-- Quotient; a zero divisor gives no finite value. -/
noncomputable def odiv (a b : Option ℝ) : Option ℝ :=
  a.bind (fun x => b.bind (fun y => if y = 0 then none else some (x / y)))

/-- A bank of filters: `cols` columns of `len` weights, `w k i` the weight `k` of column `i`. -/
structure FiltBank where
  len : ℕ
  cols : ℕ
  w : ℕ → ℕ → ℝ

/-- `np.convolve(a, v, mode='same')` (numpy), for `1 ≤ m ≤ n`, the lengths of `v` and `a`: the entry `t + (m-1)//2` of the
    full convolution; only weights that exist are used. -/
noncomputable def convSame (n : ℕ) (a : ℕ → Option ℝ) (m : ℕ) (v : ℕ → ℝ) (t : ℕ) : Option ℝ :=
  osum n (fun i : ℕ =>
    if i ≤ t + (m - 1) / 2 ∧ t + (m - 1) / 2 - i < m then (a i).map (fun x => x * v (t + (m - 1) / 2 - i)) else some 0)

/-- compute_mjo_enso.py:21-25: one column of the band-pass filter; columns beyond those of the first filter stay as
    they are. -/
noncomputable def bandPass (nT : ℕ) (f1 f2 : FiltBank) (flx : ℕ → ℕ → Option ℝ) (p t : ℕ) : Option ℝ :=
  if p < f1.cols then
    convSame nT (fun s => osub (flx p s) (convSame nT (flx p) f1.len (fun k => f1.w k p) s)) f2.len (fun k => f2.w k p) t
  else flx p t

/-- compute_mjo_enso.py:21-25: the exceptions of the loop over the columns: too few points (IndexError), a filter without
    weights or longer than the record (ValueError), too few columns in the second filter (IndexError). -/
def bandPassCheck (nT nP : ℕ) (f1 f2 : FiltBank) : Except PyErr Unit :=
  if f1.cols = 0 then .ok ()
  else if nP = 0 then .error .indexError
  else if f1.len = 0 ∨ nT < f1.len then .error .valueError
  else if f2.cols = 0 then .error .indexError
  else if f2.len = 0 ∨ nT < f2.len then .error .valueError
  else if nP < f1.cols ∨ f2.cols < f1.cols then .error .indexError
  else .ok ()

/-- `np.std(x, ddof=1)` over `n` values. -/
noncomputable def ostd (n : ℕ) (f : ℕ → Option ℝ) : Option ℝ :=
  (osum n f).bind (fun s =>
    (osum n (fun i : ℕ => (f i).map (fun x => (x - s / n) ^ 2))).map (fun q => Real.sqrt (q / ((n : ℝ) - 1))))

/-- compute_mjo_enso.py:37: the amplitude of mode `j` at time `t`; the sum over the points divided by their number. -/
noncomputable def modeAmp (nP : ℕ) (un : ℕ → ℕ → Option ℝ) (flxi : ℕ → ℕ → Option ℝ) (j t : ℕ) : Option ℝ :=
  odiv (osum nP (fun p : ℕ => omul (un j p) (flxi p t))) (some (nP : ℝ))

/-- compute_mjo_enso.py:45-46: the pattern of mode `j` at point `p`. -/
noncomputable def modePattern (nT nP : ℕ) (un flxi : ℕ → ℕ → Option ℝ) (j p : ℕ) : Option ℝ :=
  odiv (osum nT (fun t : ℕ => omul (flxi p t) (modeAmp nP un flxi j t))) (ostd nT (modeAmp nP un flxi j))

/-- compute_mjo_enso.py:41-50: the sum over the four modes, starting from zero. -/
noncomputable def mjoSum (nT nP : ℕ) (un flxi : ℕ → ℕ → Option ℝ) (p t : ℕ) : Option ℝ :=
  (List.range 4).foldl
    (fun acc j => oadd acc (omul (modePattern nT nP un flxi j p) (modeAmp nP un flxi j t))) (some 0)

/-- compute_mjo_enso.py:14: the grid points that are not missing at the eleventh time. -/
noncomputable def validPoints (nG : ℕ) (flxa : ℕ → ℕ → Option ℝ) : List ℕ :=
  (List.range nG).filter (fun g => (flxa 10 g).isSome)

/-- compute_mjo_enso.py:8-60 calc_tau_MJO: from the flux (`flxa time point`), the modes (`eof mode point`, `nE` of them)
    and the two filters to the flux of the MJO (time, point).  With exactly one valid point numpy's squeeze removes the
    dimension of the points and the next indexing raises.  float32 rounding and the stacking of latitude and longitude
    into points are not modelled. -/
noncomputable def calcTauMJO (nT nG : ℕ) (flxa : ℕ → ℕ → Option ℝ) (nE : ℕ) (eof : ℕ → ℕ → Option ℝ)
    (f1 f2 : FiltBank) : Except PyErr (ℕ → ℕ → Option ℝ) :=
  if nT ≤ 10 then .error .indexError
  else
    let indx := validPoints nG flxa
    let nP := indx.length
    if nP = 1 then .error .indexError
    else
      match bandPassCheck nT nP f1 f2 with
      | .error e => .error e
      | .ok () =>
        if nE < 4 then .error .indexError
        else
          let flx : ℕ → ℕ → Option ℝ := fun p t => flxa t (indx.getD p 0)
          let flxi : ℕ → ℕ → Option ℝ := bandPass nT f1 f2 flx
          let un : ℕ → ℕ → Option ℝ := fun j p => eof j (indx.getD p 0)
          .ok (fun t g => if g ∈ indx then mjoSum nT nP un flxi (indx.idxOf g) t else flxa t g)

/-! ### the meridional structure of the Kelvin wave -/

/-- `math.erf`. -/
noncomputable def erfReal (x : ℝ) : ℝ := 2 / Real.sqrt Real.pi * ∫ t in (0 : ℝ)..x, Real.exp (-t ^ 2)

/-- compute_mjo_enso.py:70-77: the length of one unit of `y` in degrees of latitude. -/
noncomputable def equatorialDegrees : ℝ := Real.sqrt (Real.sqrt (981 / 10000 * 90) / (228 / 10 ^ 13)) / 111000

/-- compute_mjo_enso.py:88-89: the coordinate of row `j` of `n`. -/
noncomputable def kelvinRow (ys yn : ℝ) (n j : ℕ) : ℝ := ys + ((j : ℝ) + 1 - 1 / 2) * ((yn - ys) / n)

/-- compute_mjo_enso.py:84: the norm; a root of a negative number is nan. -/
noncomputable def kelvinNorm (ys yn : ℝ) : Option ℝ :=
  let s := Real.sqrt Real.pi * (erfReal yn + erfReal (-ys))
  if s ≤ 0 then none else some (1 / Real.sqrt s)

open Classical in
/-- compute_mjo_enso.py:91 `np.argmin(abs(yy))`: the first row nearest to the equator. -/
noncomputable def nearestRow (n : ℕ) (y : ℕ → ℝ) : ℕ :=
  ((List.range n).find? (fun i => decide (∀ k < n, |y i| ≤ |y k|))).getD 0

/-- compute_mjo_enso.py:98-99: one step of the loop towards the north.  Simplification: the divisor
is not zero (numpy would give an infinity or NaN, Lean gives 0). -/
noncomputable def kelvinUp (d : ℝ) (y : ℕ → ℝ) (phi : List (Option ℝ)) (j : ℕ) : List (Option ℝ) :=
  phi.set j ((phi.getD (j - 1) none).map (fun v => v * (d - y (j - 1)) / (d + y j)))

/-- compute_mjo_enso.py:101-103: one step of the loop towards the south.  Simplification: the divisor
is not zero. -/
noncomputable def kelvinDown (d : ℝ) (y : ℕ → ℝ) (phi : List (Option ℝ)) (k : ℕ) : Except PyErr (List (Option ℝ)) :=
  match phi[k + 1]? with
  | none => .error .indexError
  | some v => .ok (phi.set k (v.map (fun v => v * (d + y (k + 1)) / (d - y k))))

/-- compute_mjo_enso.py:95-103: the structure from the value at the row nearest to the equator. -/
noncomputable def kelvinFill (n jnot : ℕ) (d : ℝ) (y : ℕ → ℝ) (seed : Option ℝ) : Except PyErr (List (Option ℝ)) :=
  let phi0 := (List.replicate n (some (0 : ℝ))).set jnot seed
  let phi1 := (List.range' (jnot + 1) (n - (jnot + 1))).foldl (kelvinUp d y) phi0
  ((List.range (jnot + 1)).map (fun j => jnot - j)).foldlM (kelvinDown d y) phi1

/-- compute_mjo_enso.py:64-103: the structure of the Kelvin wave for the latitudes; an empty list raises at the first
    indexing. -/
noncomputable def kelvinStructure (lats : List ℝ) : Except PyErr (List (Option ℝ)) :=
  match lats.getLast?, lats.head? with
  | some ynd, some ysd =>
    let n := lats.length
    let yn := ynd / equatorialDegrees
    let ys := ysd / equatorialDegrees
    let d := 2 / ((yn - ys) / n)
    let y := kelvinRow ys yn n
    let jnot := nearestRow n y
    kelvinFill n jnot d y ((kelvinNorm ys yn).map (fun a => a * Real.exp (-1 / 2 * y jnot * y jnot)))
  | _, _ => .error .indexError

/-- compute_mjo_enso.py:106-117: the wind power at one time and longitude, by latitude, from currents and stresses. -/
noncomputable def windPower (phi : List (Option ℝ)) (u v tx ty : List (Option ℝ)) : List (Option ℝ) :=
  (List.range phi.length).map (fun i : ℕ =>
    oadd (omul (omul (u.getD i none) (phi.getD i none)) (tx.getD i none))
      (omul (omul (v.getD i none) (phi.getD i none)) (ty.getD i none)))

end Metcalcpy
