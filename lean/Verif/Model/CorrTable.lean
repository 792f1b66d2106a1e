/-
metcalcpy/util/correlation.py: the table of `corr` (31-281), `compute_esci` (688-833),
`power_corr` for given `r`, `n`, `alpha` (836-941), and the rounding of the table (977-1065).
-/
import Verif.Model.RobustCorr
import Verif.Model.Acf
import Mathlib.Analysis.SpecialFunctions.Artanh

namespace Metcalcpy
open Classical

/-- `np.round(x, decimals)`: to the nearest multiple of `10^-decimals`, ties to the even one. -/
noncomputable def npRound (x : ℝ) (decimals : ℕ) : ℝ :=
  let y := x * 10 ^ decimals
  let f := ⌊y⌋
  let k : ℤ := if y - f < 1 / 2 then f else if y - f > 1 / 2 then f + 1 else if f % 2 = 0 then f else f + 1
  k / 10 ^ decimals

/-- A pair of bounds; `none` is NaN. -/
abbrev Bounds := Option ℝ × Option ℝ

/-- metcalcpy/util/correlation.py:808-812: bounds before rounding.  `crit` is `np.abs(norm.ppf((1 - confidence) / 2))`.
For `|stat| = 1` the transform is infinite, for `nx = 3` the standard error is, for `nx < 3` it is NaN. -/
noncomputable def fisherBounds (crit r : ℝ) (n : ℕ) : Bounds :=
  if n < 3 then (none, none)
  else if n = 3 then
    if r = 1 then (none, some 1) else if r = -1 then (some (-1), none) else (some (-1), some 1)
  else if r = 1 then (some 1, some 1)
  else if r = -1 then (some (-1), some (-1))
  else
    let z := Real.artanh r
    let se := 1 / √((n : ℝ) - 3)
    (some (Real.tanh (z - crit * se)), some (Real.tanh (z + crit * se)))

/-- metcalcpy/util/correlation.py:833 `np.round(ci, decimals)`. -/
noncomputable def roundBounds (b : Bounds) (decimals : ℕ) : Bounds :=
  (b.1.map (fun v => npRound v decimals), b.2.map (fun v => npRound v decimals))

/-- metcalcpy/util/correlation.py:688-833 compute_esci with `eftype='r'` and `-1 <= stat <= 1`.  `ppf` is
`norm.ppf`. -/
noncomputable def computeEsciR (ppf : ℝ → ℝ) (stat : ℝ) (nx : ℕ) (confidence : ℝ := 0.95) (decimals : ℕ := 2) :
    Except PyErr Bounds :=
  if 0 < confidence ∧ confidence < 1 then
    .ok (roundBounds (fisherBounds |ppf ((1 - confidence) / 2)| stat nx) decimals)
  else .error .assertionError

/-- metcalcpy/util/correlation.py:814-833 compute_esci with `eftype` one of 'cohen', 'd', 'g', 'hedges', for positive
sample sizes; `ppf` is `t.ppf`, which is NaN without a positive number of degrees of freedom. -/
noncomputable def computeEsciD (T : TDist) (stat : ℝ) (nx ny : ℕ) (paired : Bool) (confidence : ℝ := 0.95)
    (decimals : ℕ := 2) : Except PyErr Bounds :=
  if 0 < confidence ∧ confidence < 1 then
    let sd : ℝ × ℕ :=
      if ny = 1 ∨ paired = true then (√(1 / (nx : ℝ) + stat ^ 2 / (2 * (nx : ℝ))), nx - 1)
      else (√(((nx : ℝ) + ny) / ((nx : ℝ) * ny) + stat ^ 2 / (2 * ((nx : ℝ) + ny))), nx + ny - 2)
    if sd.2 = 0 then .ok (none, none)
    else
      let crit := |T.ppf ((1 - confidence) / 2) sd.2|
      .ok (roundBounds (some (stat - crit * sd.1), some (stat + crit * sd.1)) decimals)
  else .error .assertionError

/-- The functions of scipy used below: the normal distribution, the t-distribution, and the correlations that `corr`
takes from scipy or draws at random (Shepherd's pi); nothing is assumed about them. -/
structure ScipyCorr where
  phi : ℝ → ℝ
  normPpf : ℝ → ℝ
  T : TDist
  pearson : List ℚ → List ℚ → Except PyErr (Option CorrResult)
  spearman : List ℚ → List ℚ → Except PyErr (Option CorrResult)
  kendall : List ℚ → List ℚ → Except PyErr (Option CorrResult)
  shepherd : List ℚ → List ℚ → Except PyErr (Option CorrResult)

/-- metcalcpy/util/correlation.py:915-936 `func`, for `0 <= r` and `n > 4`; the transform is infinite for `r = 1`. -/
noncomputable def powerFn (S : ScipyCorr) (r : ℝ) (n : ℕ) (alpha : ℝ) (tail : String) : ℝ :=
  let dof : ℝ := (n : ℝ) - 2
  let ttt := if tail = "two-sided" then S.T.ppf (1 - alpha / 2) dof else S.T.ppf (1 - alpha) dof
  let rc := √(ttt ^ 2 / (ttt ^ 2 + dof))
  let zrc := Real.artanh rc
  if r = 1 then 1
  else
    let zr := Real.artanh r + r / (2 * ((n : ℝ) - 1))
    if tail = "two-sided" then
      S.phi ((zr - zrc) * √((n : ℝ) - 3)) + S.phi ((-zr - zrc) * √((n : ℝ) - 3))
    else S.phi ((zr - zrc) * √((n : ℝ) - 3))

/-- metcalcpy/util/correlation.py:836-941 power_corr with `power=None` and the other arguments given. -/
noncomputable def powerCorr (S : ScipyCorr) (r : ℝ) (n : ℕ) (alpha : ℝ := 0.05) (tail : String := "two-sided") :
    Except PyErr (Option ℝ) :=
  if ¬ (-1 ≤ r ∧ r ≤ 1) then .error .assertionError
  else if ¬ (0 < alpha ∧ alpha ≤ 1) then .error .assertionError
  else if n ≤ 4 then .ok none
  else .ok (some (powerFn S |r| n alpha tail))

/-- The one-row table returned by `corr`; `none` is NaN (or infinite, for the adjusted coefficient).  The value of
BF10 (bayesfactor_pearson) is not modelled. -/
structure CorrRow where
  columns : List String
  n : ℕ
  r : Option ℝ
  ci : Option Bounds
  r2 : Option ℝ
  adjR2 : Option ℝ
  pval : Option ℝ
  power : Option ℝ

/-- metcalcpy/util/correlation.py:228-241: the coefficient of the requested method (default arguments). -/
noncomputable def corrMethod (S : ScipyCorr) (method : String) (x y : List ℚ) : Except PyErr (Option CorrResult) :=
  if method = "pearson" then S.pearson x y
  else if method = "spearman" then S.spearman x y
  else if method = "kendall" then S.kendall x y
  else if method = "bicor" then .ok (bicor S.T x y)
  else if method = "percbend" then percbend S.T x y
  else if method = "shepherd" then S.shepherd x y
  else .error .valueError

/-- metcalcpy/util/correlation.py:243-281: the row for a coefficient.  `adj_r2` divides by `nx - 3` (numpy: the result
is NaN or infinite for `nx = 3`); the bounds are rounded to 6 decimals by compute_esci and to 2 by
_postprocess_dataframe (1029-1035, with the option `round.column.CI95%` of 1054). -/
noncomputable def corrRow (S : ScipyCorr) (method tail : String) (n : ℕ) (c : Option CorrResult) : Except PyErr CorrRow :=
  match c with
  | none => .ok ⟨["n", "r", "CI95%", "r2", "adj_r2", "p-val", "BF10", "power"], n, none, none, none, none, none, none⟩
  | some c => do
    let r2 := c.r ^ 2
    let adj : Option ℝ := if n = 3 then none else some (1 - (1 - r2) * ((n : ℝ) - 1) / ((n : ℝ) - 3))
    let ci ← computeEsciR S.normPpf c.r n 0.95 6
    let pr ← powerCorr S c.r n 0.05 tail
    let p := if tail = "two-sided" then c.pval else c.pval.map (fun p => 0.5 * p)
    let present := ["n", "r", "r2", "adj_r2", "CI95%", "p-val", "power"] ++ (if method = "pearson" then ["BF10"] else [])
    let columns := ["n", "outliers", "r", "CI95%", "r2", "adj_r2", "p-val", "BF10", "power"].filter (present.contains ·)
    .ok ⟨columns, n, some c.r, some (roundBounds ci 2), some r2, adj, p, pr⟩

/-- metcalcpy/util/correlation.py:31-281 corr for one-dimensional arrays (`none` is NaN) without extra arguments. -/
noncomputable def corr (S : ScipyCorr) (x y : List Cell) (tail : String := "two-sided") (method : String := "pearson") :
    Except PyErr CorrRow :=
  if x.length ≠ y.length then .error .assertionError
  else if tail ≠ "two-sided" ∧ tail ≠ "one-sided" then .error .assertionError
  else do
    let xy ← removeNa x y true
    let x' := xy.1.filterMap id
    let y' := xy.2.filterMap id
    let c ← corrMethod S method x' y'
    corrRow S method tail x'.length c

end Metcalcpy
