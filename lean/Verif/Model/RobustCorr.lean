/-
metcalcpy/util/correlation.py:349-473: biweight midcorrelation and percentage bend correlation.
-/
import Verif.Model.Base
import Verif.Model.Tost
import Mathlib.Data.List.Sort
import Mathlib.Data.Rat.Floor
import Mathlib.Algebra.Order.Floor.Ring
import Mathlib.Analysis.SpecialFunctions.Sqrt

namespace Metcalcpy
open Classical

/-- `np.median` of a non-empty array (used at metcalcpy/util/correlation.py:384-388 and 444): the middle
element of the sorted array, or the mean of the two middle ones.  For an empty array (NaN in numpy) the value is
never used. -/
def npMedian (l : List ℚ) : ℚ :=
  let s := l.insertionSort (· ≤ ·)
  let n := s.length
  if n % 2 = 1 then (s[n / 2]?).getD 0 else ((s[n / 2 - 1]?).getD 0 + (s[n / 2]?).getD 0) / 2

/-- What the correlation functions return: the coefficient and the two-sided p-value (`none` for NaN). -/
structure CorrResult where
  r : ℝ
  pval : Option ℝ

/-- metcalcpy/util/correlation.py:405-406 and 471-472:
`tval = r * np.sqrt((nx - 2) / (1 - r ** 2)); pval = 2 * t.sf(abs(tval), nx - 2)`.
`t.sf` is NaN without a positive number of degrees of freedom, and 0 at infinity (where `tval` is for `r = ±1`). -/
noncomputable def corrPval (D : TDist) (r : ℝ) (n : ℕ) : Option ℝ :=
  if n ≤ 2 then none
  else if r ^ 2 = 1 then some 0
  else some (2 * (1 - D.cdf |r * √(((n : ℝ) - 2) / (1 - r ^ 2))| ((n : ℝ) - 2)))

/-- metcalcpy/util/correlation.py:387 / 388: the raw median absolute deviation. -/
def madOf (x : List ℚ) : ℚ := npMedian (x.map (fun v => |v - npMedian x|))

/-- metcalcpy/util/correlation.py:395-401: one entry of `x_norm`. -/
def bicorNorm (c med mad v : ℚ) : ℚ :=
  let u := (v - med) / (c * mad)
  (v - med) * ((1 - u ^ 2) ^ 2 * (if 1 - |u| > 0 then 1 else 0))

/-- metcalcpy/util/correlation.py:349-407 bicor, for arrays of the same length and `c ≠ 0`.  The data are exact
numbers; `none` is the pair of NaNs (an empty array, a zero median absolute deviation, or a zero denominator). -/
noncomputable def bicor (D : TDist) (x y : List ℚ) (c : ℚ := 9) : Option CorrResult :=
  if x = [] ∨ y = [] then none
  else if madOf x = 0 ∨ madOf y = 0 then none
  else
    let xn := x.map (bicorNorm c (npMedian x) (madOf x))
    let yn := y.map (bicorNorm c (npMedian y) (madOf y))
    let sx : ℚ := (xn.map (fun v => v ^ 2)).sum
    let sy : ℚ := (yn.map (fun v => v ^ 2)).sum
    let denom : ℝ := √(sx : ℝ) * √(sy : ℝ)
    if denom = 0 then none
    else
      let r : ℝ := ((List.zipWith (fun a b => a * b) xn yn).sum : ℚ) / denom
      some ⟨r, corrPval D r x.length⟩

/-- `int(q)`: the fractional part is cut off. -/
def pyIntOf (q : ℚ) : ℤ := if q < 0 then -⌊-q⌋ else ⌊q⌋

/-- Row `i` of an array, with Python's meaning of negative positions. -/
def arrayAt (w : List ℚ) (i : ℤ) : Except PyErr ℚ :=
  let j := if i < 0 then i + w.length else i
  if j < 0 then .error .indexError
  else match w[j.toNat]? with
    | some v => .ok v
    | none => .error .indexError

/-- metcalcpy/util/correlation.py:445-447: `W = np.sort(np.abs(X - M)); m = int((1 - beta) * nx); omega = W[m - 1]`
for one column.  Simplification: `(1 - beta) * nx` is computed exactly. -/
def pbOmega (beta : ℚ) (x : List ℚ) : Except PyErr ℚ :=
  let w := (x.map (fun v => |v - npMedian x|)).insertionSort (· ≤ ·)
  arrayAt w (pyIntOf ((1 - beta) * x.length) - 1)

/-- metcalcpy/util/correlation.py:448-450: one entry of `P`; infinite and undefined quotients become 0. -/
def pbPsi (med omega v : ℚ) : ℚ := if omega = 0 then 0 else (v - med) / omega

/-- metcalcpy/util/correlation.py:455-461: the percentage bend measure of location of one column. -/
def pbLocation (omega : ℚ) (x : List ℚ) : ℚ :=
  let psi := pbPsi (npMedian x) omega
  let i1 : ℚ := x.countP (fun v => psi v < -1)
  let i2 : ℚ := x.countP (fun v => psi v > 1)
  let s := x.map (fun v => if psi v < -1 ∨ psi v > 1 then 0 else v)
  (s.sum + omega * (i2 - i1)) / (x.length - i1 - i2)

/-- metcalcpy/util/correlation.py:462-466: one bent value; `none` is NaN (0 / 0).  For `omega = 0` the quotient is
infinite and bends to the sign. -/
def pbBend (omega loc v : ℚ) : Option ℚ :=
  if omega = 0 then (if v = loc then none else if v < loc then some (-1) else some 1)
  else
    let a := (v - loc) / omega
    let a := if a ≤ -1 then -1 else a
    some (if a ≥ 1 then 1 else a)

/-- metcalcpy/util/correlation.py:410-473 percbend; the inner `none` is the pair of NaNs.  Arrays of different
lengths are refused by `np.column_stack`. -/
noncomputable def percbend (D : TDist) (x y : List ℚ) (beta : ℚ := 1 / 5) : Except PyErr (Option CorrResult) :=
  if x.length ≠ y.length then .error .valueError
  else do
    let ox ← pbOmega beta x
    let oy ← pbOmega beta y
    match x.mapM (pbBend ox (pbLocation ox x)), y.mapM (pbBend oy (pbLocation oy y)) with
    | some a, some b =>
      let sa : ℚ := (a.map (fun v => v ^ 2)).sum
      let sb : ℚ := (b.map (fun v => v ^ 2)).sum
      let denom : ℝ := √((sa * sb : ℚ) : ℝ)
      if denom = 0 then .ok none
      else
        let r : ℝ := ((List.zipWith (fun a b => a * b) a b).sum : ℚ) / denom
        .ok (some ⟨r, corrPval D r x.length⟩)
    | _, _ => .ok none

end Metcalcpy
