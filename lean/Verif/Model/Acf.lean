/-
metcalcpy/util/correlation.py:284-346 (autocorrelation) and 1068-1167 (removal of missing values).
-/
import Verif.Model.Runs
import Mathlib.Data.Nat.Log

namespace Metcalcpy

/-- `x[i]`, missing when it is None / NaN. -/
def cellGet (x : List Cell) (i : ℕ) : Cell := (x[i]?).join

/-- metcalcpy/util/correlation.py:343-344: the summand of position `i`, if both values are present. -/
def acfTerm (x : List Cell) (lag : ℕ) (m : ℚ) (i : ℕ) : Option ℚ :=
  match cellGet x (i + lag), cellGet x i with
  | some a, some b => some ((a - m) * (b - m))
  | _, _ => none

/-- metcalcpy/util/correlation.py:331-346 autocovariance, for `list_size = len(x)`. -/
def autocovariance (x : List Cell) (lag : ℕ) (m : ℚ) : Except PyErr ℚ :=
  let terms := (List.range (x.length - lag)).filterMap (acfTerm x lag m)
  if terms.length + lag = 0 then .error .zeroDivisionError
  else .ok (1 / ((terms.length : ℚ) + lag) * terms.sum)

/-- metcalcpy/util/correlation.py:323-327: one entry of the result. -/
def acfEntry (x : List Cell) (acfType : String) (m cov0 : ℚ) (i : ℕ) : Except PyErr ℚ := do
  let cov ← autocovariance x i m
  if acfType = "covariance" then .ok cov else pyDivE cov cov0

/-- metcalcpy/util/correlation.py:284-328 acf; `none` is Python's None.
Simplifications: exact arithmetic; `floor(10 * log10(n))` is computed as the integer logarithm of `n^10`;
the cells are Python numbers, so a zero variance raises a ZeroDivisionError. -/
def acf (x : List Cell) (acfType : String) (lagMax : Option ℤ) : Except PyErr (Option (List ℚ)) :=
  if acfType ≠ "covariance" ∧ acfType ≠ "correlation" then .ok none
  else if x.length = 0 then .ok none
  else do
    let m ← pyMean (removeNone x)
    let lag : ℤ := lagMax.getD (Nat.log 10 (x.length ^ 10) : ℕ)
    let lag := min lag ((x.length : ℤ) - 1)
    let cov0 ← autocovariance x 0 m
    let res ← (List.range (lag + 1).toNat).mapM (acfEntry x acfType m cov0)
    .ok (some res)

/-- metcalcpy/util/correlation.py:1151-1167 _remove_na_single, one-dimensional. -/
def removeNaSingle (x : List Cell) : List Cell :=
  let mask := x.map Option.isSome
  if mask.all id = false then ((x.zip mask).filter (fun p => p.2)).map Prod.fst else x

/-- metcalcpy/util/correlation.py:1068-1148 remove_na(x, y, paired) for one-dimensional arrays `x`, `y`
(`none` is NaN).  `np.logical_and` of masks of different lengths raises a ValueError.  Scalars for `y` and
two-dimensional arrays are not modelled. -/
def removeNa (x y : List Cell) (paired : Bool) : Except PyErr (List Cell × List Cell) :=
  if x.length ≤ 1 then .error .assertionError
  else if y.length = 1 then .ok (removeNaSingle x, y)
  else if paired = false then .ok (removeNaSingle x, removeNaSingle y)
  else
    let xMask := x.map Option.isSome
    let yMask := y.map Option.isSome
    if xMask.all id = false ∨ yMask.all id = false then
      if x.length ≠ y.length then .error .valueError
      else
        let both := List.zipWith (· && ·) xMask yMask
        .ok (((x.zip both).filter (fun p => p.2)).map Prod.fst, ((y.zip both).filter (fun p => p.2)).map Prod.fst)
    else .ok (x, y)

end Metcalcpy
