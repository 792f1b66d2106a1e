/-
metcalcpy/piecewise_linear.py and metcalcpy/calc_difficulty_index.py
-/
import Verif.Model.Base
import Mathlib.Data.List.MinMax

namespace Metcalcpy

/-- `int(b)`: how Python compares a bool with a number. -/
def boolInt (b : Bool) : ℤ := if b then 1 else 0

/-- `np.diff`. -/
def npDiff (xs : List ℚ) : List ℚ := List.zipWith (fun a b => b - a) xs xs.tail

/-- A PiecewiseLinear object: knots, values, and the values left and right of the domain (`none`: NaN). -/
structure Plin where
  xs : List ℚ
  ys : List ℚ
  left : Cell
  right : Cell
  deriving DecidableEq, Repr

/-- metcalcpy/piecewise_linear.py:37-57 PiecewiseLinear.__init__.  Line 42 compares the truth value
`np.any(np.diff(x_domain))` with 0. -/
def mkPlin (xs ys : List ℚ) (left right : Cell) : Except PyErr Plin :=
  if xs.length < 2 then .error .incompatibleLengths
  else if boolInt ((npDiff xs).any (fun d => d ≠ 0)) < 0 then .error .unsortedArray
  else if xs.length ≠ ys.length then .error .incompatibleLengths
  else .ok ⟨xs, ys, left, right⟩

/-- The part of `np.interp` right of the first knot: `x` lies at or after knot `(x0, y0)`, the remaining
knots follow. -/
def interpFrom (x x0 y0 : ℚ) (right : Cell) : List (ℚ × ℚ) → Cell
  | [] => if x > x0 then right else some y0
  | (x1, y1) :: rest =>
    if x1 ≤ x then interpFrom x x1 y1 right rest
    else if x = x0 then some y0
    else some ((y1 - y0) / (x1 - x0) * (x - x0) + y0)

/-- metcalcpy/piecewise_linear.py:63-80 values, for one point: `np.interp(x, xs, ys, left, right)`.
Simplification: NumPy's binary search for the last knot at or before `x` is written as a linear search;
they agree for sorted knots. -/
def Plin.value (p : Plin) (x : ℚ) : Cell :=
  match p.xs.zip p.ys with
  | [] => none
  | (x0, y0) :: rest => if x < x0 then p.left else interpFrom x x0 y0 p.right rest

/-- metcalcpy/piecewise_linear.py:59-61 get_ymax. -/
def Plin.ymax (p : Plin) : Option ℚ := p.ys.max?

/-- calc_difficulty_index.py:27 `np.finfo(np.float32).eps`. -/
def EPS : ℚ := 1 / 2 ^ 23

/-- One grid point: spread, mean and the ensemble members. -/
structure GridPt where
  sigma : ℚ
  mu : ℚ
  members : List ℚ
  deriving DecidableEq, Repr

/-- metcalcpy/calc_difficulty_index.py:31-68 _input_check.  Line 58: `np.all(sigmaij) >= EPS` compares the
truth value "no element is zero".  Simplification: the grid is one list of points, so the shapes agree. -/
def difficultyCheck (pts : List GridPt) (ref underFactor : ℚ) : Except PyErr Unit :=
  if ¬ ((boolInt (pts.all (fun p => p.sigma ≠ 0)) : ℚ) ≥ EPS) then .error .assertionError
  else if ¬ (ref ≥ EPS) then .error .assertionError
  else if ¬ (0 ≤ underFactor ∧ underFactor ≤ 1) then .error .assertionError
  else .ok ()

/-- metcalcpy/calc_difficulty_index.py:107-130, one grid point, once the reference is known. -/
def pointIndex (env : Plin) (threshold ref underFactor : ℚ) (p : GridPt) : Cell :=
  let varianceTerm := (p.sigma / p.mu) / ref
  let under : ℚ := (p.members.filter (fun x => x < threshold)).length
  let underProb := under / p.members.length
  let thresholdTerm := 1 - |1 - underFactor - underProb|
  (env.value p.mu).map (fun taper => (1 / 2) * taper * (varianceTerm + thresholdTerm))

/-- metcalcpy/calc_difficulty_index.py:71-130 _difficulty_index.  Simplification: no mean is zero, no
ensemble is empty (NumPy would produce infinities or NaN) and there is a grid point (np.nanmax of none raises). -/
def difficultyIndex (env : Plin) (pts : List GridPt) (threshold ref underFactor : ℚ) :
    Except PyErr (List Cell) := do
  difficultyCheck pts ref underFactor
  let ref' := (pts.map (fun p => p.sigma / p.mu)).foldl max ref
  .ok (pts.map (pointIndex env threshold ref' underFactor))

/-- calc_difficulty_index.py:166-176: the default envelope. -/
def defaultEnvelope : Plin := ⟨[3, 9, 12, 21], [0, 3 / 2, 3 / 2, 0], some 0, some 0⟩

/-- metcalcpy/calc_difficulty_index.py:133-179 forecast_difficulty; `under_factor` keeps its default. -/
def forecastDifficulty (env : Option Plin) (pts : List GridPt) (threshold ref : ℚ) : Except PyErr (List Cell) :=
  difficultyIndex (env.getD defaultEnvelope) pts threshold ref (1 / 2)

end Metcalcpy
