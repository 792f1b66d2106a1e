/-
Model of metcalcpy/contributed/tropical_diagnostics/utils.py:62-98 and
metcalcpy/contributed/spacetime/spacetime_utils.py:64-104 (lonFlip, the same code twice).
-/
import Verif.Model.Base

namespace Metcalcpy

/-- `np.where(p(lon))[0]`: the positions satisfying a condition (utils.py:74, 76, 87, 89). -/
def positionsWhere (p : ℚ → Bool) (lon : List ℚ) : List ℕ :=
  (List.range lon.length).filter fun i => p (lon.getD i 0)

/-- `lon[idx].values` (utils.py:79, 80, 92, 93): the values at some positions. -/
def valuesAt (lon : List ℚ) (idx : List ℕ) : List ℚ := idx.map fun i => lon.getD i 0

/-- `np.roll(row, k)` along the longitudes (utils.py:82, 95): the last `k` values come first. -/
def npRoll {α : Type} (k : ℕ) (row : List α) : List α :=
  row.drop (row.length - k % row.length) ++ row.take (row.length - k % row.length)

/-- utils.py:79-80 and 92-93: `lonnew[0:m] = first; lonnew[m:] = second` where `lonnew = lon.values` (line 71).
`shared`: the array `lon.values` is the memory of `lon` itself, as numpy and xarray return it, so the second statement reads
positions of `lon` that the first has overwritten. `shared = false` is the reading with a copy. -/
def twoWrites (shared : Bool) (lon : List ℚ) (idx₁ idx₂ : List ℕ) (f₁ f₂ : ℚ → ℚ) : List ℚ :=
  let head := (valuesAt lon idx₁).map f₁
  let after := head ++ lon.drop idx₁.length
  let src := if shared then after else lon
  head ++ (valuesAt src idx₂).map f₂

/-- lonFlip (utils.py:62-98) for the values `row` of one time and one latitude (`np.roll` acts on each of them alike).
An empty coordinate has no minimum (line 73); a row of another length cannot be given the new coordinate
(lines 82-83, 95-96). The assignment of a slice needs as many values as the slice: the positions of both kinds
make up all positions. -/
def lonFlip {α : Type} (shared : Bool) (lon : List ℚ) (row : List α) : Except PyErr (List ℚ × List α) :=
  if lon = [] then .error .valueError
  else if row.length ≠ lon.length then .error .valueError
  else if lon.any fun x => x < 0 then
    let neg := positionsWhere (fun x => decide (x < 0)) lon
    let pos := positionsWhere (fun x => decide (0 ≤ x)) lon
    .ok (twoWrites shared lon pos neg id (· + 360), npRoll neg.length row)
  else
    let neg := positionsWhere (fun x => decide (180 ≤ x)) lon
    let pos := positionsWhere (fun x => decide (x < 180)) lon
    .ok (twoWrites shared lon neg pos (· - 360) id, npRoll pos.length row)

end Metcalcpy
