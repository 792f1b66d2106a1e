/-
metcalcpy/vertical_interp.py: vertical_interp.
-/
import Verif.Model.Base

namespace Metcalcpy

/-- metcalcpy/vertical_interp.py:164-166: `distances = eta - length_convert * coordinate_surfaces`, at one
grid point; `z k` is the coordinate of layer `k`, `c` the unit conversion factor. -/
def vDist (c eta : ℚ) (z : ℕ → ℚ) (k : ℕ) : ℚ := eta - c * z k

/-- vertical_interp.py:172-174: the weights before the loop (zero, and 1 for the bottom layer if it is above
the target). -/
def vInit (c eta : ℚ) (z : ℕ → ℚ) : ℕ → ℚ := fun j => if j = 0 then (if vDist c eta z 0 < 0 then 1 else 0) else 0

/-- vertical_interp.py:177-196: one iteration for layer `k`.  Where the mask is false the division may be a
division by zero; its value is not used then. -/
def vStep (c eta : ℚ) (z : ℕ → ℚ) (w : ℕ → ℚ) (k : ℕ) : ℕ → ℚ :=
  let mask := vDist c eta z k < 0 ∧ vDist c eta z (k - 1) > 0
  let weightAbove := vDist c eta z (k - 1) / ((z k - z (k - 1)) * c)
  let weightBelow := 1 - weightAbove
  let w₁ := fun j => if j = k then (if mask then weightAbove else w j) else w j
  fun j => if j = k - 1 then (if mask then weightBelow else w₁ j) else w₁ j

/-- vertical_interp.py:176-204: the weights of all `n` layers; the last statement overwrites the weight of
the top layer. -/
def vWeights (n : ℕ) (c eta : ℚ) (z : ℕ → ℚ) : ℕ → ℚ :=
  let w := ((List.range (n - 1)).map (· + 1)).foldl (vStep c eta z) (vInit c eta z)
  fun j => if j = n - 1 then (if vDist c eta z (n - 1) > 0 then 1 else 0) else w j

/-- vertical_interp.py:209-230: weighted sum over the layers with a positive weight; `none` is NaN.
Simplification: exact arithmetic, one grid point (all operations are elementwise), no missing values in the
field. -/
def vInterp (n : ℕ) (c eta : ℚ) (z f : ℕ → ℚ) : Option ℚ :=
  let w := vWeights n c eta z
  let r := (List.range n).foldl (fun (s : ℚ × ℕ) k => if w k > 0 then (s.1 + w k * f k, s.2 + 1) else s) (0, 0)
  if r.2 > 0 then some r.1 else none

/-- `vertical_interp(fieldname, config, coordinate_surfaces, field)` at one grid point: `surfaces` and
`field` are the layers from bottom to top, `levels` the requested levels (vertical_interp.py:153-235). -/
def verticalInterp (surfaces field : List ℚ) (lengthConvert : ℚ) (levels : List ℚ) : List (Option ℚ) :=
  levels.map (fun eta => vInterp field.length lengthConvert eta (fun k => surfaces.getD k 0)
    (fun k => field.getD k 0))

end Metcalcpy
