/-
metcalcpy/vertical_interp.py:62-253  vertical_interp at one grid point, with missing heights and missing values of the field; and
646-684, the way from pressure levels to interpolated fields.
-/
import Verif.Model.Base
import Verif.Model.HeightPressure

namespace Metcalcpy

variable {K : Type} [Field K] [LinearOrder K]

/-- metcalcpy/vertical_interp.py:164: `distances = eta - length_convert * coordinate_surfaces` of layer `k`; missing where the height is. -/
def gDist (c eta : K) (z : ℕ → Option K) (k : ℕ) : Option K := (z k).map fun h => eta - c * h

/-- vertical_interp.py:165: `above = distances < 0`; False where the distance is missing. -/
def gAbove (c eta : K) (z : ℕ → Option K) (k : ℕ) : Bool := (gDist c eta z k).any fun d => decide (d < 0)

/-- vertical_interp.py:166: `below = distances > 0`; False where the distance is missing. -/
def gBelow (c eta : K) (z : ℕ → Option K) (k : ℕ) : Bool := (gDist c eta z k).any fun d => decide (d > 0)

/-- vertical_interp.py:157-160, 172-174: the weights before the loop. -/
def gInit (c eta : K) (z : ℕ → Option K) : ℕ → K := fun j => if j = 0 then (if gAbove c eta z 0 then 1 else 0) else 0

/-- vertical_interp.py:176-196: one iteration for layer `k`.  The new weights are used only where the mask is true; there both
heights are present and different. -/
def gStep (c eta : K) (z : ℕ → Option K) (w : ℕ → K) (k : ℕ) : ℕ → K :=
  let mask := gAbove c eta z k && gBelow c eta z (k - 1)
  let weightAbove := (gDist c eta z (k - 1)).getD 0 / (((z k).getD 0 - (z (k - 1)).getD 0) * c)
  let weightBelow := 1 - weightAbove
  let w₁ := fun j => if j = k then (if mask then weightAbove else w j) else w j
  fun j => if j = k - 1 then (if mask then weightBelow else w₁ j) else w₁ j

/-- vertical_interp.py:172-201: the weights of all `n` layers. -/
def gWeights (n : ℕ) (c eta : K) (z : ℕ → Option K) : ℕ → K :=
  let w := ((List.range (n - 1)).map (· + 1)).foldl (gStep c eta z) (gInit c eta z)
  fun j => if j = n - 1 then (if gBelow c eta z (n - 1) then 1 else 0) else w j

/-- vertical_interp.py:217-223: one layer of the weighted sum; `none` is NaN. -/
def gAdd (w : ℕ → K) (f : ℕ → Option K) (s : Option K × ℕ) (k : ℕ) : Option K × ℕ :=
  if w k > 0 then ((s.1.bind fun x => (f k).map fun v => x + w k * v), s.2 + 1) else s

/-- vertical_interp.py:206-226: the weighted sum, NaN where no weight is positive.  Simplification: exact arithmetic. -/
def gInterp (n : ℕ) (c eta : K) (z f : ℕ → Option K) : Option K :=
  let r := (List.range n).foldl (gAdd (gWeights n c eta z) f) (some 0, 0)
  if r.2 > 0 then r.1 else none

/-- vertical_interp.py:62-253: `vertical_interp` at one grid point; `surfaces` and `field` are the layers in the order of the vertical
dimension, `none` being missing. -/
def verticalInterpMissing (surfaces field : List (Option K)) (lengthConvert : K) (levels : List K) : List (Option K) :=
  levels.map fun eta => gInterp field.length lengthConvert eta (fun k => (surfaces[k]?).join) (fun k => (field[k]?).join)

/-- vertical_interp.py:646-662, 679-684: the heights of the pressure levels, then the interpolation of a field to `levels` given in meters
(unit factor 1), at one grid point. -/
noncomputable def pressureToHeight (gas gravity convert : ℝ) (geopotential surfacePressure : Option ℝ) (pressures : List ℝ)
    (virtualTemperature field : List (Option ℝ)) (levels : List ℝ) : List (Option ℝ) :=
  verticalInterpMissing (heightFromPressure gas gravity convert geopotential surfacePressure pressures virtualTemperature) field 1 levels

end Metcalcpy
