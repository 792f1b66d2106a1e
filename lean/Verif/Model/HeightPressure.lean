/-
metcalcpy/vertical_interp.py:256-442  height_from_pressure, at one grid point; and 144-152, the unit factor of
vertical_interp.
-/
import Verif.Model.VerticalInterp
import Mathlib.Analysis.SpecialFunctions.Log.Basic

namespace Metcalcpy

/-- metcalcpy/vertical_interp.py:381-382: `fillna(0)` and `clip(min=0)`. -/
noncomputable def clipMissing : Option ℝ → ℝ
  | none => 0
  | some v => max v 0

/-- metcalcpy/vertical_interp.py:365-382: the thickness of the layers.  `K` is the ratio of gas constant and gravity,
`ps` the surface pressure times the unit factor (both may be missing), `p k` the pressure of level `k` and `tv k` its virtual
temperature (computed by MetPy).  Simplification: exact arithmetic, pressures of levels are positive; a surface pressure that
is not positive has a missing logarithm. -/
noncomputable def layerThickness (K : ℝ) (ps : Option ℝ) (p : ℕ → ℝ) (tv : ℕ → Option ℝ) : ℕ → ℝ
  | 0 => clipMissing (do
      let t ← tv 0
      let s ← ps
      if 0 < s then some (K * t * Real.log (s / p 0)) else none)
  | k + 1 => clipMissing (do
      let t ← tv (k + 1)
      some (K * t * Real.log (p k / p (k + 1))))

/-- `a < b` for a number and a cell that may be missing. -/
noncomputable def ltCell (a : ℝ) : Option ℝ → Bool
  | none => false
  | some b => @decide (a < b) (Classical.dec _)

/-- `a > b` for a number and a cell that may be missing. -/
noncomputable def gtCell (a : ℝ) : Option ℝ → Bool
  | none => false
  | some b => @decide (a > b) (Classical.dec _)

/-- metcalcpy/vertical_interp.py:389-412: the heights of the levels; `hs` is the surface height. -/
noncomputable def layerHeight (K : ℝ) (hs ps : Option ℝ) (p : ℕ → ℝ) (tv : ℕ → Option ℝ) : ℕ → Option ℝ
  | 0 => if ltCell (p 0) ps then hs.map (· + layerThickness K ps p tv 0) else none
  | k + 1 =>
    if gtCell (p k) ps && ltCell (p (k + 1)) ps then hs.map (· + layerThickness K ps p tv (k + 1))
    else (layerHeight K hs ps p tv k).map (· + layerThickness K ps p tv (k + 1))

/-- metcalcpy/vertical_interp.py:256-442 height_from_pressure at one grid point: gas constant of dry air, gravity, unit factor
of the surface pressure, surface geopotential and pressure, pressures and virtual temperatures of the levels. -/
noncomputable def heightFromPressure (gas gravity convert : ℝ) (geopotential surfacePressure : Option ℝ) (pressures : List ℝ)
    (virtualTemperature : List (Option ℝ)) : List (Option ℝ) :=
  (List.range pressures.length).map (layerHeight (gas / gravity) (geopotential.map (· / gravity))
    (surfacePressure.map (convert * ·)) (fun k => pressures.getD k 0) (fun k => (virtualTemperature[k]?).join))

/-- metcalcpy/vertical_interp.py:144-149: `float((Quantity(1, level_units) / Quantity(1, surface_units)).to_base_units())`, for
units of `levelUnit` and `surfaceUnit` meters. -/
def lengthConvert (levelUnit surfaceUnit : ℚ) : ℚ := levelUnit / surfaceUnit

/-- vertical_interp with the units of the levels and of the coordinate surfaces. -/
def verticalInterpUnits (surfaces field : List ℚ) (levelUnit surfaceUnit : ℚ) (levels : List ℚ) : List (Option ℚ) :=
  verticalInterp surfaces field (lengthConvert levelUnit surfaceUnit) levels

end Metcalcpy
