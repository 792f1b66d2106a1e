/-
Latitude bands and polar unit vectors.
-/
import Verif.Model.Preproc

namespace Metcalcpy.Spec
open Metcalcpy

/-- `m` is the mean of the values `vals`, given as (latitude in degrees, value), weighted with the cosine of
the latitude. -/
def IsCosMean (vals : List (ℝ × ℝ)) (m : ℝ) : Prop :=
  (vals.map (fun p => Real.cos (Real.pi * p.1 / 180) * p.2)).sum =
    m * (vals.map (fun p => Real.cos (Real.pi * p.1 / 180))).sum

open Classical in
/-- The valid values of a profile inside the closed band `lo .. hi`. -/
noncomputable def bandValues (dat : List LatCell) (lo hi : ℝ) : List (ℝ × ℝ) :=
  dat.filterMap (fun c => if lo ≤ c.lat ∧ c.lat ≤ hi then c.value.map (fun v => (c.lat, v)) else none)

end Metcalcpy.Spec
