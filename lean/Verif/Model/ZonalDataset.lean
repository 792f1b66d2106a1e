/-
metcalcpy/contributed/zonal_meridional/recipes.py create_zonal_mean_dataset, on one circle of latitude.
-/
import Verif.Model.Base

namespace Metcalcpy

/-- What the dictionary of the function holds: a field on the circle, a zonal mean, or the result of a wave function. -/
inductive ZonalValue (W : Type)
  | eddy (row : List ℚ)
  | mean (v : ℚ)
  | wave (w : W)

/-- recipes.py:142 `zonal_mean`: the mean over the longitudes. -/
def circleMean (row : List ℚ) : ℚ := row.sum / row.length

/-- recipes.py:143: the deviations from the mean. -/
def circleEddy (row : List ℚ) : List ℚ := row.map fun x => x - circleMean row

/-- recipes.py:91: the variables with the names of their eddies. -/
def zonalVars : List (String × String) := [("u", "ued"), ("v", "ved"), ("w", "wed"), ("T", "Ted"), ("Z", "Zed")]

/-- recipes.py:92: the pairs with the names of their covariances and wave covariances. -/
def zonalPairs : List ((String × String) × (String × String)) :=
  [(("u", "v"), ("uv", "uv_k")), (("v", "T"), ("vT", "vT_k")), (("u", "w"), ("uw", "uw_k")), (("w", "T"), ("wT", "wT_k"))]

/-- recipes.py:93: the variables with the names of their coefficients. -/
def zonalCoeffs : List (String × (String × String)) := [("T", ("T_k_real", "T_k_imag")), ("Z", ("Z_k_real", "Z_k_imag"))]

/-- recipes.py:95-133: the keys of `long_names` and of `units`. -/
def zonalDescribed : List String :=
  ["u", "v", "w", "T", "Z", "uv", "vT", "uw", "wT", "uv_k", "vT_k", "uw_k", "wT_k", "Z_k_real", "Z_k_imag", "T_k_real", "T_k_imag"]

/-- recipes.py:138-147: zonal means and eddies. -/
def zonalMeans {W : Type} (ds : List (String × List ℚ)) : List (String × ZonalValue W) :=
  zonalVars.flatMap fun p => match ds.lookup p.1 with
    | none => []
    | some row => [(p.1, .mean (circleMean row)), (p.2, .eddy (circleEddy row))]

/-- recipes.py:150-155; the eddies read from the dictionary are those just written for the same variable. -/
def zonalCovs {W : Type} (ds : List (String × List ℚ)) : List (String × ZonalValue W) :=
  zonalPairs.flatMap fun p => match ds.lookup p.1.1, ds.lookup p.1.2 with
    | some a, some b => [(p.2.1, .mean (circleMean (List.zipWith (· * ·) (circleEddy a) (circleEddy b))))]
    | _, _ => []

/-- recipes.py:157-176; the wave functions are parameters. -/
def zonalWaves {W : Type} (cov : List ℚ → List ℚ → W) (re im : List ℚ → W) (ds : List (String × List ℚ)) :
    List (String × ZonalValue W) :=
  (zonalPairs.flatMap fun p => match ds.lookup p.1.1, ds.lookup p.1.2 with
    | some a, some b => [(p.2.2, .wave (cov a b))]
    | _, _ => []) ++
  zonalCoeffs.flatMap fun p => match ds.lookup p.1 with
    | some row => [(p.2.1, .wave (re row)), (p.2.2, .wave (im row))]
    | none => []

/-- recipes.py:179-195 and the whole of create_zonal_mean_dataset: entries whose name contains 'ed' are removed, the others need a long
name and units; `out_coords` is unbound when there was no variable.  Simplifications: one circle of latitude without missing values; the
imported functions (modules `basic` and `checks`, not in the repository) are a mean and parameters; coordinates and attributes of the
result are not modelled. -/
def zonalDataset {W : Type} (cov : List ℚ → List ℚ → W) (re im : List ℚ → W) (waves : Bool) (ds : List (String × List ℚ)) :
    Except PyErr (List (String × ZonalValue W)) :=
  let inter := zonalMeans ds ++ zonalCovs ds ++ (if waves then zonalWaves cov re im ds else [])
  let out := inter.filter fun p => !decide ("ed".toList <:+: p.1.toList)
  if out.any (fun p => !zonalDescribed.contains p.1) then .error .keyError
  else if inter.isEmpty then .error .unboundLocalError
  else .ok out

end Metcalcpy
