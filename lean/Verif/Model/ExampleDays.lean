/-
metcalcpy/contributed/tropical_diagnostics/compute_omi_example.py and compute_rmm_example.py: the days of the phase diagram.
-/
import Verif.Model.Base

namespace Metcalcpy

/-- `np.arange(first, last, dtype='datetime64[D]')`, days counted as integers: the last day is not among them. -/
def dayRange (first last : ℤ) : List ℤ := (List.range (last - first).toNat).map fun k : ℕ => first + k

/-- compute_omi_example.py:47-61 and compute_rmm_example.py:66-80: the points of the phase diagram.  `pcs` are the days of the index
with its values; the values of `sel(time=slice(first, last))` (both ends included) are cut to the number of days of `arange`, whose
months and days are their labels.  Simplification: values and labels are given as pairs; the plot, which takes them in separate lists,
is not modelled. -/
def examplePoints {α : Type} (pcs : List (ℤ × α)) (first last : ℤ) : List ((ℤ × α) × ℤ) :=
  let time := dayRange first last
  let chosen := pcs.filter fun p => decide (first ≤ p.1 ∧ p.1 ≤ last)
  (chosen.take time.length).zip time

end Metcalcpy
