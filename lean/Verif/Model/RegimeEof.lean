/-
metcalcpy/contributed/blocking_weather_regime/WeatherRegime.py: Calc_EOF (105-127).
-/
import Verif.Model.OmiIndex

namespace Metcalcpy

/-- WeatherRegime.py:108-110 for the series of one day of the season at one grid point over `ns` seasons: the least squares line is
removed, then the mean of what is left. -/
noncomputable def eofSeries (ns : ℕ) (x : ℕ → ℝ) (s : ℕ) : ℝ :=
  detrendSeries ns x s - (∑ r ∈ Finset.range ns, detrendSeries ns x r) / ns

/-- WeatherRegime.py:108-110: the array of `ns` seasons of `nd` days after the loop (`eofin` season day point, latitude and longitude
flattened); the assignments are made in the memory of the caller's array. Simplification: no values are missing. -/
noncomputable def eofCleaned (ns nd : ℕ) (eofin : ℕ → ℕ → ℕ → ℝ) : ℕ → ℕ → ℕ → ℝ :=
  fun s d p => if s < ns ∧ d < nd then eofSeries ns (fun r => eofin r d p) s else eofin s d p

/-- WeatherRegime.py:112-115: all days of all seasons one after the other. -/
def eofRows (nd : ℕ) (eofin : ℕ → ℕ → ℕ → ℝ) : ℕ → ℕ → ℝ := fun r p => eofin (r / nd) (r % nd) p

/-- WeatherRegime.py:105-127 Calc_EOF: what the solver (117-124, any function of the number of rows and the matrix; `Eof(..., center=False)`)
makes of the rows, and the caller's array afterwards.  Simplification: at least one season, day and point. -/
noncomputable def calcEof {α : Type} (solver : ℕ → (ℕ → ℕ → ℝ) → α) (ns nd : ℕ) (eofin : ℕ → ℕ → ℕ → ℝ) : α × (ℕ → ℕ → ℕ → ℝ) :=
  let cleaned := eofCleaned ns nd eofin
  (solver (ns * nd) fun r p => if r < ns * nd then eofRows nd cleaned r p else 0, cleaned)

end Metcalcpy
