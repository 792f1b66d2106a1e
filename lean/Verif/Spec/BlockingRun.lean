/-
Specification of the central blocking latitude from files of daily fields.
-/
import Verif.Model.BlockingRun
import Verif.Spec.Blocking

namespace Metcalcpy.Spec

/-- The files given (some may be missing, not all) lie on one grid. -/
structure OnGrid (lats lons : List ℚ) (files : List (Option MetFile)) : Prop where
  present : ∃ f, some f ∈ files
  shape : ∀ f, some f ∈ files → f.lats = lats ∧ f.lons = lons ∧ f.field.length = lats.length ∧
    ∀ r ∈ f.field, r.length = lons.length

/-- The value of file number `k` at row `i` and column `j`; none when the file or the value is missing. -/
def valueAt (files : List (Option MetFile)) (k i j : ℕ) : Option ℚ :=
  files[k]?.join.bind fun f => f.field[i]?.bind fun r => r[j]?.join

/-- The values present at row `i` and column `j` on the `ds` days of season `s`. -/
def seasonValues (files : List (Option MetFile)) (ds s i j : ℕ) : List ℚ :=
  (List.range ds).filterMap fun d => valueAt files (s * ds + d) i j

/-- The standard deviation of some numbers. -/
noncomputable def spread (ys : List ℚ) : ℝ :=
  Real.sqrt ((((ys.map fun y => (y - ys.sum / ys.length) ^ 2).sum / ys.length : ℚ)) : ℝ)

/-- Position `i` is the first one of `0..n-1` where `g` is largest. -/
def IsFirstPeak (g : ℕ → ℝ) (n i : ℕ) : Prop := i < n ∧ (∀ k < n, g k ≤ g i) ∧ ∀ k < i, g k < g i

end Metcalcpy.Spec
