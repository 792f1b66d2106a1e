/-
Vertical columns of layers.
-/
import Mathlib.Algebra.Order.Field.Basic
import Mathlib.Data.Rat.Floor

namespace Metcalcpy.Spec

/-- A column of layers, bottom to top: heights in the unit of the target levels, strictly increasing. -/
def Increasing (heights : List ℚ) : Prop := heights.Pairwise (· < ·)

/-- Layer `k` has height `h` and field value `v`. -/
def IsLayer (heights values : List ℚ) (k : ℕ) (h v : ℚ) : Prop := heights[k]? = some h ∧ values[k]? = some v

/-- Value at `x` of the line through `(x₀, y₀)` and `(x₁, y₁)`. -/
def lineAt (x₀ y₀ x₁ y₁ x : ℚ) : ℚ := y₀ + (y₁ - y₀) * ((x - x₀) / (x₁ - x₀))

end Metcalcpy.Spec
