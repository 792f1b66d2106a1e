/-
Specification of a singular value decomposition of a matrix of times and points.
-/
import Mathlib.Analysis.Real.Sqrt
import Mathlib.Algebra.BigOperators.Ring.Finset

namespace Metcalcpy.Spec
open Finset

/-- `(u, s, v)` is a singular value decomposition of the matrix `a` with `nt` rows and `n` columns: the product is `a`, columns of
`u` and rows of `v` are orthonormal, and the singular values are not negative and go down. -/
structure IsSvd (nt n : ℕ) (a : ℕ → ℕ → ℝ) (u : ℕ → ℕ → ℝ) (s : ℕ → ℝ) (v : ℕ → ℕ → ℝ) : Prop where
  product : ∀ t < nt, ∀ p < n, a t p = ∑ k ∈ range (min nt n), u t k * s k * v k p
  left : ∀ k < min nt n, ∀ l < min nt n, ∑ t ∈ range nt, u t k * u t l = if k = l then 1 else 0
  right : ∀ k < min nt n, ∀ l < min nt n, ∑ p ∈ range n, v k p * v l p = if k = l then 1 else 0
  nonneg : ∀ k < min nt n, 0 ≤ s k
  sorted : ∀ k l, k ≤ l → l < min nt n → s l ≤ s k

end Metcalcpy.Spec
