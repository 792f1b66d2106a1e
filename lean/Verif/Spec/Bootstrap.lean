/-
Specification vocabulary for the bootstrap.
-/
import Mathlib.Data.List.Basic
import Mathlib.Data.Rat.Defs
import Mathlib.Algebra.Order.Ring.Rat

namespace Metcalcpy.Spec

/-- Index drawn at position `i` of a circular block bootstrap: the start point of the block `i` belongs to,
moved on by the position inside the block, around the circle of all cases. -/
def blockIndex (starts : List ℕ) (L i : ℕ) : ℕ :=
  (starts.getD (i / L * L) 0 + i % L) % starts.length

/-- A `k × n` matrix of indices below `n`: what `np.random.choice(n, (k, n))` returns. -/
def IndexMatrix (n k : ℕ) (ids : List (List ℕ)) : Prop :=
  ids.length = k ∧ ∀ row ∈ ids, row.length = n ∧ ∀ i ∈ row, i < n

/-- `xs` consists of values of `data` (as many as there are data). -/
def IsResample {α : Type} (data xs : List α) : Prop :=
  xs.length = data.length ∧ ∀ x ∈ xs, x ∈ data

/-- `rs` are the values of `f` on `n` resamples of the data. -/
def Replicates {α β : Type} (data : List α) (f : List α → β) (n : ℕ) (rs : List β) : Prop :=
  ∃ sims : List (List α), sims.length = n ∧ (∀ xs ∈ sims, IsResample data xs) ∧ rs = sims.map f

end Metcalcpy.Spec
