/-
Specification of blocking groups on the latitude circle.
-/
import Verif.Model.Base
import Mathlib.Algebra.BigOperators.Group.Finset.Basic

namespace Metcalcpy.Spec

/-- Longitude `z` (any integer, read around the circle of 360 points) is instantaneously blocked. -/
def BlockedAt (a : List ℚ) (z : ℤ) : Prop := a[(z % 360).toNat]? = some 1

/-- The blocked longitudes from `lo` to `hi` are close to each other: each one but the last is followed by another at a
distance of at most `crit/2`. -/
structure IsBlockedGroup (P : ℤ → Prop) (crit lo hi : ℤ) : Prop where
  le : lo ≤ hi
  first : P lo
  last : P hi
  linked : ∀ s, P s → lo ≤ s → s < hi → ∃ t, P t ∧ s < t ∧ t ≤ hi ∧ 2 * (t - s) ≤ crit

/-- `z` lies in a group that covers at least `crit` longitudes. -/
def InGroup (P : ℤ → Prop) (crit z : ℤ) : Prop :=
  ∃ lo hi, IsBlockedGroup P crit lo hi ∧ crit ≤ hi - lo + 1 ∧ lo ≤ z ∧ z ≤ hi

/-- `z` lies in such a group that does not leave the longitudes 0..719 (the circle read twice). -/
def InGroupTwice (P : ℤ → Prop) (crit z : ℤ) : Prop :=
  ∃ lo hi, IsBlockedGroup P crit lo hi ∧ crit ≤ hi - lo + 1 ∧ lo ≤ z ∧ z ≤ hi ∧ 0 ≤ lo ∧ hi < 720

/-- `v` is the integer part of `q` (towards zero). -/
def IsIntegerPart (q : ℚ) (v : ℤ) : Prop := (0 ≤ q ∧ (v : ℚ) ≤ q ∧ q < v + 1) ∨ (q < 0 ∧ (v : ℚ) - 1 < q ∧ q ≤ v)

/-- Mean of the `2 m + 1` values around position `i`. -/
def windowMean (f : ℤ → ℚ) (m : ℕ) (i : ℤ) : ℚ := (∑ k ∈ Finset.range (2 * m + 1), f (i - m + k)) / (2 * m + 1)

/-- A row of values read around the circle. -/
def around (row : List ℚ) (z : ℤ) : ℚ := row.getD (z % row.length).toNat 0

/-- Mean height from latitude `c` to latitude `c + h`. -/
def northMean (Z : ℤ → ℚ) (c : ℤ) (h : ℕ) : ℚ := (∑ k ∈ Finset.range (h + 1), Z (c + k)) / (h + 1)

/-- Mean height from latitude `c` down to latitude `c - h`. -/
def southMean (Z : ℤ → ℚ) (c : ℤ) (h : ℕ) : ℚ := (∑ k ∈ Finset.range (h + 1), Z (c - k)) / (h + 1)

end Metcalcpy.Spec
