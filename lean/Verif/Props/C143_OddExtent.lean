/-
C143 with an odd number of times: which components are treated rightly.
-/
import Verif.Props.C143_OmiFilter

namespace Metcalcpy.Props
open Metcalcpy

open Classical in
/-- C143, exact extent for an odd number of times: a component with `i` cycles that is not zero is kept or removed as it should be
exactly when its wavenumber is too large anyway or the band does not begin or end between `i - 1` and `i` cycles; its conjugate exactly
when the band does not begin or end between `i` and `i + 1` cycles. -/
theorem C143_odd_exactly_partial {α : Type} [Zero α] (h nl : ℕ) (dt pmin pmax K : ℚ) (S : ℕ → ℕ → α) (hdt : 0 < dt)
    (hp : 0 < pmin) (hpp : pmin < pmax) (hK : 0 < K) (hel : nl % 2 = 0) (i j : ℕ) (h1 : 2 ≤ i) (hi : i < h) (hj : j < nl) :
    (S i j ≠ 0 →
      (omiFilter (2 * h + 1) nl dt pmin pmax (-K) K S i j =
          (if PeriodInBand ((2 * h + 1 : ℕ) * dt) pmin pmax i ∧ ((min j (nl - j) : ℕ) : ℚ) ≤ K then S i j else 0) ↔
        K < ((min j (nl - j) : ℕ) : ℚ) ∨
        (PeriodInBand ((2 * h + 1 : ℕ) * dt) pmin pmax (i - 1) ↔ PeriodInBand ((2 * h + 1 : ℕ) * dt) pmin pmax i))) ∧
    (S (2 * h + 1 - i) j ≠ 0 →
      (omiFilter (2 * h + 1) nl dt pmin pmax (-K) K S (2 * h + 1 - i) j =
          (if PeriodInBand ((2 * h + 1 : ℕ) * dt) pmin pmax i ∧ ((min j (nl - j) : ℕ) : ℚ) ≤ K then S (2 * h + 1 - i) j else 0) ↔
        K < ((min j (nl - j) : ℕ) : ℚ) ∨
        (PeriodInBand ((2 * h + 1 : ℕ) * dt) pmin pmax (i + 1) ↔ PeriodInBand ((2 * h + 1 : ℕ) * dt) pmin pmax i))) := by
  obtain ⟨e1, e2⟩ := C143_odd h nl dt pmin pmax K S hdt hp hpp hK hel i j h1 hi hj
  have key : ∀ (P Q W : Prop) (_ : Decidable (P ∧ W)) (_ : Decidable (Q ∧ W)) (x : α), x ≠ 0 → ((if P ∧ W then x else 0) = (if Q ∧ W then x else 0) ↔ ¬ W ∨ (P ↔ Q)) := by
    intro P Q W _ _ x hx
    by_cases hP : P <;> by_cases hQ : Q <;> by_cases hW : W <;> simp [hP, hQ, hW, hx, hx.symm]
  refine ⟨fun hS => ?_, fun hS => ?_⟩
  · rw [e1, key _ _ _ _ _ _ hS, not_le]
  · rw [e2, key _ _ _ _ _ _ hS, not_le]

/-- 2461 days: with 124 cycles (19.8 days) a component is treated wrongly, with 100 cycles (24.6 days) rightly. -/
example (S : ℕ → ℕ → ℚ) (hS : ∀ i j, S i j ≠ 0) :
    omiFilter 2461 144 1 20 96 (-720) 720 S 124 3 ≠ 0 ∧ omiFilter 2461 144 1 20 96 (-720) 720 S 100 3 = S 100 3 := by
  have k1 := (C143_odd 1230 144 1 20 96 720 S (by norm_num) (by norm_num) (by norm_num) (by norm_num) (by norm_num) 124 3
    (by norm_num) (by norm_num) (by norm_num)).1
  have k2 := (C143_odd_exactly_partial 1230 144 1 20 96 720 S (by norm_num) (by norm_num) (by norm_num) (by norm_num) (by norm_num) 100 3
    (by norm_num) (by norm_num) (by norm_num)).1 (hS _ _)
  constructor
  · rw [if_pos (by unfold PeriodInBand; norm_num)] at k1
    norm_num at k1
    rw [k1]
    exact hS _ _
  · have := k2.mpr (Or.inr (by unfold PeriodInBand; norm_num))
    rw [if_pos (by unfold PeriodInBand; norm_num)] at this
    exact this

end Metcalcpy.Props
