/-
C06  round_half_up rounds to the nearest grid point, ties upward.
-/
import Verif.Lemmas.Round

namespace Metcalcpy.Props
open Metcalcpy
variable {K : Type*} [Field K] [LinearOrder K] [IsStrictOrderedRing K] [FloorRing K]

/-- Specification: `r` is the half-up rounding of `x` to `d` decimals: `r` is an integer multiple of
`10^-d`, no multiple of `10^-d` is strictly nearer to `x`, and every other multiple that is equally
near is smaller than `r`. -/
def IsHalfUpRounding (x : K) (d : ℤ) (r : K) : Prop :=
  (∃ k : ℤ, r = k / (10 : K) ^ d) ∧
  (∀ m : ℤ, |r - x| ≤ |(m : K) / (10 : K) ^ d - x|) ∧
  (∀ m : ℤ, |(m : K) / (10 : K) ^ d - x| = |r - x| → (m : K) / (10 : K) ^ d ≤ r)

/-- C06, main statement: the result is the nearest grid point, ties going up. -/
theorem C06_round_half_up_nearest (x : K) (d : ℤ) : IsHalfUpRounding x d (roundHalfUp x d) := by
  have h := pow10_pos (K := K) d
  have key : ∀ m : ℤ, (m : K) / (10 : K) ^ d ≤ roundHalfUp x d ∨
      roundHalfUp x d + 1 / (10 : K) ^ d ≤ (m : K) / (10 : K) ^ d := by
    intro m
    unfold roundHalfUp
    rw [← add_div, div_le_div_iff_of_pos_right h, div_le_div_iff_of_pos_right h]
    rcases le_or_gt m ⌊x * (10 : K) ^ d + 1 / 2⌋ with hm | hm
    · left; exact_mod_cast hm
    · right; exact_mod_cast hm
  have key' : ∀ m : ℤ, roundHalfUp x d ≤ (m : K) / (10 : K) ^ d ∨
      (m : K) / (10 : K) ^ d + 1 / (10 : K) ^ d ≤ roundHalfUp x d := by
    intro m
    unfold roundHalfUp
    rw [← add_div, div_le_div_iff_of_pos_right h, div_le_div_iff_of_pos_right h]
    rcases le_or_gt ⌊x * (10 : K) ^ d + 1 / 2⌋ m with hm | hm
    · left; exact_mod_cast hm
    · right; exact_mod_cast hm
  have h1 := roundHalfUp_le x d
  have h2 := lt_roundHalfUp x d
  have hu : (1 / 2 : K) / (10 : K) ^ d = (1 / (10 : K) ^ d) / 2 := by ring
  have hp : (0 : K) < 1 / (10 : K) ^ d := by positivity
  rw [hu] at h1 h2
  refine ⟨roundHalfUp_isGrid x d, ?_, ?_⟩
  · intro m
    rcases key m with ha | ha
    · rcases key' m with hb | hb
      · rw [le_antisymm ha hb]
      · rw [abs_sub_comm _ x, abs_sub_comm _ x]
        calc |x - roundHalfUp x d| ≤ (1 / (10 : K) ^ d) / 2 := by
              rw [abs_le]; constructor <;> linarith
          _ ≤ x - (m : K) / (10 : K) ^ d := by linarith
          _ ≤ _ := le_abs_self _
    · calc |roundHalfUp x d - x| ≤ (1 / (10 : K) ^ d) / 2 := by
            rw [abs_le]; constructor <;> linarith
        _ ≤ (m : K) / (10 : K) ^ d - x := by linarith
        _ ≤ _ := le_abs_self _
  · intro m hm
    by_contra hlt
    push Not at hlt
    rcases key m with ha | ha
    · exact absurd ha (not_le.mpr hlt)
    · have e1 : |(m : K) / (10 : K) ^ d - x| = (m : K) / (10 : K) ^ d - x :=
        abs_of_nonneg (by linarith)
      rw [e1] at hm
      have : |roundHalfUp x d - x| < (m : K) / (10 : K) ^ d - x := by
        rw [abs_lt]; constructor <;> linarith
      linarith

/-- The three clauses of `IsHalfUpRounding` determine the result: the rounding is unique. -/
theorem C06_rounding_unique (x : K) (d : ℤ) (r : K) (hr : IsHalfUpRounding x d r) :
    r = roundHalfUp x d := by
  obtain ⟨⟨k, rfl⟩, near, tie⟩ := hr
  obtain ⟨⟨k', hk'⟩, near', tie'⟩ := C06_round_half_up_nearest x d
  have e : |(k : K) / 10 ^ d - x| = |roundHalfUp x d - x| :=
    le_antisymm (by rw [hk']; exact near k') (near' k)
  refine le_antisymm (tie' k e) ?_
  rw [hk']; rw [hk'] at e; exact tie k' e.symm

/-- C06: at most half a unit in the last place away. -/
theorem C06_round_half_up_error (x : K) (d : ℤ) :
    |roundHalfUp x d - x| ≤ (1 / 2) / (10 : K) ^ d := abs_roundHalfUp_sub_le x d

/-- C06: monotone. -/
theorem C06_round_half_up_mono (d : ℤ) : Monotone (fun x : K => roundHalfUp x d) :=
  fun _ _ h => roundHalfUp_mono h d

/-- C06: idempotent. -/
theorem C06_round_half_up_idem (x : K) (d : ℤ) :
    roundHalfUp (roundHalfUp x d) d = roundHalfUp x d := by
  obtain ⟨k, hk⟩ := roundHalfUp_isGrid x d
  rw [hk, roundHalfUp_grid]

/-- C06: an exact tie `(k + 1/2) / 10^d` is rounded to the larger neighbour (negative numbers
included). -/
theorem C06_round_half_up_tie (k d : ℤ) :
    roundHalfUp (((k : K) + 1 / 2) / (10 : K) ^ d) d = ((k : K) + 1) / (10 : K) ^ d := by
  have h := pow10_pos (K := K) d
  unfold roundHalfUp
  rw [div_mul_cancel₀ _ h.ne']
  congr 1
  have : (k : K) + 1 / 2 + 1 / 2 = ((k + 1 : ℤ) : K) := by push_cast; ring
  rw [this, Int.floor_intCast]; push_cast; ring

/-- Non-trivial instances: a tie above and a tie below zero, a negative number of decimals. -/
example : roundHalfUp (5 / 2 : ℚ) 0 = 3 ∧ roundHalfUp (-5 / 2 : ℚ) 0 = -2 ∧
    roundHalfUp (1 / 3 : ℚ) 7 = 3333333 / 10000000 ∧ roundHalfUp (1250 : ℚ) (-2) = 1300 := by
  refine ⟨?_, ?_, ?_, ?_⟩ <;> norm_num [roundHalfUp, Int.floor_eq_iff, zpow_neg]

end Metcalcpy.Props
