import Verif.Model.Round
import Mathlib.Tactic.Linarith
import Mathlib.Tactic.Positivity
import Mathlib.Tactic.FieldSimp
import Mathlib.Tactic.Ring
import Mathlib.Tactic.NormNum

namespace Metcalcpy
variable {K : Type*} [Field K] [LinearOrder K] [IsStrictOrderedRing K] [FloorRing K]

theorem pow10_pos (d : ℤ) : (0 : K) < (10 : K) ^ d := zpow_pos (by norm_num) d

theorem roundHalfUp_le (x : K) (d : ℤ) : roundHalfUp x d ≤ x + (1 / 2) / (10 : K) ^ d := by
  have h := pow10_pos (K := K) d
  unfold roundHalfUp
  rw [div_le_iff₀ h, add_mul, div_mul_cancel₀ _ h.ne']
  exact Int.floor_le _

theorem lt_roundHalfUp (x : K) (d : ℤ) : x - (1 / 2) / (10 : K) ^ d < roundHalfUp x d := by
  have h := pow10_pos (K := K) d
  unfold roundHalfUp
  rw [lt_div_iff₀ h, sub_mul, div_mul_cancel₀ _ h.ne']
  have := Int.lt_floor_add_one (x * (10 : K) ^ d + 1 / 2)
  linarith

theorem roundHalfUp_mono {x y : K} (hxy : x ≤ y) (d : ℤ) : roundHalfUp x d ≤ roundHalfUp y d := by
  have h := pow10_pos (K := K) d
  unfold roundHalfUp
  rw [div_le_div_iff_of_pos_right h]
  have : x * (10 : K) ^ d ≤ y * (10 : K) ^ d := mul_le_mul_of_nonneg_right hxy h.le
  exact_mod_cast Int.floor_le_floor (by linarith)

theorem roundHalfUp_grid (k : ℤ) (d : ℤ) : roundHalfUp ((k : K) / (10 : K) ^ d) d = (k : K) / (10 : K) ^ d := by
  have h := pow10_pos (K := K) d
  unfold roundHalfUp
  rw [div_mul_cancel₀ _ h.ne']
  congr 2
  rw [Int.floor_eq_iff]
  constructor <;> linarith

omit [IsStrictOrderedRing K] in
theorem roundHalfUp_isGrid (x : K) (d : ℤ) : ∃ k : ℤ, roundHalfUp x d = (k : K) / (10 : K) ^ d :=
  ⟨_, rfl⟩

theorem roundHalfUp_int (k : ℤ) (d : ℕ) : roundHalfUp (k : K) (d : ℤ) = (k : K) := by
  have h := pow10_pos (K := K) (d : ℤ)
  have e : (k : K) = ((k * 10 ^ d : ℤ) : K) / (10 : K) ^ (d : ℤ) := by
    rw [eq_div_iff h.ne']; push_cast; simp
  rw [e, roundHalfUp_grid]

theorem round7_int (k : ℤ) : roundHalfUp (k : K) PRECISION = (k : K) := roundHalfUp_int k 7
theorem round7_zero : roundHalfUp (0 : K) PRECISION = 0 := by exact_mod_cast round7_int (K := K) 0
theorem round7_one : roundHalfUp (1 : K) PRECISION = 1 := by exact_mod_cast round7_int (K := K) 1
theorem round7_nonneg {x : K} (h : 0 ≤ x) : 0 ≤ roundHalfUp x PRECISION := by
  rw [← round7_zero]; exact roundHalfUp_mono h _
theorem round7_le_one {x : K} (h : x ≤ 1) : roundHalfUp x PRECISION ≤ 1 := by
  rw [← round7_one]; exact roundHalfUp_mono h _
theorem round7_ge_neg_one {x : K} (h : -1 ≤ x) : -1 ≤ roundHalfUp x PRECISION := by
  have := round7_int (K := K) (-1)
  push_cast at this
  rw [← this]; exact roundHalfUp_mono h _

theorem abs_roundHalfUp_sub_le (x : K) (d : ℤ) : |roundHalfUp x d - x| ≤ (1 / 2) / (10 : K) ^ d := by
  rw [abs_le]
  have h1 := roundHalfUp_le x d
  have h2 := lt_roundHalfUp x d
  constructor <;> linarith

end Metcalcpy
