/-
Sums of roots of unity, for discrete Fourier transforms.
-/
import Mathlib.Analysis.SpecialFunctions.Complex.Circle
import Mathlib.Algebra.Field.GeomSum
import Mathlib.Analysis.SpecialFunctions.Trigonometric.Basic

namespace Metcalcpy
open Complex

/-- `exp(2 π i a m / n)`. -/
noncomputable def unit (n : ℕ) (a : ℤ) (m : ℕ) : ℂ := exp (2 * Real.pi * I * (a * m / n))

theorem unit_pow (n : ℕ) (a : ℤ) (m : ℕ) : unit n a m = (unit n a 1) ^ m := by
  unfold unit
  rw [← Complex.exp_nat_mul]
  congr 1
  push_cast
  ring

theorem unit_one_eq (n : ℕ) (hn : 0 < n) (a : ℤ) : unit n a 1 = 1 ↔ (n : ℤ) ∣ a := by
  have hn' : (n : ℂ) ≠ 0 := by exact_mod_cast hn.ne'
  unfold unit
  rw [Complex.exp_eq_one_iff]
  have hpi : (2 * Real.pi * I : ℂ) ≠ 0 := Complex.two_pi_I_ne_zero
  constructor
  · rintro ⟨k, hk⟩
    refine ⟨k, ?_⟩
    rw [mul_comm (k : ℂ)] at hk
    have h := mul_left_cancel₀ hpi hk
    push_cast at h
    rw [mul_one, div_eq_iff hn'] at h
    have : (a : ℂ) = ((n * k : ℤ) : ℂ) := by rw [h]; push_cast; ring
    exact_mod_cast this
  · rintro ⟨k, rfl⟩
    refine ⟨k, ?_⟩
    push_cast
    field_simp

theorem sum_unit (n : ℕ) (hn : 0 < n) (a : ℤ) : ∑ m ∈ Finset.range n, unit n a m = if (n : ℤ) ∣ a then (n : ℂ) else 0 := by
  rw [Finset.sum_congr rfl fun m _ => unit_pow n a m]
  split_ifs with h
  · rw [(unit_one_eq n hn a).mpr h]
    simp
  · have h1 : unit n a 1 ≠ 1 := fun he => h ((unit_one_eq n hn a).mp he)
    rw [geom_sum_eq h1]
    have : unit n a 1 ^ n = 1 := by
      rw [← unit_pow]
      have hn' : (n : ℂ) ≠ 0 := by exact_mod_cast hn.ne'
      unfold unit
      rw [mul_div_assoc, div_self hn', mul_one, mul_comm, Complex.exp_int_mul_two_pi_mul_I]
    rw [this, sub_self, zero_div]

theorem unit_mul (n : ℕ) (a b : ℤ) (m : ℕ) : unit n a m * unit n b m = unit n (a + b) m := by
  unfold unit
  rw [← Complex.exp_add]
  congr 1
  push_cast
  ring

theorem conj_unit (n : ℕ) (a : ℤ) (m : ℕ) : (starRingEnd ℂ) (unit n a m) = unit n (-a) m := by
  unfold unit
  rw [← Complex.exp_conj]
  congr 1
  simp only [map_mul, map_div₀, Complex.conj_ofReal, Complex.conj_I, map_intCast, map_natCast, map_ofNat]
  push_cast
  ring

theorem cos_eq_unit (n : ℕ) (a : ℤ) (m : ℕ) (φ : ℝ) :
    ((Real.cos (2 * Real.pi * a * m / n + φ) : ℝ) : ℂ) = (exp (φ * I) * unit n a m + exp (-φ * I) * unit n (-a) m) / 2 := by
  rw [Complex.ofReal_cos, Complex.cos, unit, unit, ← Complex.exp_add, ← Complex.exp_add]
  congr 2
  · congr 1; push_cast; ring
  · congr 1; push_cast; ring

theorem unit_add_mul (n : ℕ) (hn : 0 < n) (a k : ℤ) (m : ℕ) : unit n (a + n * k) m = unit n a m := by
  rw [← unit_mul, unit_pow n (n * k), (unit_one_eq n hn _).mpr (dvd_mul_right _ _), one_pow, mul_one]

end Metcalcpy
