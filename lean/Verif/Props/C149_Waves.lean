/-
C149  Amplitudes and phases of zonal waves.
C150  The contributions of the waves add up to the data.
C151  Covariances by wavenumber.
-/
import Verif.Model.Waves
import Verif.Lemmas.Dft
import Mathlib.Algebra.BigOperators.Field
import Mathlib.Algebra.BigOperators.Intervals

namespace Metcalcpy.Props
open Metcalcpy

/-- A mean `A 0` and waves of `p` cycles, 1 ≤ p ≤ P, with amplitudes `A p` and phases `φ p`, on `n` equally spaced longitudes. -/
noncomputable def harmonic (n P : ℕ) (A φ : ℕ → ℝ) : List ℝ :=
  (List.range n).map fun j : ℕ => A 0 + ∑ p ∈ Finset.Icc 1 P, A p * Real.cos (2 * Real.pi * p * j / n + φ p)

theorem exp_neg_unit (n k j : ℕ) : Complex.exp (-(2 * Real.pi * Complex.I * ((k : ℂ) * j / n))) = unit n (-(k : ℤ)) j := by
  unfold unit
  congr 1
  push_cast
  ring

theorem waveSum (n p k : ℕ) (φ : ℝ) (hp : 1 ≤ p) (hn : 2 * p < n) (hk : k ≤ n / 2) :
    ∑ j ∈ Finset.range n, ((Real.cos (2 * Real.pi * p * j / n + φ) : ℝ) : ℂ) * unit n (-(k : ℤ)) j =
      if k = p then (n : ℂ) / 2 * Complex.exp (φ * Complex.I) else 0 := by
  have hterm : ∀ j : ℕ, ((Real.cos (2 * Real.pi * p * j / n + φ) : ℝ) : ℂ) * unit n (-(k : ℤ)) j =
      (Complex.exp (φ * Complex.I) * unit n ((p : ℤ) - k) j + Complex.exp (-φ * Complex.I) * unit n (-(p : ℤ) - k) j) / 2 := by
    intro j
    have := cos_eq_unit n p j φ
    rw [Int.cast_natCast] at this
    rw [this, sub_eq_add_neg, ← unit_mul, sub_eq_add_neg, ← unit_mul]
    ring
  rw [Finset.sum_congr rfl fun j _ => hterm j, ← Finset.sum_div, Finset.sum_add_distrib, ← Finset.mul_sum, ← Finset.mul_sum,
    sum_unit n (by omega), sum_unit n (by omega)]
  have h1 : ¬ ((n : ℤ) ∣ -(p : ℤ) - k) := by
    intro h
    have : (n : ℤ) ∣ (p + k : ℕ) := by
      have := (Int.dvd_neg).mpr h
      convert this using 1
      push_cast; ring
    have := Nat.le_of_dvd (by omega) (Int.natCast_dvd_natCast.mp this)
    omega
  have h2 : ((n : ℤ) ∣ (p : ℤ) - k) ↔ k = p := by
    constructor
    · rintro ⟨c, hc⟩
      have : c = 0 := by
        rcases lt_trichotomy c 0 with h | h | h
        · have : (n : ℤ) * c ≤ -n := by nlinarith
          omega
        · exact h
        · have : (n : ℤ) ≤ n * c := by nlinarith
          omega
      rw [this] at hc
      omega
    · rintro rfl; simp
  rw [if_neg h1, mul_zero, add_zero]
  by_cases hc : k = p
  · rw [if_pos (h2.mpr hc), if_pos hc]; ring
  · rw [if_neg (fun h => hc (h2.mp h)), if_neg hc]; simp

theorem rfftAt_harmonic (n P : ℕ) (A φ : ℕ → ℝ) (hP : 2 * P < n) (k : ℕ) (hk : k ≤ n / 2) :
    rfftAt (harmonic n P A φ) k =
      if k = 0 then (n : ℂ) * A 0 else if k ≤ P then (n : ℂ) / 2 * A k * Complex.exp (φ k * Complex.I) else 0 := by
  have hn : 0 < n := by omega
  unfold rfftAt
  have hl : (harmonic n P A φ).length = n := by simp [harmonic]
  rw [hl]
  have hterm : ∀ j ∈ Finset.range n, ((harmonic n P A φ).getD j 0 : ℂ) * Complex.exp (-(2 * Real.pi * Complex.I * ((k : ℂ) * j / n))) =
      A 0 * unit n (-(k : ℤ)) j + ∑ p ∈ Finset.Icc 1 P, (A p : ℂ) * (((Real.cos (2 * Real.pi * p * j / n + φ p) : ℝ) : ℂ) * unit n (-(k : ℤ)) j) := by
    intro j hj
    rw [exp_neg_unit]
    have : (harmonic n P A φ).getD j 0 = A 0 + ∑ p ∈ Finset.Icc 1 P, A p * Real.cos (2 * Real.pi * p * j / n + φ p) := by
      simp [harmonic, List.getD, List.getElem?_range (Finset.mem_range.mp hj)]
    rw [this, Complex.ofReal_add, Complex.ofReal_sum, add_mul, Finset.sum_mul]
    congr 1
    apply Finset.sum_congr rfl
    intro p _
    rw [Complex.ofReal_mul, mul_assoc]
  rw [Finset.sum_congr rfl hterm, Finset.sum_add_distrib, ← Finset.mul_sum, sum_unit n hn, Finset.sum_comm]
  have h2 : ∀ p ∈ Finset.Icc 1 P, ∑ j ∈ Finset.range n, (A p : ℂ) * (((Real.cos (2 * Real.pi * p * j / n + φ p) : ℝ) : ℂ) * unit n (-(k : ℤ)) j) =
      if k = p then (n : ℂ) / 2 * A k * Complex.exp (φ k * Complex.I) else 0 := by
    intro p hp
    obtain ⟨hp1, hp2⟩ := Finset.mem_Icc.mp hp
    rw [← Finset.mul_sum, waveSum n p k (φ p) hp1 (by omega) hk]
    split_ifs with h
    · subst h; ring
    · simp
  rw [Finset.sum_congr rfl h2, Finset.sum_ite_eq]
  by_cases h0 : k = 0
  · subst h0
    simp
    ring
  · have hnd : ¬ ((n : ℤ) ∣ -(k : ℤ)) := by
      rw [Int.dvd_neg, Int.natCast_dvd_natCast]
      intro h
      have := Nat.le_of_dvd (by omega) h
      omega
    rw [if_neg hnd, if_neg h0, mul_zero, zero_add]
    simp only [Finset.mem_Icc]
    by_cases hkP : k ≤ P
    · rw [if_pos ⟨by omega, hkP⟩, if_pos hkP]
    · rw [if_neg (by omega), if_neg hkP]

theorem zonalWaveCoeffs_all (x : List ℝ) (hx : 0 < x.length) (fftpkg : String) (hf : fftpkg = "scipy" ∨ fftpkg = "xrft") :
    zonalWaveCoeffs x none fftpkg = .ok ((List.range (x.length / 2 + 1)).map fun k => (k, rfftAt x k)) := by
  unfold zonalWaveCoeffs
  rw [if_neg (by rcases hf with rfl | rfl <;> decide), if_neg (by omega)]

/-- C149, proved but for the shortest wave: of data made of a mean and waves longer than two longitudes, the amplitude at every wavenumber is
that of the wave, and the phase is that of the wave, in radians or degrees. -/
theorem C149_amplitude_partial (n P : ℕ) (A φ : ℕ → ℝ) (hP : 2 * P < n) (hA : ∀ p, 1 ≤ p → 0 ≤ A p) (deg : Bool) (fftpkg : String)
    (hf : fftpkg = "scipy" ∨ fftpkg = "xrft") :
    ∃ out, zonalWaveAmplPhase false (harmonic n P A φ) none deg fftpkg = .ok out ∧ out.length = n / 2 + 1 ∧
      ∀ k : ℕ, k ≤ n / 2 → ∃ θ, out[k]? = some (k, if k = 0 then |A 0| else if k ≤ P then A k else 0, θ) ∧
        (1 ≤ k → k ≤ P → 0 < A k → -Real.pi < φ k → φ k ≤ Real.pi → θ = if deg then φ k * (180 / Real.pi) else φ k) := by
  have hl : (harmonic n P A φ).length = n := by simp [harmonic]
  have hn : (n : ℝ) ≠ 0 := by
    have : n ≠ 0 := by omega
    exact_mod_cast this
  have hnpos : (0 : ℝ) < n := by
    have : 0 < n := by omega
    exact_mod_cast this
  refine ⟨_, by
    unfold zonalWaveAmplPhase
    rw [zonalWaveCoeffs_all _ (by omega) _ hf]
    rfl, by simp [hl], ?_⟩
  intro k hk
  refine ⟨asType false (if deg then Complex.arg (rfftAt (harmonic n P A φ) k) * (180 / Real.pi) else Complex.arg (rfftAt (harmonic n P A φ) k)), ?_, ?_⟩
  · rw [List.getElem?_map, List.getElem?_map, hl, List.getElem?_range (by omega)]
    simp only [Option.map_some, Option.some.injEq, Prod.mk.injEq, true_and]
    refine ⟨?_, trivial⟩
    rw [rfftAt_harmonic n P A φ hP k hk]
    simp only [asType]
    by_cases h0 : k = 0
    · simp only [h0, if_true, ne_eq, not_true, if_false, one_mul, norm_mul, Complex.norm_natCast, Complex.norm_real, Real.norm_eq_abs]
      simp
      field_simp
    · simp only [h0, if_false, ne_eq, not_false_eq_true, if_true]
      by_cases hkP : k ≤ P
      · simp only [hkP, if_true, norm_mul, norm_div, Complex.norm_natCast, Complex.norm_real, Real.norm_eq_abs, Complex.norm_exp_ofReal_mul_I,
          abs_of_nonneg (hA k (by omega))]
        simp
        field_simp
      · simp [hkP]
  · intro h1 hkP hpos hlo hhi
    have hr := rfftAt_harmonic n P A φ hP k hk
    rw [if_neg (by omega), if_pos hkP] at hr
    rw [hr]
    have : (n : ℂ) / 2 * A k * Complex.exp (φ k * Complex.I) = (((n : ℝ) / 2 * A k : ℝ) : ℂ) * Complex.exp (φ k * Complex.I) := by
      push_cast; ring
    rw [this, Complex.arg_real_mul _ (by positivity), Complex.arg_exp_mul_I,
      (toIocMod_eq_self Real.two_pi_pos).mpr ⟨hlo, by linarith⟩]
    simp [asType]

/-- C149 is false of the shortest wave, of two longitudes: its amplitude is doubled. -/
theorem C149_shortest_counterexample (h : ℕ) (hh : 0 < h) (A : ℝ) (deg : Bool) :
    ∃ out θ, zonalWaveAmplPhase false ((List.range (2 * h)).map fun j : ℕ => A * Real.cos (2 * Real.pi * h * j / (2 * h : ℕ))) none deg "scipy" = .ok out ∧
      out[h]? = some (h, 2 * |A|, θ) := by
  set x := (List.range (2 * h)).map fun j : ℕ => A * Real.cos (2 * Real.pi * h * j / (2 * h : ℕ)) with hx
  have hl : x.length = 2 * h := by simp [hx]
  have hh' : (h : ℝ) ≠ 0 := by exact_mod_cast hh.ne'
  have hr : rfftAt x h = ((2 * h : ℕ) : ℂ) * A := by
    unfold rfftAt
    rw [hl]
    have hterm : ∀ j ∈ Finset.range (2 * h), (x.getD j 0 : ℂ) * Complex.exp (-(2 * Real.pi * Complex.I * ((h : ℂ) * j / (2 * h : ℕ)))) = A := by
      intro j hj
      rw [exp_neg_unit]
      have : x.getD j 0 = A * Real.cos (2 * Real.pi * h * j / (2 * h : ℕ)) := by
        simp [hx, List.getD, List.getElem?_range (Finset.mem_range.mp hj)]
      have hc := cos_eq_unit (2 * h) h j 0
      rw [Int.cast_natCast, add_zero] at hc
      rw [this, Complex.ofReal_mul, hc]
      have h1 : unit (2 * h) (h : ℤ) j * unit (2 * h) (-(h : ℤ)) j = 1 := by
        rw [unit_mul]
        simp [unit]
      have h2 : unit (2 * h) (-(h : ℤ)) j * unit (2 * h) (-(h : ℤ)) j = 1 := by
        rw [unit_mul, show -(h : ℤ) + -(h : ℤ) = 0 + ((2 * h : ℕ) : ℤ) * (-1) by push_cast; ring, unit_add_mul _ (by omega)]
        simp [unit]
      rw [mul_assoc, div_mul_eq_mul_div, add_mul, mul_assoc, mul_assoc, h1, h2]
      simp
    rw [Finset.sum_congr rfl hterm]
    simp
  refine ⟨_, asType false (if deg then Complex.arg (rfftAt x h) * (180 / Real.pi) else Complex.arg (rfftAt x h)), by
    unfold zonalWaveAmplPhase
    rw [zonalWaveCoeffs_all _ (by omega) _ (Or.inl rfl)]
    rfl, ?_⟩
  · rw [List.getElem?_map, List.getElem?_map, hl, List.getElem?_range (by omega)]
    simp only [Option.map_some, hr, Option.some.injEq, Prod.mk.injEq, true_and]
    refine ⟨?_, trivial⟩
    simp only [asType, hh.ne', ne_eq, not_false_eq_true, if_true, norm_mul, Complex.norm_natCast, Complex.norm_real, Real.norm_eq_abs]
    push_cast
    field_simp

/-- C149 is false of integer data: amplitudes are truncated to integers; for this example all are zero. -/
theorem C149_integer_counterexample (n : ℕ) (hn : 3 ≤ n) :
    ∃ out, zonalWaveAmplPhase true (1 :: List.replicate (n - 1) 0) none false "scipy" = .ok out ∧ ∀ r ∈ out, r.2.1 = 0 := by
  have hl : (1 :: List.replicate (n - 1) (0 : ℝ)).length = n := by simp; omega
  refine ⟨_, by
    unfold zonalWaveAmplPhase
    rw [zonalWaveCoeffs_all _ (by omega) _ (Or.inl rfl)]
    rfl, ?_⟩
  intro r hr
  obtain ⟨q, hq, rfl⟩ := List.mem_map.mp hr
  obtain ⟨k, -, rfl⟩ := List.mem_map.mp hq
  have h1 : rfftAt (1 :: List.replicate (n - 1) 0) k = 1 := by
    unfold rfftAt
    rw [Finset.sum_eq_single 0]
    · simp
    · intro j _ hj
      obtain ⟨i, rfl⟩ : ∃ i, j = i + 1 := ⟨j - 1, by omega⟩
      have : (1 :: List.replicate (n - 1) (0 : ℝ)).getD (i + 1) 0 = 0 := by
        simp [List.getD, List.getElem?_replicate]
        split_ifs <;> rfl
      rw [this]
      simp
    · intro h
      exact absurd (Finset.mem_range.mpr (by rw [hl]; omega)) h
  simp only [h1, hl, norm_one, mul_one, asType, if_true]
  have hn' : (3 : ℝ) ≤ n := by exact_mod_cast hn
  have hpos : (0 : ℝ) ≤ (if k ≠ 0 then 2 else 1) / n := by positivity
  rw [if_pos hpos]
  have hlt : (if k ≠ 0 then 2 else 1) / (n : ℝ) < 1 := by
    rw [div_lt_one (by linarith)]
    split_ifs <;> linarith
  have : ⌊(if k ≠ 0 then 2 else 1) / (n : ℝ)⌋ = 0 := by
    rw [Int.floor_eq_zero_iff]
    exact ⟨hpos, hlt⟩
  rw [this]
  simp

/-- Eight longitudes: mean 1, wave 1 of amplitude 2, wave 3 of amplitude 5. -/
example (φ : ℕ → ℝ) : ∃ out, zonalWaveAmplPhase false (harmonic 8 3 (fun p => if p = 0 then 1 else if p = 1 then 2 else if p = 3 then 5 else 0) φ) none
    false "scipy" = .ok out ∧ ∃ θ, out[3]? = some (3, 5, θ) := by
  obtain ⟨out, h1, -, h2⟩ := C149_amplitude_partial 8 3 (fun p => if p = 0 then 1 else if p = 1 then 2 else if p = 3 then 5 else 0) φ (by norm_num)
    (by intro p _; split_ifs <;> norm_num) false "scipy" (Or.inl rfl)
  obtain ⟨θ, h3, -⟩ := h2 3 (by norm_num)
  exact ⟨out, h1, θ, by simpa using h3⟩

/-! ### C150 -/

theorem sum_fold (r : ℕ → ℝ) (h : ℕ) (hh : 0 < h) (hr : ∀ k, 1 ≤ k → k < h → r (2 * h - k) = r k) :
    ∑ k ∈ Finset.range (2 * h), r k = ∑ k ∈ Finset.range (h + 1), (if k = 0 ∨ k = h then 1 else 2) * r k := by
  obtain ⟨g, rfl⟩ : ∃ g, h = g + 1 := ⟨h - 1, by omega⟩
  have h1 : ∑ k ∈ Finset.range (2 * (g + 1)), r k = ∑ k ∈ Finset.range (g + 2), r k + ∑ i ∈ Finset.range g, r (g + 2 + i) := by
    rw [show 2 * (g + 1) = (g + 2) + g by ring, Finset.sum_range_add]
  have h2 : ∑ i ∈ Finset.range g, r (g + 2 + i) = ∑ i ∈ Finset.range g, r (i + 1) := by
    rw [← Finset.sum_range_reflect]
    apply Finset.sum_congr rfl
    intro i hi
    have hi' := Finset.mem_range.mp hi
    rw [← hr (i + 1) (by omega) (by omega)]
    congr 1
    omega
  have h3 : ∑ k ∈ Finset.range (g + 2), r k = ∑ i ∈ Finset.range g, r (i + 1) + r 0 + r (g + 1) := by
    rw [Finset.sum_range_succ, Finset.sum_range_succ']
  have h4 : ∑ k ∈ Finset.range (g + 1 + 1), (if k = 0 ∨ k = g + 1 then 1 else 2) * r k =
      ∑ i ∈ Finset.range g, 2 * r (i + 1) + r 0 + r (g + 1) := by
    rw [Finset.sum_range_succ, Finset.sum_range_succ']
    congr 1
    · congr 1
      · apply Finset.sum_congr rfl
        intro i hi
        have hi' := Finset.mem_range.mp hi
        rw [if_neg (by omega)]
      · simp
    · simp
  rw [h1, h2, h3, h4, ← Finset.mul_sum]
  ring

/-- The coefficient of `k` times the wave of `k`, at longitude `j`. -/
theorem coeff_wave (x : List ℝ) (h : ℕ) (hl : x.length = 2 * h) (k j : ℕ) :
    rfftAt x k * Complex.exp (2 * Real.pi * Complex.I * ((k : ℂ) * j / (2 * h : ℕ))) =
      ∑ l ∈ Finset.range (2 * h), (x.getD l 0 : ℂ) * unit (2 * h) ((j : ℤ) - l) k := by
  unfold rfftAt
  rw [hl, Finset.sum_mul]
  apply Finset.sum_congr rfl
  intro l _
  unfold unit
  rw [mul_assoc, ← Complex.exp_add]
  congr 2
  push_cast
  ring

theorem contribution_sum (x : List ℝ) (h : ℕ) (hh : 0 < h) (hl : x.length = 2 * h) (j : ℕ) (hj : j < 2 * h) :
    (1 / ((2 * h : ℕ) : ℝ)) * ∑ k ∈ Finset.range (h + 1), (if k = 0 ∨ k = h then 1 else 2) *
      (rfftAt x k * Complex.exp (2 * Real.pi * Complex.I * ((k : ℂ) * j / (2 * h : ℕ)))).re = x.getD j 0 := by
  have hn : ((2 * h : ℕ) : ℝ) ≠ 0 := by
    have : 2 * h ≠ 0 := by omega
    exact_mod_cast this
  rw [← sum_fold (fun k => (rfftAt x k * Complex.exp (2 * Real.pi * Complex.I * ((k : ℂ) * j / (2 * h : ℕ)))).re) h hh]
  · rw [← Complex.re_sum, Finset.sum_congr rfl fun k _ => coeff_wave x h hl k j, Finset.sum_comm]
    have hin : ∀ l ∈ Finset.range (2 * h), ∑ k ∈ Finset.range (2 * h), (x.getD l 0 : ℂ) * unit (2 * h) ((j : ℤ) - l) k =
        if j = l then ((2 * h : ℕ) : ℂ) * x.getD j 0 else 0 := by
      intro l hl'
      have hl'' := Finset.mem_range.mp hl'
      rw [← Finset.mul_sum, sum_unit _ (by omega)]
      have hd : (((2 * h : ℕ) : ℤ) ∣ (j : ℤ) - l) ↔ j = l := by
        constructor
        · rintro ⟨c, hc⟩
          have : c = 0 := by
            rcases lt_trichotomy c 0 with h' | h' | h'
            · have : ((2 * h : ℕ) : ℤ) * c ≤ -(2 * h : ℕ) := by nlinarith
              omega
            · exact h'
            · have : ((2 * h : ℕ) : ℤ) ≤ (2 * h : ℕ) * c := by nlinarith
              omega
          rw [this] at hc
          omega
        · rintro rfl; simp
      by_cases hc : j = l
      · rw [if_pos (hd.mpr hc), if_pos hc, hc]; ring
      · rw [if_neg (fun h' => hc (hd.mp h')), if_neg hc, mul_zero]
    rw [Finset.sum_congr rfl hin, Finset.sum_ite_eq, if_pos (Finset.mem_range.mpr hj)]
    have : (((2 * h : ℕ) : ℂ) * x.getD j 0).re = ((2 * h : ℕ) : ℝ) * x.getD j 0 := by
      have e : ((2 * h : ℕ) : ℂ) * x.getD j 0 = ((((2 * h : ℕ) : ℝ) * x.getD j 0 : ℝ) : ℂ) := by push_cast; ring
      rw [e, Complex.ofReal_re]
    rw [this]
    field_simp
  · intro k hk1 hk2
    rw [coeff_wave x h hl, coeff_wave x h hl, Complex.re_sum, Complex.re_sum]
    apply Finset.sum_congr rfl
    intro l _
    rw [Complex.re_ofReal_mul, Complex.re_ofReal_mul]
    congr 1
    have e1 : unit (2 * h) ((j : ℤ) - l) (2 * h - k) = (starRingEnd ℂ) (unit (2 * h) ((j : ℤ) - l) k) := by
      have h2 : unit (2 * h) ((j : ℤ) - l) (2 * h - k) * unit (2 * h) ((j : ℤ) - l) k = 1 := by
        rw [unit_pow _ _ (2 * h - k), unit_pow _ _ k, ← pow_add, Nat.sub_add_cancel (by omega), ← unit_pow]
        unfold unit
        have hnc : ((2 * h : ℕ) : ℂ) ≠ 0 := by exact_mod_cast hn
        rw [mul_div_assoc, div_self hnc, mul_one, mul_comm, Complex.exp_int_mul_two_pi_mul_I]
      have h3 : (starRingEnd ℂ) (unit (2 * h) ((j : ℤ) - l) k) * unit (2 * h) ((j : ℤ) - l) k = 1 := by
        rw [conj_unit, unit_mul]
        simp [unit]
      have h4 : unit (2 * h) ((j : ℤ) - l) k ≠ 0 := by
        unfold unit; exact Complex.exp_ne_zero _
      exact mul_right_cancel₀ h4 (h2.trans h3.symm)
    rw [e1, Complex.conj_re]

theorem irfftAt_single (x : List ℝ) (h : ℕ) (hl : x.length = 2 * h) (k j : ℕ) (hk : k ≤ h) :
    irfftAt (((List.range (x.length / 2 + 1)).map fun k => (k, rfftAt x k)).map fun p => if p.1 = k then p.2 else 0) j =
      (1 / ((2 * h : ℕ) : ℝ)) * ((if k = 0 ∨ k = h then 1 else 2) *
        (rfftAt x k * Complex.exp (2 * Real.pi * Complex.I * ((k : ℂ) * j / (2 * h : ℕ)))).re) := by
  unfold irfftAt
  simp only [List.length_map, List.length_range, hl, Nat.mul_div_cancel_left _ (show 0 < 2 by norm_num), Nat.add_sub_cancel]
  congr 1
  rw [Finset.sum_eq_single k]
  · have : (((List.range (h + 1)).map fun k => (k, rfftAt x k)).map fun p => if p.1 = k then p.2 else 0).getD k 0 = rfftAt x k := by
      simp [List.getD, List.getElem?_range (show k < h + 1 by omega)]
    rw [this]
  · intro p hp hpk
    have : (((List.range (h + 1)).map fun k => (k, rfftAt x k)).map fun p => if p.1 = k then p.2 else 0).getD p 0 = 0 := by
      simp [List.getD, List.getElem?_range (Finset.mem_range.mp hp), hpk]
    rw [this]
    simp
  · intro h'
    exact absurd (Finset.mem_range.mpr (by omega)) h'

/-- C150, proved for all waves of an even number of longitudes: there is a contribution of every wavenumber, and at every longitude they add up to
the data. -/
theorem C150_sum_partial (x : List ℝ) (h : ℕ) (hh : 0 < h) (hl : x.length = 2 * h) :
    ∃ out, zonalWaveContributions x none "scipy" = .ok out ∧ out.map Prod.fst = List.range (h + 1) ∧
      ∀ j, j < 2 * h → (out.map fun c => c.2.getD j 0).sum = x.getD j 0 := by
  refine ⟨_, by
    unfold zonalWaveContributions
    rw [zonalWaveCoeffs_all _ (by omega) _ (Or.inl rfl)]
    simp only [bind, Except.bind, if_true, List.length_map, List.length_range]
    rw [if_neg (by omega)], ?_, ?_⟩
  · simp only [List.map_map]
    have : (fun k => k) = (id : ℕ → ℕ) := rfl
    rw [hl, Nat.mul_div_cancel_left _ (by norm_num)]
    simp [Function.comp_def]
  · intro j hj
    rw [← contribution_sum x h hh hl j hj, Finset.mul_sum, Finset.sum_range, ← List.sum_ofFn]
    congr 1
    apply List.ext_getElem?
    intro k
    simp only [List.map_map, List.getElem?_map]
    by_cases hk : k < h + 1
    · rw [List.getElem?_range (by rw [hl]; omega)]
      simp only [Option.map_some, Function.comp]
      rw [List.getElem?_eq_getElem (by simpa using hk)]
      simp only [List.getElem_ofFn]
      congr 1
      rw [List.getD_eq_getElem?_getD, List.getElem?_map, List.getElem?_range (by rw [hl]; exact hj)]
      simp only [Option.map_some, Option.getD_some]
      have := irfftAt_single x h hl k j (by omega)
      rw [List.map_map] at this
      exact this
    · rw [List.getElem?_eq_none (by simp [hl]; omega), List.getElem?_eq_none (by simp; omega)]
      rfl

/-- C150, what a contribution is: of data made of a mean and waves longer than two longitudes, the contribution of wavenumber `k` is the wave
`k`. -/
theorem C150_wave_partial (h P : ℕ) (A φ : ℕ → ℝ) (hP : P < h) :
    ∃ out, zonalWaveContributions (harmonic (2 * h) P A φ) none "scipy" = .ok out ∧
      ∀ k j, 1 ≤ k → k ≤ P → j < 2 * h → ∃ c, out[k]? = some (k, c) ∧ c[j]? = some (A k * Real.cos (2 * Real.pi * k * j / (2 * h : ℕ) + φ k)) := by
  have hl : (harmonic (2 * h) P A φ).length = 2 * h := by simp [harmonic]
  refine ⟨_, by
    unfold zonalWaveContributions
    rw [zonalWaveCoeffs_all _ (by omega) _ (Or.inl rfl)]
    simp only [bind, Except.bind, if_true, List.length_map, List.length_range]
    rw [if_neg (by omega)], ?_⟩
  intro k j hk1 hkP hj
  refine ⟨(List.range (harmonic (2 * h) P A φ).length).map fun j =>
    irfftAt (((List.range ((harmonic (2 * h) P A φ).length / 2 + 1)).map fun k => (k, rfftAt (harmonic (2 * h) P A φ) k)).map fun p =>
      if p.1 = k then p.2 else 0) j, ?_, ?_⟩
  · rw [List.getElem?_map, List.getElem?_map, List.getElem?_map, List.getElem?_range (by rw [hl]; omega)]
    rfl
  · rw [List.getElem?_map, List.getElem?_range (by rw [hl]; exact hj)]
    simp only [Option.map_some]
    rw [irfftAt_single _ h hl k j (by omega), if_neg (by omega), rfftAt_harmonic _ P A φ (by omega) k (by omega), if_neg (by omega), if_pos hkP]
    have e : (((2 * h : ℕ) : ℂ) / 2 * A k * Complex.exp (φ k * Complex.I)) * Complex.exp (2 * Real.pi * Complex.I * ((k : ℂ) * j / (2 * h : ℕ))) =
        ((((2 * h : ℕ) : ℝ) / 2 * A k : ℝ) : ℂ) * Complex.exp (((2 * Real.pi * k * j / (2 * h : ℕ) + φ k : ℝ) : ℂ) * Complex.I) := by
      rw [mul_assoc, ← Complex.exp_add]
      push_cast
      congr 2
      ring
    rw [e, Complex.re_ofReal_mul, Complex.exp_ofReal_mul_I_re]
    congr 1
    have hn : ((2 * h : ℕ) : ℝ) ≠ 0 := by
      have : 2 * h ≠ 0 := by omega
      exact_mod_cast this
    field_simp

theorem length_selWaves (fc : List (ℕ × ℂ)) : ∀ (w : List ℕ) (out : List (ℕ × ℂ)), selWaves fc w = .ok out → out.length = w.length := by
  intro w
  induction w with
  | nil => intro out h; cases h; rfl
  | cons k ks ih =>
    intro out h
    unfold selWaves at h
    split at h
    · cases h
    · simp only [bind, Except.bind] at h
      split at h
      · cases h
      · cases h
        next o ho => simp [ih _ ho]

/-- C150 is false of an odd number of longitudes and of a selection of waves: there is no result. -/
theorem C150_selection_counterexample (x : List ℝ) :
    (x.length % 2 = 1 → zonalWaveContributions x none "scipy" = .error .valueError) ∧
    ∀ w : List ℕ, 2 * (w.length - 1) ≠ x.length → ∃ e, zonalWaveContributions x (some w) "scipy" = .error e := by
  constructor
  · intro h
    unfold zonalWaveContributions
    rw [zonalWaveCoeffs_all _ (by omega) _ (Or.inl rfl)]
    simp only [bind, Except.bind, if_true, List.length_map, List.length_range]
    rw [if_pos (by omega)]
  · intro w hw
    unfold zonalWaveContributions
    cases hc : zonalWaveCoeffs x (some w) "scipy" with
    | error e => exact ⟨e, rfl⟩
    | ok fc =>
      simp only [bind, Except.bind, if_true]
      have hlen : fc.length = w.length := by
        unfold zonalWaveCoeffs at hc
        rw [if_neg (by decide)] at hc
        split at hc
        · cases hc
        · exact length_selWaves _ _ _ hc
      rw [if_pos (Or.inr (by rw [hlen]; exact hw))]
      exact ⟨_, rfl⟩

/-- C150 is false of the second package: there is never a result. -/
theorem C150_package_counterexample (x : List ℝ) (w : Option (List ℕ)) (fftpkg : String) (hf : fftpkg ≠ "scipy") :
    ∃ e, zonalWaveContributions x w fftpkg = .error e := by
  unfold zonalWaveContributions
  cases zonalWaveCoeffs x w fftpkg with
  | error e => exact ⟨e, rfl⟩
  | ok fc => exact ⟨.attributeError, by simp [bind, Except.bind, hf]⟩

/-- C151 is false: the covariance raises for all data. -/
theorem C151_counterexample (x y : List ℝ) (w : Option (List ℕ)) (fftpkg : String) :
    zonalWaveCovariance wavesGlobals x y w fftpkg = .error .nameError := by
  unfold zonalWaveCovariance
  rw [if_pos (by decide)]

example : ∃ out, zonalWaveContributions [3, 1, 4, 1] none "scipy" = .ok out ∧ (out.map fun c => c.2.getD 2 0).sum = 4 := by
  obtain ⟨out, h1, -, h2⟩ := C150_sum_partial [3, 1, 4, 1] 2 (by norm_num) rfl
  exact ⟨out, h1, by simpa using h2 2 (by norm_num)⟩

end Metcalcpy.Props
