/-
C159  The wave filter keeps the waves in the given ranges and removes the others.
C163  The wave filter keeps the waves of the given equivalent depths.
-/
import Verif.Model.SpacetimeFilter
import Verif.Lemmas.Dft
import Verif.Props.C47_Scorecard
import Mathlib.Algebra.BigOperators.Field

namespace Metcalcpy.Props
open Metcalcpy

/-- The wave of `s` cycles around the globe and `j` cycles in `nt` times that moves eastward (for `s` less than half of the longitudes):
value at time `t` and longitude `m`. -/
noncomputable def eastwardWave (nk nt s j t m : ℕ) : ℝ := Real.cos (2 * Real.pi * ((s : ℝ) * m / nk - (j : ℝ) * t / nt))

theorem eastwardWave_eq (nk nt s j t m : ℕ) :
    ((eastwardWave nk nt s j t m : ℝ) : ℂ) = (unit nk s m * unit nt (-j) t + unit nk (-s) m * unit nt j t) / 2 := by
  unfold eastwardWave
  rw [Complex.ofReal_cos, Complex.cos, unit, unit, unit, unit, ← Complex.exp_add, ← Complex.exp_add]
  congr 2
  · congr 1; push_cast; ring
  · congr 1; push_cast; ring

theorem rfft2_wave (nk nt s j : ℕ) (hs : 0 < s) (hsk : s ≤ nk) (hj : 0 < j) (hjt : 2 * j < nt) (κ f : ℕ) (hκ : κ < nk)
    (hf : f ≤ nt / 2) :
    rfft2 nk nt (eastwardWave nk nt s j) κ f = if κ = nk - s ∧ f = j then (nk : ℂ) * nt / 2 else 0 := by
  unfold rfft2
  have hterm : ∀ m t : ℕ, (eastwardWave nk nt s j t m : ℂ) *
      Complex.exp (-(2 * Real.pi * Complex.I * ((κ : ℂ) * m / nk + (f : ℂ) * t / nt))) =
      (unit nk ((s : ℤ) - κ) m * unit nt (-(j : ℤ) - f) t + unit nk (-(s : ℤ) - κ) m * unit nt ((j : ℤ) - f) t) / 2 := by
    intro m t
    have he : Complex.exp (-(2 * Real.pi * Complex.I * ((κ : ℂ) * m / nk + (f : ℂ) * t / nt))) =
        unit nk (-(κ : ℤ)) m * unit nt (-(f : ℤ)) t := by
      unfold unit
      rw [← Complex.exp_add]
      congr 1
      push_cast
      ring
    rw [he, eastwardWave_eq]
    simp only [sub_eq_add_neg, ← unit_mul]
    ring
  simp only [hterm]
  simp only [← Finset.sum_div, Finset.sum_add_distrib, ← Finset.mul_sum, ← Finset.sum_mul]
  rw [sum_unit nk (by omega), sum_unit nt (by omega), sum_unit nk (by omega), sum_unit nt (by omega)]
  have h1 : ¬ ((nt : ℤ) ∣ -(j : ℤ) - f) := by
    intro h
    have : (nt : ℤ) ∣ (j + f : ℕ) := by
      have := (Int.dvd_neg).mpr h
      convert this using 1
      push_cast; ring
    have := Nat.le_of_dvd (by omega) (Int.natCast_dvd_natCast.mp this)
    omega
  have h2 : ((nt : ℤ) ∣ (j : ℤ) - f) ↔ f = j := by
    constructor
    · rintro ⟨c, hc⟩
      have : c = 0 := by
        rcases lt_trichotomy c 0 with h | h | h
        · have : (nt : ℤ) * c ≤ -nt := by nlinarith
          omega
        · exact h
        · have : (nt : ℤ) ≤ nt * c := by nlinarith
          omega
      rw [this] at hc
      omega
    · rintro rfl; simp
  have h3 : ((nk : ℤ) ∣ -(s : ℤ) - κ) ↔ κ = nk - s := by
    constructor
    · intro h
      have h' : (nk : ℤ) ∣ ((s + κ : ℕ) : ℤ) := by
        have := (Int.dvd_neg).mpr h
        convert this using 1
        push_cast; ring
      obtain ⟨c, hc⟩ := Int.natCast_dvd_natCast.mp h'
      have : c = 1 := by
        rcases Nat.lt_trichotomy c 1 with h | h | h
        · have : c = 0 := by omega
          rw [this] at hc; omega
        · exact h
        · have : nk * 2 ≤ nk * c := Nat.mul_le_mul_left _ h
          omega
      rw [this] at hc
      omega
    · rintro rfl
      exact ⟨-1, by push_cast [Nat.cast_sub hsk]; ring⟩
  rw [if_neg h1, mul_zero, zero_add]
  by_cases hc : κ = nk - s ∧ f = j
  · rw [if_pos (h3.mpr hc.1), if_pos (h2.mpr hc.2), if_pos hc]
  · rw [if_neg hc]
    rw [not_and_or] at hc
    rcases hc with hc | hc
    · rw [if_neg (fun h => hc (h3.mp h))]; simp
    · rw [if_neg (fun h => hc (h2.mp h))]; simp

theorem irfft2_single (nk nt s j h : ℕ) (hnt : nt = 2 * h) (hs : 0 < s) (hsk : s ≤ nk) (hj : 0 < j) (hjh : j < h) (Z : ℕ → ℕ → ℂ)
    (hZ : ∀ κ f, κ < nk → f ≤ h → Z κ f = if κ = nk - s ∧ f = j then (nk : ℂ) * nt / 2 else 0) (t m : ℕ) :
    irfft2 nk (h + 1) Z t m = eastwardWave nk nt s j t m := by
  unfold irfft2
  rw [Finset.sum_eq_single (nk - s), Finset.sum_eq_single j]
  · rw [(hZ (nk - s) j (by omega) (by omega)).trans (if_pos ⟨rfl, rfl⟩), if_neg (show ¬ (j = 0 ∨ j = h + 1 - 1) by omega)]
    simp only [Nat.add_sub_cancel]
    rw [← hnt]
    have hk : (nk : ℝ) ≠ 0 := by
      have : nk ≠ 0 := by omega
      exact_mod_cast this
    have ht : (nt : ℝ) ≠ 0 := by
      have : nt ≠ 0 := by omega
      exact_mod_cast this
    have he : Complex.exp (2 * Real.pi * Complex.I * (((nk - s : ℕ) : ℂ) * m / nk + (j : ℂ) * t / nt)) =
        Complex.exp (((2 * Real.pi * ((j : ℝ) * t / nt - (s : ℝ) * m / nk) : ℝ) : ℂ) * Complex.I) := by
      have hk' : (nk : ℂ) ≠ 0 := by exact_mod_cast hk
      have : (2 * Real.pi * Complex.I * (((nk - s : ℕ) : ℂ) * m / nk + (j : ℂ) * t / nt)) =
          ((2 * Real.pi * ((j : ℝ) * t / nt - (s : ℝ) * m / nk) : ℝ) : ℂ) * Complex.I + m * (2 * Real.pi * Complex.I) := by
        push_cast [Nat.cast_sub hsk]
        field_simp
        ring
      rw [this, Complex.exp_add, Complex.exp_nat_mul_two_pi_mul_I, mul_one]
    rw [he]
    have hre : ((nk : ℂ) * nt / 2 * Complex.exp (((2 * Real.pi * ((j : ℝ) * t / nt - (s : ℝ) * m / nk) : ℝ) : ℂ) * Complex.I)).re =
        (nk : ℝ) * nt / 2 * Real.cos (2 * Real.pi * ((j : ℝ) * t / nt - (s : ℝ) * m / nk)) := by
      have : (nk : ℂ) * nt / 2 = (((nk : ℝ) * nt / 2 : ℝ) : ℂ) := by push_cast; ring
      rw [this, Complex.re_ofReal_mul, Complex.exp_ofReal_mul_I_re]
    rw [hre]
    unfold eastwardWave
    rw [show (2 * Real.pi * ((s : ℝ) * m / nk - (j : ℝ) * t / nt)) = -(2 * Real.pi * ((j : ℝ) * t / nt - (s : ℝ) * m / nk)) by ring,
      Real.cos_neg]
    field_simp
  · intro f hf hfj
    rw [(hZ (nk - s) f (by omega) (by have := Finset.mem_range.mp hf; omega)).trans (if_neg fun h => hfj h.2)]
    simp
  · intro h'; exact absurd (Finset.mem_range.mpr (by omega)) h'
  · intro κ hκ hκs
    apply Finset.sum_eq_zero
    intro f hf
    rw [(hZ κ f (Finset.mem_range.mp hκ) (by have := Finset.mem_range.mp hf; omega)).trans (if_neg fun h => hκs h.1)]
    simp
  · intro h'; exact absurd (Finset.mem_range.mpr (by omega)) h'

theorem irfft2_zero (nk nf : ℕ) (Z : ℕ → ℕ → ℂ) (hZ : ∀ κ f, κ < nk → f < nf → Z κ f = 0) (t m : ℕ) : irfft2 nk nf Z t m = 0 := by
  unfold irfft2
  rw [Finset.sum_eq_zero, mul_zero]
  intro κ hκ
  apply Finset.sum_eq_zero
  intro f hf
  rw [hZ _ _ (Finset.mem_range.mp hκ) (Finset.mem_range.mp hf)]
  simp

open Classical in
/-- The filter applied to one wave: unchanged or removed, according to the column before that of its wavenumber. -/
theorem kfFilter_wave (empty : ℝ × ℝ) (nk h s j : ℕ) (hs : 0 < s) (hsk : s ≤ nk) (hj : 0 < j) (hjh : j < h) (p : KfParams) (t m : ℕ) :
    (kfFilter empty nk (2 * h) p (eastwardWave nk (2 * h) s j)).2 t m =
      if kfInRange nk (h + 1) p (s - 1) j ∧ kfOnCurve empty nk (h + 1) p (s - 1) j then eastwardWave nk (2 * h) s j t m else 0 := by
  unfold kfFilter
  simp only [show 2 * h / 2 = h by omega]
  split_ifs with hk
  · apply irfft2_single nk (2 * h) s j h rfl hs hsk hj hjh
    intro κ f hκ hf
    unfold kfMask
    rw [rfft2_wave nk (2 * h) s j hs hsk hj (by omega) κ f hκ (by omega)]
    by_cases hc : κ = nk - s ∧ f = j
    · obtain ⟨rfl, rfl⟩ := hc
      rw [if_pos]
      rwa [show nk - 1 - (nk - s) = s - 1 by omega]
    · rw [if_neg hc, ite_self]
  · apply irfft2_zero
    intro κ f hκ hf
    unfold kfMask
    rw [rfft2_wave nk (2 * h) s j hs hsk hj (by omega) κ f hκ (by omega)]
    by_cases hc : κ = nk - s ∧ f = j
    · obtain ⟨rfl, rfl⟩ := hc
      rw [if_neg]
      rwa [show nk - 1 - (nk - s) = s - 1 by omega]
    · rw [if_neg hc, ite_self]

theorem kfOnCurve_none (empty : ℝ × ℝ) (nk nf : ℕ) (p : KfParams) (h1 : p.hMin = -9999) (h2 : p.hMax = -9999) (i j : ℕ) :
    kfOnCurve empty nk nf p i j := by
  unfold kfOnCurve kfWaveRows
  simp only [h1, h2, if_true]
  constructor <;> omega

theorem kfInRange_iff (nk nf : ℕ) (p : KfParams) (h0 : 0 ≤ p.kMin) (h1 : p.kMin < p.kMax) (h2 : 2 * p.kMax ≤ nk) (i j : ℕ) (hj : j < nf)
    (hi : i < nk) :
    kfInRange nk nf p i j ↔ (kfRows nf p).1 ≤ j ∧ (j : ℤ) ≤ (kfRows nf p).2 ∧ p.kMin ≤ i ∧ (i : ℤ) ≤ p.kMax := by
  have e1 : kfColumn nk p.kMin = p.kMin := by
    unfold kfColumn; rw [if_neg (by omega)]; omega
  have e2 : kfColumn nk p.kMax = p.kMax := by
    unfold kfColumn; rw [if_neg (by omega)]; omega
  unfold kfInRange
  simp only [e1, e2]
  constructor
  · rintro ⟨ha, hb, hc, -⟩
    obtain ⟨hc, hd⟩ := hc h1
    refine ⟨?_, ?_, ?_, ?_⟩ <;> omega
  · rintro ⟨ha, hb, hc, hd⟩
    refine ⟨?_, ?_, fun _ => ⟨?_, ?_⟩, fun _ => ?_⟩ <;> omega

/-- C159, proved but for one wavenumber: without equivalent depths, a wave whose period lies in the given range is returned unchanged if its
wavenumber lies in the range with its lower limit left out, and removed if it lies outside the range with its upper limit raised by
one. -/
theorem C159_eastward_partial (empty : ℝ × ℝ) (nk h s j : ℕ) (hs : 0 < s) (hsk : s ≤ nk) (hj : 0 < j) (hjh : j < h) (p : KfParams)
    (h1 : p.hMin = -9999) (h2 : p.hMax = -9999) (hk0 : 0 ≤ p.kMin) (hk : p.kMin < p.kMax) (hkn : 2 * p.kMax ≤ nk) (ho : 0 < p.obsPerDay)
    (ht0 : 0 < p.tMin) (ht1 : p.tMin * p.obsPerDay * j ≤ 2 * h) (ht2 : (2 * h : ℚ) ≤ p.tMax * p.obsPerDay * j) (t m : ℕ) :
    (p.kMin + 1 ≤ s ∧ (s : ℤ) ≤ p.kMax + 1 → (kfFilter empty nk (2 * h) p (eastwardWave nk (2 * h) s j)).2 t m = eastwardWave nk (2 * h) s j t m) ∧
    (¬ (p.kMin + 1 ≤ s ∧ (s : ℤ) ≤ p.kMax + 1) → (kfFilter empty nk (2 * h) p (eastwardWave nk (2 * h) s j)).2 t m = 0) := by
  have hjq : (0 : ℚ) < j := by exact_mod_cast hj
  have hhq : (0 : ℚ) < h := by
    have : 0 < h := by omega
    exact_mod_cast this
  have htM : 0 < p.tMax * p.obsPerDay := by
    by_contra hn
    have : p.tMax * p.obsPerDay * j ≤ 0 := mul_nonpos_of_nonpos_of_nonneg (not_lt.mp hn) hjq.le
    linarith
  have hnt : (((h + 1 : ℕ) : ℚ) - 1) * 2 = 2 * h := by push_cast; ring
  have hrows : (kfRows (h + 1) p).1 ≤ j ∧ (j : ℤ) ≤ (kfRows (h + 1) p).2 := by
    unfold kfRows
    simp only [hnt]
    constructor
    · have := nearestEven_mono (K := ℚ) (x := 2 * h / (p.tMax * p.obsPerDay)) (y := ((j : ℤ) : ℚ)) (by
        rw [div_le_iff₀ htM]; push_cast; linarith)
      rwa [nearestEven_int] at this
    · apply le_min
      · have := nearestEven_mono (K := ℚ) (y := 2 * h / (p.tMin * p.obsPerDay)) (x := ((j : ℤ) : ℚ)) (by
          rw [le_div_iff₀ (by positivity)]; push_cast; linarith)
        rwa [nearestEven_int] at this
      · push_cast; omega
  constructor
  · intro hr
    rw [kfFilter_wave empty nk h s j hs hsk hj hjh, if_pos]
    refine ⟨?_, kfOnCurve_none _ _ _ _ h1 h2 _ _⟩
    rw [kfInRange_iff nk (h + 1) p hk0 hk hkn _ _ (by omega) (by omega)]
    exact ⟨hrows.1, hrows.2, by omega, by omega⟩
  · intro hr
    rw [kfFilter_wave empty nk h s j hs hsk hj hjh, if_neg]
    rintro ⟨hin, -⟩
    rw [kfInRange_iff nk (h + 1) p hk0 hk hkn _ _ (by omega) (by omega)] at hin
    apply hr
    omega

/-- C159, periods: of the waves with wavenumbers in range those remain whose number of cycles in the data, `j`, lies between those of the two
periods, rounded to integers; the others are removed. -/
theorem C159_period (empty : ℝ × ℝ) (nk h s j : ℕ) (hs : 0 < s) (hsk : s ≤ nk) (hj : 0 < j) (hjh : j < h) (p : KfParams)
    (h1 : p.hMin = -9999) (h2 : p.hMax = -9999) (hk0 : 0 ≤ p.kMin) (hk : p.kMin < p.kMax) (hkn : 2 * p.kMax ≤ nk)
    (hr : ¬ (nearestEven (2 * h / (p.tMax * p.obsPerDay)) ≤ (j : ℤ) ∧ (j : ℤ) ≤ nearestEven (2 * h / (p.tMin * p.obsPerDay)))) (t m : ℕ) :
    (kfFilter empty nk (2 * h) p (eastwardWave nk (2 * h) s j)).2 t m = 0 := by
  rw [kfFilter_wave empty nk h s j hs hsk hj hjh, if_neg]
  rintro ⟨hin, -⟩
  rw [kfInRange_iff nk (h + 1) p hk0 hk hkn _ _ (by omega) (by omega)] at hin
  apply hr
  have hnt : (((h + 1 : ℕ) : ℚ) - 1) * 2 = 2 * h := by push_cast; ring
  unfold kfRows at hin
  simp only [hnt] at hin
  exact ⟨hin.1, hin.2.1.trans (min_le_left _ _)⟩

/-- C159 is false: the eastward wave of the smallest wavenumber asked for is removed, whatever its period. -/
theorem C159_lowest_counterexample (empty : ℝ × ℝ) (nk h s j : ℕ) (hs : 0 < s) (hj : 0 < j) (hjh : j < h) (p : KfParams) (hk1 : p.kMin = s)
    (hk : p.kMin < p.kMax) (hkn : 2 * p.kMax ≤ nk) (t m : ℕ) :
    (kfFilter empty nk (2 * h) p (eastwardWave nk (2 * h) s j)).2 t m = 0 := by
  rw [kfFilter_wave empty nk h s j hs (by omega) hj hjh, if_neg]
  rintro ⟨hin, -⟩
  rw [kfInRange_iff nk (h + 1) p (by omega) hk hkn _ _ (by omega) (by omega)] at hin
  omega

/-- C159 is false of a single wavenumber: where the limits are equal, waves of every wavenumber are kept. -/
theorem C159_single_counterexample (empty : ℝ × ℝ) (nk h s j : ℕ) (hs : 0 < s) (hsk : s ≤ nk) (hj : 0 < j) (hjh : j < h) (p : KfParams)
    (h1 : p.hMin = -9999) (h2 : p.hMax = -9999) (hk : p.kMin = p.kMax)
    (hlo : (kfRows (h + 1) p).1 ≤ j) (hhi : (j : ℤ) ≤ (kfRows (h + 1) p).2) (t m : ℕ) :
    (kfFilter empty nk (2 * h) p (eastwardWave nk (2 * h) s j)).2 t m = eastwardWave nk (2 * h) s j t m := by
  rw [kfFilter_wave empty nk h s j hs hsk hj hjh, if_pos]
  refine ⟨?_, kfOnCurve_none _ _ _ _ h1 h2 _ _⟩
  unfold kfInRange
  simp only [hk]
  refine ⟨by omega, by omega, fun h => absurd h (lt_irrefl _), fun _ => by omega⟩

/-- C159 is false of an odd number of times: the last one is lost. -/
theorem C159_odd_counterexample (empty : ℝ × ℝ) (nk h : ℕ) (p : KfParams) (data : ℕ → ℕ → ℝ) :
    (kfFilter empty nk (2 * h + 1) p data).1 = 2 * h := by
  unfold kfFilter
  simp only
  omega

/-- 36 longitudes, 96 times once a day, periods of 10 to 20 days, wavenumbers 1 to 3: waves of 16 days (six cycles) remain for wavenumbers 2 to
4, and the one of wavenumber 1 is removed. -/
example (empty : ℝ × ℝ) (t m : ℕ) :
    (kfFilter empty 36 96 ⟨1, 10, 20, 1, 3, -9999, -9999, ""⟩ (eastwardWave 36 96 4 6)).2 t m = eastwardWave 36 96 4 6 t m ∧
    (kfFilter empty 36 96 ⟨1, 10, 20, 1, 3, -9999, -9999, ""⟩ (eastwardWave 36 96 1 6)).2 t m = 0 := by
  constructor
  · exact (C159_eastward_partial empty 36 48 4 6 (by norm_num) (by norm_num) (by norm_num) (by norm_num) _ rfl rfl (by norm_num) (by norm_num)
      (by norm_num) (by norm_num) (by norm_num) (by norm_num) (by norm_num) t m).1 (by norm_num)
  · exact C159_lowest_counterexample empty 36 48 1 6 (by norm_num) (by norm_num) (by norm_num) _ rfl (by norm_num) (by norm_num) t m

/-! ### C163 -/

/-- C163 is false of Kelvin waves of wavenumber one: they are removed, whatever the depths and ranges. -/
theorem C163_kelvin_counterexample (empty : ℝ × ℝ) (nk h j : ℕ) (hn : 0 < nk) (hj : 0 < j) (hjh : j < h) (p : KfParams)
    (hw : p.waveName = "Kelvin") (h2 : p.hMax ≠ -9999) (t m : ℕ) :
    (kfFilter empty nk (2 * h) p (eastwardWave nk (2 * h) 1 j)).2 t m = 0 := by
  rw [kfFilter_wave empty nk h 1 j (by norm_num) (by omega) hj hjh, if_neg]
  rintro ⟨-, hc⟩
  unfold kfOnCurve kfWaveRows at hc
  have hk : kfWavenumber nk (1 - 1) = 0 := by
    unfold kfWavenumber
    rw [if_pos (by omega)]
    simp
  have hcv : ∀ c, kfCurve p.waveName 0 c = some 0 := by
    intro c
    unfold kfCurve
    rw [if_pos (Or.inl hw), zero_mul]
  simp only [hk, hcv, h2, if_false, Option.getD_some, zero_mul, Int.ceil_zero, max_self] at hc
  omega

/-- C163, what is kept of Kelvin waves: those that lie on the curve of a depth in the given range for the wavenumber before theirs. -/
theorem C163_kelvin_partial (empty : ℝ × ℝ) (nk h s j : ℕ) (hs : 2 ≤ s) (hsk : 2 * s < nk) (hj : 0 < j) (hjh : j < h) (p : KfParams)
    (hw : p.waveName = "Kelvin") (h1 : 0 < p.hMin) (h2 : p.hMin ≤ p.hMax) (hk0 : 0 ≤ p.kMin) (hk : p.kMin < p.kMax) (hkn : 2 * p.kMax ≤ nk)
    (hr1 : p.kMin + 1 ≤ s) (hr2 : (s : ℤ) ≤ p.kMax + 1) (hlo : (kfRows (h + 1) p).1 ≤ j) (hhi : (j : ℤ) ≤ (kfRows (h + 1) p).2)
    (ho : 0 < p.obsPerDay) (depth : ℝ) (hd1 : p.hMin ≤ depth) (hd2 : depth ≤ p.hMax)
    (hcurve : (j : ℝ) = ((s : ℝ) - 1) / earthRe * √(earthG * depth) * kfSpc p * (2 * h)) (t m : ℕ) :
    (kfFilter empty nk (2 * h) p (eastwardWave nk (2 * h) s j)).2 t m = eastwardWave nk (2 * h) s j t m := by
  rw [kfFilter_wave empty nk h s j (by omega) (by omega) hj hjh, if_pos]
  refine ⟨?_, ?_⟩
  · rw [kfInRange_iff nk (h + 1) p hk0 hk hkn _ _ (by omega) (by omega)]
    exact ⟨hlo, hhi, by omega, by omega⟩
  · have hne1 : ¬ p.hMin = -9999 := by linarith
    have hne2 : ¬ p.hMax = -9999 := by linarith
    have hspeed : kfSpeeds empty p = (√(earthG * p.hMin), √(earthG * p.hMax)) := by
      unfold kfSpeeds
      rw [if_neg (by tauto)]
    have hkk : kfWavenumber nk (s - 1) = ((s : ℝ) - 1) / earthRe := by
      unfold kfWavenumber
      rw [if_pos (by omega)]
      push_cast [Nat.cast_sub (show 1 ≤ s by omega)]
      rfl
    have hcv : ∀ k c, kfCurve p.waveName k c = some (k * c) := by
      intro k c
      unfold kfCurve
      rw [if_pos (Or.inl hw)]
    have hG : 0 < earthG := by unfold earthG; norm_num
    have hR : 0 < earthRe := by unfold earthRe; norm_num
    have hS : 0 < kfSpc p := by
      unfold kfSpc
      have : (0 : ℝ) < (p.obsPerDay : ℝ) := by exact_mod_cast ho
      positivity
    have hs1 : (0 : ℝ) ≤ (s : ℝ) - 1 := by
      have : (2 : ℝ) ≤ s := by exact_mod_cast hs
      linarith
    have hnt : (((h + 1 : ℕ) : ℝ) - 1) * 2 = 2 * h := by push_cast; ring
    have mono : ∀ a b : ℝ, a ≤ b → ((s : ℝ) - 1) / earthRe * √(earthG * a) * kfSpc p * (2 * h) ≤
        ((s : ℝ) - 1) / earthRe * √(earthG * b) * kfSpc p * (2 * h) := by
      intro a b hab
      have : √(earthG * a) ≤ √(earthG * b) := Real.sqrt_le_sqrt (mul_le_mul_of_nonneg_left hab hG.le)
      gcongr
    have m1 := mono _ _ hd1
    have m2 := mono _ _ hd2
    rw [← hcurve] at m1 m2
    unfold kfOnCurve kfWaveRows
    simp only [hspeed, hkk, hcv, Option.getD_some, hne1, hne2, if_false, hnt]
    have f1 : ⌊((s : ℝ) - 1) / earthRe * √(earthG * p.hMin) * kfSpc p * (2 * h)⌋ ≤ (j : ℤ) := by
      have := (Int.floor_le (((s : ℝ) - 1) / earthRe * √(earthG * p.hMin) * kfSpc p * (2 * h))).trans m1
      exact_mod_cast this
    have f2 : (j : ℤ) ≤ ⌈((s : ℝ) - 1) / earthRe * √(earthG * p.hMax) * kfSpc p * (2 * h)⌉ := by
      have := m2.trans (Int.le_ceil _)
      exact_mod_cast this
    omega

/-- C163 is false when only the largest depth is given: the result depends on what was in memory before. -/
theorem C163_memory_counterexample (nk h s j : ℕ) (hs : 2 ≤ s) (hsk : 2 * s < nk) (hj : 0 < j) (hjh : j < h) (p : KfParams)
    (hw : p.waveName = "Kelvin") (h1 : p.hMin = -9999) (h2 : p.hMax ≠ -9999) (hk0 : 0 ≤ p.kMin) (hk : p.kMin < p.kMax) (hkn : 2 * p.kMax ≤ nk)
    (hr1 : p.kMin + 1 ≤ s) (hr2 : (s : ℤ) ≤ p.kMax + 1) (hlo : (kfRows (h + 1) p).1 ≤ j) (hhi : (j : ℤ) ≤ (kfRows (h + 1) p).2)
    (ho : 0 < p.obsPerDay) :
    ∃ memory memory' : ℝ × ℝ, ∀ t m,
      (kfFilter memory nk (2 * h) p (eastwardWave nk (2 * h) s j)).2 t m = 0 ∧
      (kfFilter memory' nk (2 * h) p (eastwardWave nk (2 * h) s j)).2 t m = eastwardWave nk (2 * h) s j t m := by
  have hR : 0 < earthRe := by unfold earthRe; norm_num
  have hS : 0 < kfSpc p := by
    unfold kfSpc
    have : (0 : ℝ) < (p.obsPerDay : ℝ) := by exact_mod_cast ho
    positivity
  have hs1 : (0 : ℝ) < (s : ℝ) - 1 := by
    have : (2 : ℝ) ≤ s := by exact_mod_cast hs
    linarith
  have hh : (0 : ℝ) < h := by
    have : 0 < h := by omega
    exact_mod_cast this
  have hkk : kfWavenumber nk (s - 1) = ((s : ℝ) - 1) / earthRe := by
    unfold kfWavenumber
    rw [if_pos (by omega)]
    push_cast [Nat.cast_sub (show 1 ≤ s by omega)]
    rfl
  have hcv : ∀ k c, kfCurve p.waveName k c = some (k * c) := by
    intro k c
    unfold kfCurve
    rw [if_pos (Or.inl hw)]
  have hnt : (((h + 1 : ℕ) : ℝ) - 1) * 2 = 2 * h := by push_cast; ring
  have hsp : ∀ e, kfSpeeds e p = e := by
    intro e; unfold kfSpeeds; rw [if_pos (Or.inl h1)]
  refine ⟨(0, 0), (0, ((h : ℝ) + 1) / (((s : ℝ) - 1) / earthRe * kfSpc p * (2 * h))), fun t m => ⟨?_, ?_⟩⟩
  · rw [kfFilter_wave _ nk h s j (by omega) (by omega) hj hjh, if_neg]
    rintro ⟨-, hc⟩
    unfold kfOnCurve kfWaveRows at hc
    simp only [hsp, hkk, hcv, h2, if_false, Option.getD_some, mul_zero, zero_mul, Int.ceil_zero, max_self] at hc
    omega
  · rw [kfFilter_wave _ nk h s j (by omega) (by omega) hj hjh, if_pos]
    refine ⟨?_, ?_⟩
    · rw [kfInRange_iff nk (h + 1) p hk0 hk hkn _ _ (by omega) (by omega)]
      exact ⟨hlo, hhi, by omega, by omega⟩
    · unfold kfOnCurve kfWaveRows
      simp only [hsp, hkk, hcv, h1, h2, if_false, if_true, Option.getD_some, hnt]
      have : ((s : ℝ) - 1) / earthRe * (((h : ℝ) + 1) / (((s : ℝ) - 1) / earthRe * kfSpc p * (2 * h))) * kfSpc p * (2 * h) = ((h + 1 : ℕ) : ℤ) := by
        push_cast
        field_simp
      rw [this, Int.ceil_intCast]
      omega

end Metcalcpy.Props
