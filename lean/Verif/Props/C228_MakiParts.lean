import Verif.Props.C161_MakiIndex
import Verif.Spec.Calendar

/-!
C228: what the daily indices MaKE and MaKI are made of.
-/

namespace Metcalcpy

namespace Spec

/-- Standard deviation of the values at the times below `n`. -/
noncomputable def stdev (n : ℕ) (f : ℕ → ℝ) : ℝ :=
  Real.sqrt ((∑ t ∈ Finset.range n, (f t - (∑ s ∈ Finset.range n, f s) / n) ^ 2) / n)

/-- The projection of the two standardized fields on one EOF: first the wind power, then the temperature. -/
noncomputable def projection (nT nLon : ℕ) (sst wmj : ℕ → ℕ → ℝ) (e : ℕ → ℝ) (t : ℕ) : ℝ :=
  (∑ i ∈ Finset.range nLon, e i * (wmj t i / stdev nT fun s => wmj s i)) +
    ∑ i ∈ Finset.range nLon, e (nLon + i) * (sst t i / stdev nT fun s => sst s i)

end Spec
open Spec

theorem sum_list_range (n : ℕ) (f : ℕ → ℝ) : ((List.range n).map f).sum = ∑ t ∈ Finset.range n, f t := by
  induction n with
  | zero => simp
  | succ n ih => rw [List.range_succ, List.map_append, List.sum_append, ih, Finset.sum_range_succ]; simp

theorem stdSkip_full (n : ℕ) (hn : 0 < n) (f : ℕ → ℝ) : stdSkip ((List.range n).map fun s => some (f s)) = some (stdev n f) := by
  have e : ((List.range n).map fun s => some (f s)).filterMap id = (List.range n).map f := by
    rw [List.filterMap_map]
    simp [Function.comp_def]
  unfold stdSkip
  simp only [e]
  rw [if_neg (by simp; omega)]
  unfold stdev
  rw [List.map_map, List.length_map, List.length_range, ← sum_list_range n f, ← sum_list_range]
  rfl

theorem stdev_nonneg (n : ℕ) (f : ℕ → ℝ) : 0 ≤ stdev n f := Real.sqrt_nonneg _

theorem stdev_scaled (n : ℕ) (c : ℝ) (f : ℕ → ℝ) : stdev n (fun t => c * f t) = |c| * stdev n f := by
  unfold stdev
  have e : ∀ t, (c * f t - (∑ s ∈ Finset.range n, c * f s) / n) ^ 2 = c ^ 2 * (f t - (∑ s ∈ Finset.range n, f s) / n) ^ 2 := by
    intro t
    rw [← Finset.mul_sum]
    ring
  simp only [e]
  rw [← Finset.mul_sum, mul_div_assoc, Real.sqrt_mul (sq_nonneg c), Real.sqrt_sq_eq_abs]

theorem normField_full {n : ℕ} (hn : 0 < n) (x : ℕ → ℕ → ℝ) (t i : ℕ) :
    normField n (fun t i => some (x t i)) t i = if (stdev n fun s => x s i) = 0 then none else some (x t i / stdev n fun s => x s i) := by
  unfold normField
  rw [stdSkip_full n hn (fun s => x s i)]
  rfl

theorem pcRaw_full {nT nLon : ℕ} (hn : 0 < nT) (sst wmj : ℕ → ℕ → ℝ) (e : ℕ → ℝ) (t : ℕ) :
    pcRaw nT nLon (fun t i => some (sst t i)) (fun t i => some (wmj t i)) e t =
      if ∀ i < nLon, (stdev nT fun s => wmj s i) ≠ 0 ∧ (stdev nT fun s => sst s i) ≠ 0 then some (-projection nT nLon sst wmj e t)
      else none := by
  have hm : ∀ k, multiField nT nLon (fun t i => some (sst t i)) (fun t i => some (wmj t i)) t k =
      if k < nLon then (if (stdev nT fun s => wmj s k) = 0 then none else some (wmj t k / stdev nT fun s => wmj s k))
      else (if (stdev nT fun s => sst s (k - nLon)) = 0 then none else some (sst t (k - nLon) / stdev nT fun s => sst s (k - nLon))) := by
    intro k
    unfold multiField
    rw [normField_full hn, normField_full hn]
  unfold pcRaw
  split
  · next h =>
    rw [osum_some (g := fun k => e k * (if k < nLon then wmj t k / stdev nT fun s => wmj s k
      else sst t (k - nLon) / stdev nT fun s => sst s (k - nLon)))]
    · rw [Option.map_some, two_mul, Finset.sum_range_add]
      congr 2
      unfold projection
      congr 1
      · exact Finset.sum_congr rfl fun i hi => by rw [if_pos (Finset.mem_range.1 hi)]
      · refine Finset.sum_congr rfl fun i _ => ?_
        rw [if_neg (by omega)]
        simp
    · intro k hk
      rw [hm]
      by_cases hl : k < nLon
      · rw [if_pos hl, if_pos hl, if_neg (h k hl).1]; rfl
      · rw [if_neg hl, if_neg hl, if_neg (h (k - nLon) (by omega)).2]; rfl
  · next h =>
    push Not at h
    obtain ⟨i, hi, hz⟩ := h
    by_cases hw : (stdev nT fun s => wmj s i) = 0
    · rw [osum_none (i := i) (by omega)]
      · rfl
      · rw [hm, if_pos hi, if_pos hw]; rfl
    · rw [osum_none (i := nLon + i) (by omega)]
      · rfl
      · rw [hm, if_neg (by omega), Nat.add_sub_cancel_left, if_pos (hz hw)]; rfl

theorem ostd0_full (n : ℕ) (f : ℕ → ℝ) : ostd0 n (fun t => some (f t)) = some (stdev n f) := by
  unfold ostd0
  rw [osum_some (g := f) (fun _ _ => rfl), Option.bind_some]
  simp only [Option.map_some]
  rw [osum_some (g := fun t => (f t - (∑ s ∈ Finset.range n, f s) / n) ^ 2) (fun _ _ => rfl)]
  rfl

/-- One standardized component that exists on one day exists on all. -/
theorem pcNorm_full {nT nLon : ℕ} {sst wmj : ℕ → ℕ → ℝ} {e : ℕ → ℝ} {t0 : ℕ} {v0 : ℝ} (hn : 0 < nT)
    (h : pcNorm nT nLon (fun t i => some (sst t i)) (fun t i => some (wmj t i)) e t0 = some v0) :
    ∃ c > 0, (∀ t, pcNorm nT nLon (fun t i => some (sst t i)) (fun t i => some (wmj t i)) e t =
      some (-(c * projection nT nLon sst wmj e t))) ∧ stdev nT (fun t => -(c * projection nT nLon sst wmj e t)) = 1 := by
  have hr := pcRaw_full (nLon := nLon) hn sst wmj e
  by_cases hc : ∀ i < nLon, (stdev nT fun s => wmj s i) ≠ 0 ∧ (stdev nT fun s => sst s i) ≠ 0
  · simp only [if_pos hc] at hr
    have hfun : pcRaw nT nLon (fun t i => some (sst t i)) (fun t i => some (wmj t i)) e = fun t => some (-projection nT nLon sst wmj e t) :=
      funext hr
    unfold pcNorm at h ⊢
    rw [hfun, ostd0_full] at h ⊢
    by_cases hs : stdev nT (fun t => -projection nT nLon sst wmj e t) = 0
    · simp [odiv, hs] at h
    · have hpos : 0 < stdev nT (fun t => -projection nT nLon sst wmj e t) := lt_of_le_of_ne (stdev_nonneg _ _) (Ne.symm hs)
      refine ⟨1 / stdev nT (fun t => -projection nT nLon sst wmj e t), by positivity, ?_, ?_⟩
      · intro t
        simp only [odiv, Option.bind_some, if_neg hs]
        congr 1
        ring
      · have : (fun t => -(1 / stdev nT (fun t => -projection nT nLon sst wmj e t) * projection nT nLon sst wmj e t)) =
            fun t => (1 / stdev nT (fun t => -projection nT nLon sst wmj e t)) * (-projection nT nLon sst wmj e t) := by
          funext t; ring
        rw [this, stdev_scaled, abs_of_pos (by positivity)]
        field_simp
  · simp only [if_neg hc] at hr
    unfold pcNorm at h
    rw [hr] at h
    simp [odiv] at h

namespace Props

/-- C228.  For records without missing values: if there is an index on one day, there are two daily series, the negative
projections of the standardized fields on the two EOFs times positive constants, both of standard deviation one, and on every
day the second index is their sum and the first the sum of the first and the modulus of the second. -/
theorem C228_parts (nT nLon : ℕ) (hn : 0 < nT) (sst wmj : ℕ → ℕ → ℝ) (e1 e2 : ℕ → ℝ) (t0 : ℕ)
    (h : pcMaki nT nLon (fun t i => some (sst t i)) (fun t i => some (wmj t i)) e1 e2 t0 ≠ none) :
    ∃ p q : ℕ → ℝ, ∃ c > 0, ∃ d > 0,
      (∀ t, p t = -(c * projection nT nLon sst wmj e1 t)) ∧ (∀ t, q t = -(d * projection nT nLon sst wmj e2 t)) ∧
      stdev nT p = 1 ∧ stdev nT q = 1 ∧
      ∀ t, pcMaki nT nLon (fun t i => some (sst t i)) (fun t i => some (wmj t i)) e1 e2 t = some (p t + q t) ∧
        pcMake nT nLon (fun t i => some (sst t i)) (fun t i => some (wmj t i)) e1 e2 t = some (p t + |q t|) := by
  unfold pcMaki at h
  cases h1 : pcNorm nT nLon (fun t i => some (sst t i)) (fun t i => some (wmj t i)) e1 t0 with
  | none => rw [h1] at h; simp [oadd] at h
  | some a =>
    cases h2 : pcNorm nT nLon (fun t i => some (sst t i)) (fun t i => some (wmj t i)) e2 t0 with
    | none => rw [h1, h2] at h; simp [oadd] at h
    | some b =>
      obtain ⟨c, hc, hp, sp⟩ := pcNorm_full hn h1
      obtain ⟨d, hd, hq, sq⟩ := pcNorm_full hn h2
      refine ⟨_, _, c, hc, d, hd, fun _ => rfl, fun _ => rfl, sp, sq, fun t => ?_⟩
      unfold pcMaki pcMake
      rw [hp t, hq t]
      exact ⟨rfl, rfl⟩

/-- Two days and one longitude have indices (C171_example). -/
example : pcMaki 2 1 (fun t _ => some (if t = 0 then 1 else -1)) (fun t _ => some (if t = 0 then 1 else -1)) (fun _ => 1 / 2)
    (fun _ => 1 / 2) 0 ≠ none := by
  have := C171_example 0 (by norm_num)
  simp only at this
  rw [this]
  simp

/-- C161: the lengths of the months are those of the calendar. -/
theorem C161_calendar (y m : ℕ) (h1 : 1 ≤ m) (h2 : m ≤ 12) : monthLen (12 * y + (m - 1)) = monthDays y m := by
  unfold monthLen
  have a : (12 * y + (m - 1)) / 12 = y := by omega
  have b : (12 * y + (m - 1)) % 12 + 1 = m := by omega
  rw [a, b]
  interval_cases m <;> simp [daysInMonth, monthDays, isLeap, Nat.dvd_iff_mod_eq_zero]

end Props
end Metcalcpy
