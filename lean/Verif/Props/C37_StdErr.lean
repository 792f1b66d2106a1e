/-
C37  The variance inflation factor never deflates the standard error.
C76  The lag-1 coefficient is the least-squares slope (false in general).
-/
import Verif.Model.StdErr
import Verif.Spec.StdErr
import Verif.Lemmas.Pairs
import Verif.Props.C30_Interval
import Mathlib.Tactic.FieldSimp
import Mathlib.Tactic.Positivity

namespace Metcalcpy.Props
open Metcalcpy Spec

theorem inflation_spec {ar1 : ℚ} {v : ℝ × ℕ} (h : inflation ar1 = .ok v) :
    1 ≤ v.1 ∧ ((ar1 < 3 / 10 ∨ 99 / 100 ≤ ar1) → v.1 = 1) ∧
    (3 / 10 ≤ ar1 → ar1 < 99 / 100 → v.1 = √((1 + ar1) / (1 - ar1) : ℚ) ∧ 1 < v.1) := by
  have h1 : (1 : ℚ) - ar1 ≠ 0 := by
    intro h0
    simp only [inflation, pyDivE, h0, if_true, bind, Except.bind] at h
    cases h
  simp only [inflation, pyDivE, if_neg h1, bind, Except.bind] at h
  by_cases hc : ar1 < 3 / 10 ∨ ar1 ≥ 99 / 100
  · rw [if_pos hc] at h
    cases h
    refine ⟨le_refl _, fun _ => rfl, fun a b => ?_⟩
    rcases hc with hc | hc <;> exfalso <;> linarith
  · rw [if_neg hc] at h
    cases h
    push Not at hc
    have hr : ¬ (1 + ar1) / (1 - ar1) < 0 := not_lt.mpr (by
      apply div_nonneg <;> linarith [hc.1, hc.2])
    simp only [if_neg hr]
    have hgt : (1 : ℝ) < √(((1 + ar1) / (1 - ar1) : ℚ) : ℝ) := by
      rw [Real.lt_sqrt (by norm_num)]
      have : (1 : ℚ) < (1 + ar1) / (1 - ar1) := by
        rw [lt_div_iff₀ (by linarith [hc.2])]; linarith [hc.1]
      have h2 : ((1 : ℚ) : ℝ) < (((1 + ar1) / (1 - ar1) : ℚ) : ℝ) := Rat.cast_lt.mpr this
      simpa using h2
    refine ⟨hgt.le, fun a => ?_, fun _ _ => ⟨by simp, hgt⟩⟩
    rcases a with a | a <;> exfalso <;> linarith [hc.1, hc.2]

theorem stVariance_ok {xs : List ℚ} (h : 2 ≤ xs.length) : stVariance xs = .ok (seriesVariance xs) := by
  rw [stVariance, if_neg (by omega)]; rfl

/-- C37: whenever compute_std_err_from_mean returns for a series of more than two values that is not
constant, the standard error is at least the classical one; it is the classical one for a coefficient below
0.3 or from 0.99 on, and otherwise the classical one times sqrt((1 + ar1) / (1 - ar1)). -/
theorem C37_mean (data : List ℚ) (r : StdErr) (h : stdErrFromMean data = .ok r)
    (hn : 2 < data.length) (hv : 0 < seriesVariance data) :
    classicalSE data ≤ r.err ∧ r.n = data.length ∧
    (r.ar1 < 3 / 10 ∨ 99 / 100 ≤ r.ar1 → r.err = classicalSE data) ∧
    (3 / 10 ≤ r.ar1 → r.ar1 < 99 / 100 →
      r.err = √((1 + r.ar1) / (1 - r.ar1) : ℚ) * classicalSE data ∧ classicalSE data < r.err) := by
  simp only [stdErrFromMean, stVariance_ok (by omega : 2 ≤ data.length), bind, Except.bind] at h
  rw [if_pos ⟨hv, hn⟩] at h
  cases hc : autocorCoef data with
  | error e => rw [hc] at h; cases h
  | ok c =>
    rw [hc] at h
    cases c with
    | none => cases h
    | some ar =>
      simp only [needAr] at h
      cases hi : inflation ar with
      | error e => rw [hi] at h; cases h
      | ok v =>
        rw [hi] at h
        cases h
        have spec := inflation_spec hi
        have hpos : 0 < classicalSE data := by
          unfold classicalSE
          apply div_pos
          · exact Real.sqrt_pos.mpr (by exact_mod_cast hv)
          · exact Real.sqrt_pos.mpr (by exact_mod_cast (by omega : 0 < data.length))
        have e : v.1 * √((seriesVariance data : ℚ) : ℝ) / √(data.length : ℝ) = v.1 * classicalSE data := by
          unfold classicalSE; rw [mul_div_assoc]
        simp only [e]
        refine ⟨?_, by simp, fun hh => ?_, fun h1 h2 => ⟨?_, ?_⟩⟩
        · nlinarith [spec.1]
        · rw [spec.2.1 hh, one_mul]
        · rw [(spec.2.2 h1 h2).1]
        · nlinarith [(spec.2.2 h1 h2).2]

/-- C37: two values or a constant series give standard error 0; fewer than two values raise. -/
theorem C37_mean_degenerate (data : List ℚ) :
    (data.length < 2 → stdErrFromMean data = .error .valueError) ∧
    (2 ≤ data.length → (data.length = 2 ∨ seriesVariance data ≤ 0) →
      stdErrFromMean data = .ok ⟨0, 0, 0, data.length⟩) := by
  constructor
  · intro h
    simp only [stdErrFromMean, stVariance, if_pos h, bind, Except.bind]
  · intro h hh
    simp only [stdErrFromMean, stVariance_ok h, bind, Except.bind]
    rw [if_neg]
    rintro ⟨h1, h2⟩
    rcases hh with hh | hh
    · omega
    · exact absurd h1 (not_lt.mpr hh)

/-- C37: the standard error of the sum is the one of the mean times the number of values. -/
theorem C37_sum (data : List ℚ) (r : StdErr) (h : stdErrFromMean data = .ok r) :
    stdErrFromSum data = .ok ⟨data.length * r.err, r.flag, r.ar1, r.n⟩ := by
  simp only [stdErrFromSum, h, bind, Except.bind, mul_comm]

theorem iqr_nonneg {data : List ℚ} {q : ℚ} (h : iqr data = .ok q) : 0 ≤ q := by
  unfold iqr at h
  by_cases he : data.isEmpty = true
  · rw [if_pos he] at h; cases h; exact le_refl _
  · rw [if_neg he] at h
    have hne : data ≠ [] := by intro h0; rw [h0] at he; simp at he
    obtain ⟨_, _, lo, hi, _, _, hl, hh, _, hlh, _⟩ :=
      percentile_mono data hne (1 / 4) (3 / 4) (by norm_num) (by norm_num) (by norm_num)
    simp only [hl, hh, bind, Except.bind] at h
    cases h
    linarith

/-- C37: the median-based error with variance inflation is at least the one without. -/
theorem C37_median (data : List ℚ) (r : StdErr) (h : stdErrFromMedianVif data = .ok r) :
    ∃ s, stdErrFromMedian (data.map some) = .ok s ∧ 0 ≤ s.err ∧ s.err ≤ r.err ∧
      (r.ar1 < 3 / 10 ∨ 99 / 100 ≤ r.ar1 → r.err = s.err) := by
  have e : (data.map some).filterMap id = data := by rw [List.filterMap_map]; simp
  simp only [stdErrFromMedian, e]
  simp only [stdErrFromMedianVif, bind, Except.bind] at h ⊢
  cases hq : iqr data with
  | error e => rw [hq] at h; cases h
  | ok q =>
    rw [hq] at h
    simp only at h ⊢
    by_cases hc : q > 0 ∧ data.length > 2
    · rw [if_pos hc] at h ⊢
      cases ha : autocorCoef data with
      | error e => rw [ha] at h; cases h
      | ok c =>
        rw [ha] at h
        cases c with
        | none => cases h
        | some ar =>
          simp only [needAr] at h
          cases hi : inflation ar with
          | error e => rw [hi] at h; cases h
          | ok v =>
            rw [hi] at h
            cases h
            have spec := inflation_spec hi
            have hpos : 0 ≤ ((q : ℝ) * √(Real.pi / 2)) / (1.349 * √(data.length : ℝ)) := by
              have : (0 : ℝ) ≤ q := by exact_mod_cast hc.1.le
              positivity
            refine ⟨_, rfl, hpos, ?_, fun hh => ?_⟩
            · simp only [mul_div_assoc v.1]
              nlinarith [spec.1]
            · simp only [mul_div_assoc v.1, spec.2.1 hh, one_mul]
    · rw [if_neg hc] at h ⊢
      cases h
      exact ⟨_, rfl, le_refl _, le_refl _, fun _ => rfl⟩

/-- C37: the call may also raise: a series that is constant up to its last value. -/
theorem C37_zero_division : stdErrFromMean [1, 1, 1, 2] = .error .zeroDivisionError := by
  have h1 : stVariance [1, 1, 1, 2] = .ok (1 / 4) := by decide +kernel
  have h2 : autocorCoef [1, 1, 1, 2] = .error .zeroDivisionError := by decide +kernel
  simp only [stdErrFromMean, h1, h2, bind, Except.bind]
  rw [if_pos (by constructor <;> norm_num)]

example : ∃ r, stdErrFromMean [1, 2, 4, 3] = .ok r ∧ 0 < seriesVariance [1, 2, 4, 3] := by
  have h1 : stVariance [1, 2, 4, 3] = .ok (5 / 3) := by decide +kernel
  obtain ⟨c, h2, h3⟩ : ∃ c, autocorCoef [1, 2, 4, 3] = .ok (some c) ∧ c < 3 / 10 :=
    ⟨699 / 3304, by decide +kernel, by norm_num⟩
  have hi : inflation c = .ok (1, (if (1 + c) / (1 - c) < 0 then ((1 : ℚ), 1) else ((1 + c) / (1 - c), 0)).2) := by
    have : (1 : ℚ) - c ≠ 0 := by intro h; linarith
    simp only [inflation, pyDivE, if_neg this, bind, Except.bind, if_pos (Or.inl h3)]
  have hr : stdErrFromMean [1, 2, 4, 3] = .ok ⟨1 * √((5 / 3 : ℚ) : ℝ) / √(([1, 2, 4, 3] : List ℚ).length : ℝ),
      (if (1 + c) / (1 - c) < 0 then ((1 : ℚ), 1) else ((1 + c) / (1 - c), 0)).2, c, 4⟩ := by
    simp only [stdErrFromMean, h1, h2, bind, Except.bind, needAr, hi]
    rw [if_pos (by constructor <;> norm_num)]
    rfl
  exact ⟨_, hr, by decide +kernel⟩

/-! ### C76 -/

theorem lag_fst : ∀ xs : List ℚ, (lagPairs xs).map Prod.fst = xs.dropLast
  | [] => rfl
  | [_] => rfl
  | a :: b :: l => by
    have := lag_fst (b :: l)
    simp only [lagPairs, List.tail_cons, List.zip_cons_cons, List.map_cons, List.dropLast_cons₂] at this ⊢
    rw [this]

theorem lag_snd : ∀ xs : List ℚ, (lagPairs xs).map Prod.snd = xs.tail
  | [] => rfl
  | [_] => rfl
  | a :: b :: l => by
    have := lag_snd (b :: l)
    simp only [lagPairs, List.tail_cons, List.zip_cons_cons, List.map_cons] at this ⊢
    rw [this]

theorem lag_length (xs : List ℚ) : (lagPairs xs).length = xs.length - 1 := by
  simp [lagPairs]

theorem zipWith_maps (ps : List (ℚ × ℚ)) (f g : ℚ → ℚ) :
    List.zipWith (fun a b => a * b) (ps.map (f ∘ Prod.fst)) (ps.map (g ∘ Prod.snd)) =
      ps.map (fun p => f p.1 * g p.2) := by
  induction ps with
  | nil => rfl
  | cons p ps ih => simpa using ih

/-- Shifted moments: the normal equation in terms of sums of deviations from any constant. -/
theorem slope_shift (ps : List (ℚ × ℚ)) (hn : (ps.length : ℚ) ≠ 0) (m : ℚ) (b : ℚ) :
    IsSlope ps b ↔
      b * ((ps.map (fun p => (p.1 - m) ^ 2)).sum - (ps.map (fun p => p.1 - m)).sum ^ 2 / ps.length) =
        (ps.map (fun p => (p.1 - m) * (p.2 - m))).sum -
          (ps.map (fun p => p.1 - m)).sum * (ps.map (fun p => p.2 - m)).sum / ps.length := by
  unfold IsSlope mean
  rw [List.length_map, List.length_map]
  have hx : (ps.map (fun p => p.1 - m)).sum = (ps.map Prod.fst).sum - ps.length * m := by
    rw [sum_map_sub', sum_map_const']
  have hy : (ps.map (fun p => p.2 - m)).sum = (ps.map Prod.snd).sum - ps.length * m := by
    rw [sum_map_sub', sum_map_const']
  generalize hX : (ps.map Prod.fst).sum = X at *
  generalize hY : (ps.map Prod.snd).sum = Y at *
  have e1 : (ps.map (fun p => (p.1 - X / ps.length) ^ 2)).sum =
      (ps.map (fun p => (p.1 - m) ^ 2)).sum - (X - ps.length * m) ^ 2 / ps.length := by
    have : ps.map (fun p => (p.1 - X / ps.length) ^ 2) = ps.map (fun p => (p.1 - m) ^ 2 +
        (2 * (m - X / ps.length) * (p.1 - m) + (m - X / ps.length) ^ 2)) :=
      List.map_congr_left (fun p _ => by ring)
    rw [this, sum_map_add', sum_map_add', sum_map_mul_left', sum_map_const', hx]
    field_simp; ring
  have e2 : (ps.map (fun p => (p.1 - X / ps.length) * (p.2 - Y / ps.length))).sum =
      (ps.map (fun p => (p.1 - m) * (p.2 - m))).sum -
        (X - ps.length * m) * (Y - ps.length * m) / ps.length := by
    have : ps.map (fun p => (p.1 - X / ps.length) * (p.2 - Y / ps.length)) =
        ps.map (fun p => (p.1 - m) * (p.2 - m) + ((m - Y / ps.length) * (p.1 - m) +
          ((m - X / ps.length) * (p.2 - m) + (m - X / ps.length) * (m - Y / ps.length)))) :=
      List.map_congr_left (fun p _ => by ring)
    rw [this, sum_map_add', sum_map_add', sum_map_add', sum_map_mul_left', sum_map_mul_left', sum_map_const',
      hx, hy]
    field_simp; ring
  rw [e1, e2, hx, hy]

/-- The value returned, in terms of the consecutive pairs. -/
theorem autocor_pairs {data : List ℚ} {b : ℚ} (h : autocorCoef data = .ok (some b)) :
    ∃ sx sy sxx sxy n : ℚ,
      sx = ((lagPairs data).map (fun p => p.1 - mean data)).sum ∧
      sy = ((lagPairs data).map (fun p => p.2 - mean data)).sum ∧
      sxx = ((lagPairs data).map (fun p => (p.1 - mean data) ^ 2)).sum ∧
      sxy = ((lagPairs data).map (fun p => (p.1 - mean data) * (p.2 - mean data))).sum ∧
      n = (lagPairs data).length ∧ n ≠ 0 ∧ sx - n * sxx ≠ 0 ∧ sxx - sx * sx / n ≠ 0 ∧
      b = sx * sy / (sx - n * sxx) + sxy / (sxx - sx * sx / n) := by
  unfold autocorCoef at h
  by_cases hl : data.length < 2
  · rw [if_pos hl] at h; cases h
  · rw [if_neg hl] at h
    have hn : ((lagPairs data).length : ℚ) = (data.length : ℚ) - 1 := by
      rw [lag_length, Nat.cast_sub (by omega)]; simp
    have hn0 : (data.length : ℚ) - 1 ≠ 0 := by
      have : (2 : ℚ) ≤ data.length := by exact_mod_cast (by omega : 2 ≤ data.length)
      intro h0; linarith
    rw [← lag_fst, ← lag_snd] at h
    simp only [List.map_map, zipWith_maps, pyDivE, bind, Except.bind, if_neg hn0] at h
    refine ⟨_, _, _, _, _, rfl, rfl, rfl, rfl, rfl, by rw [hn]; exact hn0, ?_⟩
    rw [hn]
    split_ifs at h with h1 h2
    simp only [Except.ok.injEq, Option.some.injEq] at h
    exact ⟨h1, h2, h.symm⟩

/-- C76 (the part that holds): when the deviations from the mean of all values but the last sum to 0 or
1, or those of all but the first sum to 0, the coefficient is the least-squares slope of the next value on the current. -/
theorem C76_slope_partial (data : List ℚ) (b : ℚ) (h : autocorCoef data = .ok (some b))
    (hc : (((lagPairs data).map (fun p => p.1 - mean data)).sum = 0 ∨
      ((lagPairs data).map (fun p => p.1 - mean data)).sum = 1) ∨
      ((lagPairs data).map (fun p => p.2 - mean data)).sum = 0) :
    IsSlope (lagPairs data) b := by
  obtain ⟨sx, sy, sxx, sxy, n, e1, e2, e3, e4, e5, h0, h1, h2, hb⟩ := autocor_pairs h
  rw [slope_shift _ (by rw [← e5]; exact h0) (mean data), ← e1, ← e2, ← e3, ← e4, ← e5]
  rw [← e1, ← e2] at hc
  rw [← pow_two] at h2 hb
  rcases hc with (hc | hc) | hc
  · rw [hc] at hb h2 ⊢
    simp only [zero_mul, zero_div, zero_add, ne_eq, OfNat.ofNat_ne_zero, not_false_eq_true, zero_pow, sub_zero] at hb h2 ⊢
    rw [hb, div_mul_cancel₀ _ h2]
  · rw [hc] at hb h1 h2 ⊢
    have h3 : n * sxx - 1 ≠ 0 := by
      intro hh; apply h2; field_simp; linarith
    have e : sxx - 1 ^ 2 / n = (n * sxx - 1) / n := by field_simp
    rw [e] at hb ⊢
    rw [hb]
    have h1' : (1 : ℚ) - n * sxx = -(n * sxx - 1) := by ring
    rw [h1']
    field_simp
    ring
  · rw [hc] at hb ⊢
    simp only [mul_zero, zero_div, zero_add, sub_zero] at hb ⊢
    rw [hb, div_mul_cancel₀ _ h2]

example : ∃ b, autocorCoef [2, 1, 4, 1] = .ok (some b) ∧
    ((lagPairs [2, 1, 4, 1]).map (fun p => p.2 - mean [2, 1, 4, 1])).sum = 0 :=
  ⟨-6 / 7, by decide +kernel, by decide +kernel⟩

/-- C76 is false: for the series 1, 2, 4, 3 the coefficient is not the slope; and the coefficient changes
when the series is expressed in other units. -/
theorem C76_counterexample :
    (∃ b, autocorCoef [1, 2, 4, 3] = .ok (some b) ∧ ¬ IsSlope (lagPairs [1, 2, 4, 3]) b) ∧
    (∃ b b', autocorCoef [1, 2, 4, 3] = .ok (some b) ∧ autocorCoef [10, 20, 40, 30] = .ok (some b') ∧
      b ≠ b') := by
  refine ⟨⟨699 / 3304, by decide +kernel, ?_⟩, ⟨699 / 3304, 1707 / 8008, by decide +kernel, by decide +kernel,
    by norm_num⟩⟩
  unfold IsSlope
  decide +kernel

end Metcalcpy.Props
