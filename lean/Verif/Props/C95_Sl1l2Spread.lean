/-
C95  FSTDEV, OSTDEV, MBIAS, MAE, ME2 and MSESS of a group are those of the pooled matched pairs.
C96  RMSFA, RMSOA and the raw anomaly correlation of a group are those of the pooled anomalies.
-/
import Verif.Props.C15_Sl1l2

namespace Metcalcpy.Props
open Metcalcpy Spec

theorem sampleVariance_nonneg {α : Type*} (g : α → ℚ) (ps : List α) (h : 1 ≤ ps.length) : 0 ≤ sampleVariance g ps := by
  have : (1 : ℚ) ≤ ps.length := by exact_mod_cast h
  exact div_nonneg (sum_sq_nonneg' ps _) (by linarith)

theorem sampleVariance_eq {α : Type*} (g : α → ℚ) (ps : List α) (hn : (ps.length : ℚ) ≠ 0) :
    sampleVariance g ps = ((ps.map fun p => g p * g p).sum - (ps.map g).sum * (ps.map g).sum / ps.length) /
      ((ps.length : ℚ) - 1) := by
  have := avg_dev g g ps hn
  unfold sampleVariance
  congr 1
  unfold avg at *
  have e : ∀ p : α, (g p - (ps.map g).sum / ps.length) ^ 2 =
      (g p - (ps.map g).sum / ps.length) * (g p - (ps.map g).sum / ps.length) := fun p => sq _
  simp only [e]
  generalize (ps.map fun p => (g p - (ps.map g).sum / ps.length) * (g p - (ps.map g).sum / ps.length)).sum = S at *
  field_simp at this ⊢
  linarith

/-- The standard deviation part shared by FSTDEV and OSTDEV. -/
theorem stdev_value (t' : Table) (P : List Pair) (mean square : String) (g : Pair → ℚ)
    (h2 : sumColumn t' "total" = some (P.length : ℚ)) (h4 : 0 < (P.length : ℚ))
    (s1 : sumColumn t' mean = some (P.map g).sum) (s2 : sumColumn t' square = some (P.map fun p => g p * g p).sum) :
    slStdevOf mean square t' true =
      if P.length = 1 then none else some (roundHalfUp (Real.sqrt (sampleVariance g P : ℝ)) 7) := by
  have hl : 1 ≤ P.length := by
    have : 0 < P.length := by exact_mod_cast h4
    omega
  have hlq : ¬ (P.length : ℚ) < 1 := by
    have : (1 : ℚ) ≤ P.length := by exact_mod_cast hl
    exact not_lt.mpr this
  simp only [slStdevOf, h2, s1, s2, Option.bind_eq_bind, Option.bind_some, if_true, pyDiv_ne h4.ne', slStddev, hlq,
    if_false, div_mul_cancel₀ _ h4.ne']
  by_cases h1 : P.length = 1
  · have hq : (P.length : ℚ) - 1 = 0 := by rw [h1]; norm_num
    rw [if_pos h1, hq, pyDiv_zero]; rfl
  · have hq : (P.length : ℚ) - 1 ≠ 0 := by
      intro hz
      apply h1
      have : (P.length : ℚ) = 1 := by linarith
      exact_mod_cast this
    rw [if_neg h1, pyDiv_ne hq, Option.bind_some, ← sampleVariance_eq g P h4.ne']
    rw [if_neg (not_lt.mpr (sampleVariance_nonneg g P hl))]
    rfl

/-- C95: FSTDEV and OSTDEV of a group are the sample standard deviations of the pooled forecasts and observations, missing
for a single pair. -/
theorem C95_stdev (t : Table) (bs : List (List Pair)) (D : Sl1l2Data t bs) :
    aggregated "fstdev" slFstdev t = .ok (if bs.flatten.length = 1 then none else
      some (roundHalfUp (Real.sqrt (sampleVariance Prod.fst bs.flatten : ℝ)) 7)) ∧
    aggregated "ostdev" slOstdev t = .ok (if bs.flatten.length = 1 then none else
      some (roundHalfUp (Real.sqrt (sampleVariance Prod.snd bs.flatten : ℝ)) 7)) := by
  constructor
  · obtain ⟨t', h1, h2, h3, h4⟩ := sl_prepared D "fstdev" ["fbar", "ffbar"] rfl (by simp) (by simp)
    rw [aggregated_ok h1]
    congr 1
    exact stdev_value t' _ "fbar" "ffbar" Prod.fst h2 h4 (by rw [h3 "fbar" (by simp), gSl_f])
      (by rw [h3 "ffbar" (by simp), gSl_ff])
  · obtain ⟨t', h1, h2, h3, h4⟩ := sl_prepared D "ostdev" ["obar", "oobar"] rfl (by simp) (by simp)
    rw [aggregated_ok h1]
    congr 1
    exact stdev_value t' _ "obar" "oobar" Prod.snd h2 h4 (by rw [h3 "obar" (by simp), gSl_o])
      (by rw [h3 "oobar" (by simp), gSl_oo])

/-- C95: MBIAS of a group is the ratio of the pooled means, missing when the mean observation is zero; ME2 is the square of
the (rounded) pooled mean error. -/
theorem C95_bias (t : Table) (bs : List (List Pair)) (D : Sl1l2Data t bs) :
    aggregated "mbias" slMbias t = .ok (if avg Prod.snd bs.flatten = 0 then none else
      some (roundHalfUp (avg Prod.fst bs.flatten / avg Prod.snd bs.flatten) 7)) ∧
    aggregated "me2" slMe2 t = .ok (some (roundHalfUp (roundHalfUp (meanError bs.flatten) 7 ^ 2) 7)) := by
  constructor
  · obtain ⟨t', h1, h2, h3, h4⟩ := sl_prepared D "mbias" ["obar", "fbar"] rfl (by simp) (by simp)
    rw [aggregated_ok h1]
    congr 1
    simp only [slMbias, getTotalValues, if_true, h2, h3 "obar" (by simp), h3 "fbar" (by simp), Option.bind_eq_bind,
      Option.bind_some, pyDiv_ne h4.ne', gSl_f, gSl_o]
    change (if avg Prod.snd bs.flatten = 0 then none else
      (pyDiv (avg Prod.fst bs.flatten) (avg Prod.snd bs.flatten)).bind fun q => some (roundHalfUp q PRECISION)) = _
    split
    · rfl
    · next h => rw [pyDiv_ne h]; rfl
  · obtain ⟨t', h1, h2, h3, h4⟩ := sl_prepared D "me2" ["fbar", "obar"] rfl (by simp) (by simp)
    rw [aggregated_ok h1]
    congr 1
    generalize bs.flatten = P at *
    simp [slMe2, slMe, getTotalValues, h2, h3 "fbar" (by simp), h3 "obar" (by simp), pyDiv_ne h4.ne',
      PRECISION, meanError_eq, avg, gSl_f, gSl_o]

/-- C95: MAE of a group is the mean absolute error of the pooled pairs. -/
theorem C95_mae (t : Table) (bs : List (List Pair)) (D : Sl1l2Data t bs)
    (hmae : CompleteColumn t "mae" (bs.map meanAbsError)) :
    aggregated "mae" (slMean "mae") t = .ok (some (roundHalfUp (meanAbsError bs.flatten) 7)) := by
  obtain ⟨t', h1, -, h2, h3, h4⟩ := prepared_sums D.rows_ne D.batch_ne D.total
    (fun _ (p : Pair) => |p.1 - p.2|) ["mae"] (by simp) (by simp) (by
      intro c hc
      simp only [List.mem_singleton] at hc
      subst hc
      exact hmae)
  have h1' : prepareFields t (fieldsOf "mae") = .ok t' := h1
  rw [aggregated_ok h1']
  congr 1
  simp only [slMean, getTotalValues, if_true, h2, h3 "mae" (by simp), Option.bind_eq_bind, Option.bind_some,
    pyDiv_ne h4.ne']
  rfl

/-- C95: MSESS of a group is one minus MSE over the squared OSTDEV of the pooled pairs (both rounded first); it is missing
for a single pair and when the rounded OSTDEV is zero; it never exceeds 1, and is 1 for a perfect forecast. -/
theorem C95_msess (t : Table) (bs : List (List Pair)) (D : Sl1l2Data t bs) :
    let so := roundHalfUp (Real.sqrt (sampleVariance Prod.snd bs.flatten : ℝ)) 7
    let mse := roundHalfUp (meanSquaredError bs.flatten) 7
    aggregated "msess" slMsess t = .ok (if bs.flatten.length = 1 ∨ so = 0 then none else
      some (roundHalfUp (1 - (mse : ℝ) / so ^ 2) 7)) ∧
    (∀ v, aggregated "msess" slMsess t = .ok (some v) → v ≤ 1) ∧
    ((∀ p ∈ bs.flatten, p.1 = p.2) → ∀ v, aggregated "msess" slMsess t = .ok (some v) → v = 1) := by
  intro so mse
  have e : aggregated "msess" slMsess t = .ok (if bs.flatten.length = 1 ∨ so = 0 then none else
      some (roundHalfUp (1 - (mse : ℝ) / so ^ 2) 7)) := by
    obtain ⟨t', h1, h2, h3, h4⟩ := sl_prepared D "msess" ["ffbar", "oobar", "fobar", "obar"] rfl (by simp) (by simp)
    rw [aggregated_ok h1]
    congr 1
    have v1 : slOstdev t' true = if bs.flatten.length = 1 then none else some so :=
      stdev_value t' _ "obar" "oobar" Prod.snd h2 h4 (by rw [h3 "obar" (by simp), gSl_o])
        (by rw [h3 "oobar" (by simp), gSl_oo])
    have v2 : slMse t' true = some mse := by
      simp only [mse]
      generalize bs.flatten = P at *
      simp [slMse, getTotalValues, h2, h3 "ffbar" (by simp), h3 "oobar" (by simp), h3 "fobar" (by simp),
        pyDiv_ne h4.ne', PRECISION, mse_eq, avg, gSl_ff, gSl_oo, gSl_fo]
    simp only [slMsess, v1, v2, Option.bind_eq_bind, Option.bind_some]
    by_cases hl : bs.flatten.length = 1
    · simp only [hl, if_true, true_or]; rfl
    · simp only [hl, if_false, Option.bind_some, false_or]
      by_cases hs : so = 0
      · simp [hs]
      · have : so ^ 2 ≠ 0 := pow_ne_zero 2 hs
        simp only [hs, this, if_false]
        rfl
  have hm : 0 ≤ mse := round7_nonneg (avg_nonneg_sq _ _)
  refine ⟨e, fun v hv => ?_, fun hp v hv => ?_⟩
  · rw [e] at hv
    split at hv
    · simp at hv
    · simp only [Except.ok.injEq, Option.some.injEq] at hv
      rw [← hv]
      apply round7_le_one
      have : (0 : ℝ) ≤ (mse : ℝ) / so ^ 2 := div_nonneg (by exact_mod_cast hm) (sq_nonneg _)
      linarith
  · rw [e] at hv
    split at hv
    · simp at hv
    · simp only [Except.ok.injEq, Option.some.injEq] at hv
      have : mse = 0 := by
        have hz : meanSquaredError bs.flatten = 0 := by
          unfold meanSquaredError avg
          rw [List.sum_eq_zero, zero_div]
          intro x hx
          obtain ⟨p, hpm, rfl⟩ := List.mem_map.mp hx
          rw [hp p hpm]; ring
        simp only [mse, hz]
        exact round7_zero
      rw [← hv, this]
      simp only [Rat.cast_zero, zero_div, sub_zero]
      exact round7_one

/-- Two batches of pairs. -/
def exPairs : Table :=
  { cols := ["total", "fbar", "obar", "fobar", "ffbar", "oobar", "mae"]
    rows := [[some 2, some 2, some 1, some (5 / 2), some 5, some (5 / 4), some (3 / 4 + 1 / 4)],
             [some 1, some 4, some 2, some 8, some 16, some 4, some 2]] }

example : Sl1l2Data exPairs [[(1, 1 / 2), (3, 3 / 2)], [(4, 2)]] where
  rows_ne := by simp [exPairs]
  batch_ne := by simp
  total := ⟨0, rfl, by decide, by simp [exPairs]⟩
  fbar := ⟨1, rfl, by decide, by norm_num [exPairs, avg]⟩
  obar := ⟨2, rfl, by decide, by norm_num [exPairs, avg]⟩
  fobar := ⟨3, rfl, by decide, by norm_num [exPairs, avg]⟩
  ffbar := ⟨4, rfl, by decide, by norm_num [exPairs, avg]⟩
  oobar := ⟨5, rfl, by decide, by norm_num [exPairs, avg]⟩

example : CompleteColumn exPairs "mae" ([[(1, 1 / 2), (3, 3 / 2)], [(4, 2)]].map meanAbsError) :=
  ⟨6, rfl, by decide, by norm_num [exPairs, meanAbsError, avg, abs_of_pos]⟩

/-! ### C96 -/

/-- C96: RMSFA and RMSOA of a group are the root mean squares of the pooled anomalies. -/
theorem C96_rms (t : Table) (bs : List (List Pair)) (D : Sal1l2Data t bs) :
    aggregated "rmsfa" (salRms "ffabar") t =
      .ok (some (roundHalfUp (Real.sqrt (avg (fun p => p.1 ^ 2) bs.flatten : ℚ)) 7)) ∧
    aggregated "rmsoa" (salRms "ooabar") t =
      .ok (some (roundHalfUp (Real.sqrt (avg (fun p => p.2 ^ 2) bs.flatten : ℚ)) 7)) := by
  have key : ∀ (t' : Table) (P : List Pair) (col : String) (g : Pair → ℚ), sumColumn t' "total" = some (P.length : ℚ) →
      0 < (P.length : ℚ) → sumColumn t' col = some (P.map fun p => g p * g p).sum →
      salRms col t' true = some (roundHalfUp (Real.sqrt (avg (fun p => g p ^ 2) P : ℚ)) 7) := by
    intro t' P col g h2 h4 s
    have e : (P.map fun p => g p * g p).sum / (P.length : ℚ) = avg (fun p => g p ^ 2) P := by
      unfold avg; simp only [sq]
    simp only [salRms, getTotalValues, if_true, h2, s, Option.bind_eq_bind, Option.bind_some, pyDiv_ne h4.ne', e]
    rw [if_neg (not_lt.mpr (avg_nonneg_sq _ _))]
    rfl
  constructor
  · obtain ⟨t', h1, h2, h3, h4⟩ := sal_prepared D "rmsfa" ["ffabar"] rfl (by simp) (by simp)
    rw [aggregated_ok h1]
    congr 1
    exact key t' _ "ffabar" Prod.fst h2 h4 (by rw [h3 "ffabar" (by simp), gSl_ffa])
  · obtain ⟨t', h1, h2, h3, h4⟩ := sal_prepared D "rmsoa" ["ooabar"] rfl (by simp) (by simp)
    rw [aggregated_ok h1]
    congr 1
    exact key t' _ "ooabar" Prod.snd h2 h4 (by rw [h3 "ooabar" (by simp), gSl_ooa])

/-- C96: the raw anomaly correlation of a group is the uncentred correlation of the pooled anomalies; it is missing exactly
when all forecast anomalies or all observed anomalies vanish. -/
theorem C96_anom_corr_raw (t : Table) (bs : List (List Pair)) (D : Sal1l2Data t bs) :
    let ff := avg (fun p : Pair => p.1 ^ 2) bs.flatten
    let oo := avg (fun p : Pair => p.2 ^ 2) bs.flatten
    let fo := avg (fun p : Pair => p.1 * p.2) bs.flatten
    aggregated "anom_corr_raw" salAnomCorrRaw t = .ok (if ff = 0 ∨ oo = 0 then none else
      some (roundHalfUp ((fo : ℝ) / Real.sqrt ((ff : ℝ) * oo)) 7)) := by
  intro ff oo fo
  obtain ⟨t', h1, h2, h3, h4⟩ := sal_prepared D "anom_corr_raw" ["ffabar", "ooabar", "foabar"] rfl (by simp) (by simp)
  rw [aggregated_ok h1]
  congr 1
  have e1 : (bs.flatten.map (gSl "ffabar")).sum / (bs.flatten.length : ℚ) = ff := by
    rw [gSl_ffa]; simp only [ff, avg, sq]
  have e2 : (bs.flatten.map (gSl "ooabar")).sum / (bs.flatten.length : ℚ) = oo := by
    rw [gSl_ooa]; simp only [oo, avg, sq]
  have e3 : (bs.flatten.map (gSl "foabar")).sum / (bs.flatten.length : ℚ) = fo := by
    rw [gSl_foa]; simp only [fo, avg]
  have hff : 0 ≤ ff := avg_nonneg_sq _ _
  have hoo : 0 ≤ oo := avg_nonneg_sq _ _
  have hcs : fo ^ 2 ≤ ff * oo := by
    have := cauchy_list (fun p : Pair => p.1) (fun p : Pair => p.2) bs.flatten
    simp only [fo, ff, oo, avg]
    rw [div_pow, div_mul_div_comm, ← pow_two (bs.flatten.length : ℚ)]
    exact div_le_div_of_nonneg_right this (by positivity)
  simp only [salAnomCorrRaw, getTotalValues, if_true, h2, h3 "ffabar" (by simp), h3 "ooabar" (by simp),
    h3 "foabar" (by simp), Option.bind_eq_bind, Option.bind_some, pyDiv_ne h4.ne', e1, e2, e3]
  rw [if_neg (not_lt.mpr (mul_nonneg hff hoo))]
  by_cases h0 : ff = 0 ∨ oo = 0
  · rw [if_pos (mul_eq_zero.mpr h0), if_pos h0]
  · rw [if_neg (fun hz => h0 (mul_eq_zero.mp hz)), if_neg h0]
    have hpos : 0 < ff * oo := lt_of_le_of_ne (mul_nonneg hff hoo) (fun hz => h0 (mul_eq_zero.mp hz.symm))
    have hs : 0 < Real.sqrt ((ff * oo : ℚ) : ℝ) := Real.sqrt_pos.mpr (by exact_mod_cast hpos)
    have hab : |(fo : ℝ)| ≤ Real.sqrt ((ff * oo : ℚ) : ℝ) := Real.abs_le_sqrt (by exact_mod_cast hcs)
    have h1 : (fo : ℝ) / Real.sqrt ((ff * oo : ℚ) : ℝ) ≤ 1 := by
      rw [div_le_one hs]; exact (abs_le.mp hab).2
    have h2 : -1 ≤ (fo : ℝ) / Real.sqrt ((ff * oo : ℚ) : ℝ) := by
      rw [le_div_iff₀ hs]; linarith [(abs_le.mp hab).1]
    rw [if_neg (not_lt.mpr h1), if_neg (not_lt.mpr h2)]
    push_cast
    rfl

/-- Anomalies in two batches. -/
example : Sal1l2Data { cols := ["total", "fabar", "oabar", "foabar", "ffabar", "ooabar"]
                       rows := [[some 2, some 2, some 1, some (5 / 2), some 5, some (5 / 4)],
                                [some 1, some 4, some 2, some 8, some 16, some 4]] }
    [[(1, 1 / 2), (3, 3 / 2)], [(4, 2)]] where
  rows_ne := by simp
  batch_ne := by simp
  total := ⟨0, rfl, by decide, by simp⟩
  fbar := ⟨1, rfl, by decide, by norm_num [avg]⟩
  obar := ⟨2, rfl, by decide, by norm_num [avg]⟩
  fobar := ⟨3, rfl, by decide, by norm_num [avg]⟩
  ffbar := ⟨4, rfl, by decide, by norm_num [avg]⟩
  oobar := ⟨5, rfl, by decide, by norm_num [avg]⟩

end Metcalcpy.Props
