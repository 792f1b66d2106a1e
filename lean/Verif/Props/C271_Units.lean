/-
C271 A change of the unit changes the scores of SL1L2 lines accordingly.
-/
import Verif.Props.C248_RootScores

namespace Metcalcpy.Props
open Metcalcpy Spec

/-- A pair in another unit: `a` units per old unit, and the zero of the old unit at `b`. -/
def inUnit (a b : ℚ) (p : Pair) : Pair := (a * p.1 + b, a * p.2 + b)

section
variable (a b : ℚ) (P : List Pair)

theorem avg_map {α β : Type} (g : β → ℚ) (u : α → β) (P : List α) : avg g (P.map u) = avg (fun p => g (u p)) P := by
  unfold avg
  rw [List.map_map, List.length_map]
  rfl

theorem avg_unit {α : Type} (g : α → ℚ) (P : List α) (hn : (P.length : ℚ) ≠ 0) :
    avg (fun p => a * g p + b) P = a * avg g P + b := by
  rw [Metcalcpy.avg_add (fun p => a * g p) (fun _ => b), Metcalcpy.avg_mul_left, Metcalcpy.avg_const b P hn]

theorem means_unit (hn : (P.length : ℚ) ≠ 0) :
    avg Prod.fst (P.map (inUnit a b)) = a * avg Prod.fst P + b ∧ avg Prod.snd (P.map (inUnit a b)) = a * avg Prod.snd P + b := by
  rw [avg_map, avg_map]
  exact ⟨avg_unit a b Prod.fst P hn, avg_unit a b Prod.snd P hn⟩

theorem meanError_unit : meanError (P.map (inUnit a b)) = a * meanError P := by
  unfold meanError
  rw [avg_map, ← Metcalcpy.avg_mul_left]
  exact Metcalcpy.avg_congr P (fun p => by simp only [inUnit]; ring)

theorem mse_unit : meanSquaredError (P.map (inUnit a b)) = a ^ 2 * meanSquaredError P := by
  unfold meanSquaredError
  rw [avg_map, ← Metcalcpy.avg_mul_left]
  exact Metcalcpy.avg_congr P (fun p => by simp only [inUnit]; ring)

theorem mae_unit : meanAbsError (P.map (inUnit a b)) = |a| * meanAbsError P := by
  unfold meanAbsError
  rw [avg_map, ← Metcalcpy.avg_mul_left]
  exact Metcalcpy.avg_congr P (fun p => by rw [← abs_mul]; simp only [inUnit]; ring_nf)

theorem bcmse_unit : biasCorrectedMse (P.map (inUnit a b)) = a ^ 2 * biasCorrectedMse P := by
  unfold biasCorrectedMse
  rw [meanError_unit, avg_map, ← Metcalcpy.avg_mul_left]
  exact Metcalcpy.avg_congr P (fun p => by simp only [inUnit]; ring)

theorem variance_unit (hn : (P.length : ℚ) ≠ 0) :
    variance Prod.fst (P.map (inUnit a b)) = a ^ 2 * variance Prod.fst P ∧
    variance Prod.snd (P.map (inUnit a b)) = a ^ 2 * variance Prod.snd P ∧
    covariance (P.map (inUnit a b)) = a ^ 2 * covariance P := by
  obtain ⟨h1, h2⟩ := means_unit a b P hn
  unfold variance covariance
  rw [h1, h2, avg_map, avg_map, avg_map]
  generalize avg Prod.fst P = m
  generalize avg Prod.snd P = n
  simp only [← Metcalcpy.avg_mul_left]
  refine ⟨?_, ?_, ?_⟩ <;> exact Metcalcpy.avg_congr P (fun p => by simp only [inUnit]; ring)

theorem sampleVariance_unit (hn : (P.length : ℚ) ≠ 0) :
    sampleVariance Prod.fst (P.map (inUnit a b)) = a ^ 2 * sampleVariance Prod.fst P ∧
    sampleVariance Prod.snd (P.map (inUnit a b)) = a ^ 2 * sampleVariance Prod.snd P := by
  obtain ⟨h1, h2⟩ := means_unit a b P hn
  unfold sampleVariance
  rw [h1, h2, List.map_map, List.map_map, List.length_map]
  have e : ∀ g : Pair → ℚ, ∀ m, (P.map (fun p => (a * g p + b - (a * m + b)) ^ 2)).sum = a ^ 2 * (P.map (fun p => (g p - m) ^ 2)).sum := by
    intro g m
    rw [← List.sum_map_mul_left]
    congr 1
    refine List.map_congr_left (fun p _ => ?_)
    ring
  constructor
  · rw [← mul_div_assoc, ← e Prod.fst]; rfl
  · rw [← mul_div_assoc, ← e Prod.snd]; rfl

theorem pearson_unit (ha : a ≠ 0) (hn : (P.length : ℚ) ≠ 0) : pearson (P.map (inUnit a b)) = pearson P := by
  obtain ⟨h1, h2, h3⟩ := variance_unit a b P hn
  unfold pearson
  rw [h1, h2, h3]
  push_cast
  have hsq : ∀ x : ℝ, √((a : ℝ) ^ 2 * x) = |(a : ℝ)| * √x := by
    intro x
    rw [Real.sqrt_mul (sq_nonneg _), Real.sqrt_sq_eq_abs]
  rw [hsq, hsq]
  have h0 : (a : ℝ) ≠ 0 := by exact_mod_cast ha
  have : |(a : ℝ)| * √(variance Prod.fst P : ℝ) * (|(a : ℝ)| * √(variance Prod.snd P : ℝ)) =
      (a : ℝ) ^ 2 * (√(variance Prod.fst P : ℝ) * √(variance Prod.snd P : ℝ)) := by
    rw [← sq_abs (a : ℝ)]; ring
  rw [this, mul_div_mul_left _ _ (pow_ne_zero 2 h0)]

end

theorem flatten_unit (a b : ℚ) (bs : List (List Pair)) : (bs.map (List.map (inUnit a b))).flatten = bs.flatten.map (inUnit a b) := by
  rw [List.map_flatten]

theorem pool_length {t : Table} {bs : List (List Pair)} (D : Sl1l2Data t bs) : (bs.flatten.length : ℚ) ≠ 0 := by
  have : bs ≠ [] := by
    rintro rfl
    obtain ⟨i, _, _, h⟩ := D.total
    exact D.rows_ne (by simpa using h)
  cases bs with
  | nil => exact absurd rfl this
  | cons x xs =>
    have hx := D.batch_ne x (by simp)
    have : 0 < x.length := List.length_pos_iff.mpr hx
    have h2 : (x :: xs).flatten.length ≠ 0 := by
      rw [List.flatten_cons, List.length_append]; omega
    exact_mod_cast h2

/-- C271: the correlation of a group of SL1L2 lines does not depend on the unit of forecasts and observations, for any scale
other than 0 and any offset. -/
theorem C271_correlation (a b : ℚ) (ha : a ≠ 0) (t t' : Table) (bs : List (List Pair)) (D : Sl1l2Data t bs)
    (D' : Sl1l2Data t' (bs.map (List.map (inUnit a b)))) :
    aggregated "pr_corr" slPrCorr t' = aggregated "pr_corr" slPrCorr t := by
  have hn := pool_length D
  obtain ⟨h1, h2⟩ := C17_pr_corr t bs D
  obtain ⟨h1', h2'⟩ := C17_pr_corr t' _ D'
  rw [flatten_unit] at h1' h2'
  obtain ⟨v1, v2, -⟩ := variance_unit a b bs.flatten hn
  have hpos : ∀ x : ℚ, 0 < a ^ 2 * x ↔ 0 < x := fun x => by
    have : 0 < a ^ 2 := by positivity
    exact mul_pos_iff_of_pos_left this
  rw [v1, v2, hpos, hpos] at h1' h2'
  by_cases h : 0 < variance Prod.fst bs.flatten ∧ 0 < variance Prod.snd bs.flatten
  · rw [(h1 h).1, (h1' h).1, pearson_unit a b _ ha hn]
  · rw [h2 h, h2' h]

/-- C271: means are converted to the other unit; mean error, mean absolute error and standard deviations are multiplied by the
scale, the mean squared error by its square; offsets have no influence on them. -/
theorem C271_scores_partial (a b : ℚ) (t t' : Table) (bs : List (List Pair)) (D : Sl1l2Data t bs)
    (D' : Sl1l2Data t' (bs.map (List.map (inUnit a b)))) (P : List Pair) (hP : P = bs.flatten) :
    (aggregated "fbar" (slMean "fbar") t = .ok (some (roundHalfUp (avg Prod.fst P) 7)) ∧
      aggregated "fbar" (slMean "fbar") t' = .ok (some (roundHalfUp (a * avg Prod.fst P + b) 7))) ∧
    (aggregated "obar" (slMean "obar") t = .ok (some (roundHalfUp (avg Prod.snd P) 7)) ∧
      aggregated "obar" (slMean "obar") t' = .ok (some (roundHalfUp (a * avg Prod.snd P + b) 7))) ∧
    (aggregated "me" slMe t = .ok (some (roundHalfUp (meanError P) 7)) ∧
      aggregated "me" slMe t' = .ok (some (roundHalfUp (a * meanError P) 7))) ∧
    (aggregated "mse" slMse t = .ok (some (roundHalfUp (meanSquaredError P) 7)) ∧
      aggregated "mse" slMse t' = .ok (some (roundHalfUp (a ^ 2 * meanSquaredError P) 7))) ∧
    (P.length ≠ 1 → aggregated "fstdev" slFstdev t = .ok (some (roundHalfUp (√(sampleVariance Prod.fst P : ℝ)) 7)) ∧
      aggregated "fstdev" slFstdev t' = .ok (some (roundHalfUp (|(a : ℝ)| * √(sampleVariance Prod.fst P : ℝ)) 7))) ∧
    (P.length ≠ 1 → aggregated "ostdev" slOstdev t = .ok (some (roundHalfUp (√(sampleVariance Prod.snd P : ℝ)) 7)) ∧
      aggregated "ostdev" slOstdev t' = .ok (some (roundHalfUp (|(a : ℝ)| * √(sampleVariance Prod.snd P : ℝ)) 7))) ∧
    (CompleteColumn t "mae" (bs.map meanAbsError) →
      CompleteColumn t' "mae" ((bs.map (List.map (inUnit a b))).map meanAbsError) →
      aggregated "mae" (slMean "mae") t = .ok (some (roundHalfUp (meanAbsError P) 7)) ∧
      aggregated "mae" (slMean "mae") t' = .ok (some (roundHalfUp (|a| * meanAbsError P) 7))) := by
  subst hP
  have hn := pool_length D
  have m := C15_means t bs D
  have m' := C15_means t' _ D'
  have e := C15_me_mse t bs D
  have e' := C15_me_mse t' _ D'
  have s := C95_stdev t bs D
  have s' := C95_stdev t' _ D'
  rw [flatten_unit] at m' e' s'
  obtain ⟨u1, u2⟩ := means_unit a b bs.flatten hn
  obtain ⟨w1, w2⟩ := sampleVariance_unit a b bs.flatten hn
  have hsq : ∀ x : ℚ, √((a ^ 2 * x : ℚ) : ℝ) = |(a : ℝ)| * √(x : ℝ) := by
    intro x
    push_cast
    rw [Real.sqrt_mul (sq_nonneg _), Real.sqrt_sq_eq_abs]
  refine ⟨⟨m.1, ?_⟩, ⟨m.2.1, ?_⟩, ⟨e.1, ?_⟩, ⟨e.2, ?_⟩, fun hl => ⟨?_, ?_⟩, fun hl => ⟨?_, ?_⟩, fun h h' => ⟨C95_mae t bs D h, ?_⟩⟩
  · rw [m'.1, ← u1]
  · rw [m'.2.1, ← u2]
  · rw [e'.1, meanError_unit]
  · rw [e'.2, mse_unit]
  · rw [s.1, if_neg hl]
  · rw [s'.1, List.length_map, if_neg hl, w1, hsq]
  · rw [s.2, if_neg hl]
  · rw [s'.2, List.length_map, if_neg hl, w2, hsq]
  · rw [C95_mae t' _ D' h', flatten_unit, mae_unit]

/-- The printed root of a rounded mean square lies within 1/4000 of the root, and within 10⁻⁷ of it for mean squares of at least 1. -/
theorem rmse_near {t : Table} {bs : List (List Pair)} (D : Sl1l2Data t bs) : ∃ v : ℝ, aggregated "rmse" slRmse t = .ok (.ok (some v)) ∧
    |v - √(meanSquaredError bs.flatten : ℝ)| ≤ 1 / 4000 ∧
    (1 ≤ meanSquaredError bs.flatten → |v - √(meanSquaredError bs.flatten : ℝ)| ≤ 1 / 10 ^ 7) := by
  refine ⟨_, rmse_value D, ?_⟩
  have h0 : 0 ≤ meanSquaredError bs.flatten := avg_nonneg_sq _ _
  generalize meanSquaredError bs.flatten = m at *
  have ha : (0 : ℝ) ≤ ((roundHalfUp m 7 : ℚ) : ℝ) := by exact_mod_cast round7_nonneg h0
  have hm' : (0 : ℝ) ≤ (m : ℝ) := by exact_mod_cast h0
  have hd := sqrt_sub_sq _ _ ha hm'
  have hr := round_rat_real m
  have h2 := round_real (√((roundHalfUp m 7 : ℚ) : ℝ))
  have h4 := abs_sub_le (roundHalfUp (√((roundHalfUp m 7 : ℚ) : ℝ)) 7) √((roundHalfUp m 7 : ℚ) : ℝ) √(m : ℝ)
  generalize roundHalfUp (√((roundHalfUp m 7 : ℚ) : ℝ)) 7 = v at *
  generalize ((roundHalfUp m 7 : ℚ) : ℝ) = x at *
  constructor
  · have h3 : |√x - √(m : ℝ)| ≤ 23 / 10 ^ 5 := by
      apply abs_le_of_sq_le_sq
      · refine le_trans hd (le_trans hr ?_)
        norm_num
      · norm_num
    norm_num at *
    linarith
  · intro h1
    have hs1 : 1 ≤ √(m : ℝ) := by
      rw [Real.one_le_sqrt]
      exact_mod_cast h1
    have h3 : |√x - √(m : ℝ)| ≤ 1 / 2 / 10 ^ 7 := by
      refine le_trans ?_ hr
      have e : x - m = (√x - √(m : ℝ)) * (√x + √(m : ℝ)) := by
        have h1 := Real.mul_self_sqrt ha
        have h2 := Real.mul_self_sqrt hm'
        nlinarith
      rw [e, abs_mul]
      refine le_mul_of_one_le_right (abs_nonneg _) ?_
      have h4 := Real.sqrt_nonneg x
      rw [abs_of_nonneg (by linarith)]
      linarith
    norm_num at *
    linarith

/-- C271: the RMSE is multiplied by the scale up to 1/4000 of either unit, and up to 10⁻⁷ of either unit when the mean squared
error is at least 1 in both. -/
theorem C271_rmse_partial (a b : ℚ) (t t' : Table) (bs : List (List Pair)) (D : Sl1l2Data t bs)
    (D' : Sl1l2Data t' (bs.map (List.map (inUnit a b)))) :
    ∃ v v' : ℝ, aggregated "rmse" slRmse t = .ok (.ok (some v)) ∧ aggregated "rmse" slRmse t' = .ok (.ok (some v')) ∧
      |v' - |(a : ℝ)| * v| ≤ (1 + |(a : ℝ)|) / 4000 ∧
      (1 ≤ meanSquaredError bs.flatten → 1 ≤ a ^ 2 * meanSquaredError bs.flatten →
        |v' - |(a : ℝ)| * v| ≤ (1 + |(a : ℝ)|) / 10 ^ 7) := by
  obtain ⟨v, e, n1, n2⟩ := rmse_near D
  obtain ⟨v', e', n1', n2'⟩ := rmse_near D'
  rw [flatten_unit, mse_unit] at n1' n2'
  have hs : √((a ^ 2 * meanSquaredError bs.flatten : ℚ) : ℝ) = |(a : ℝ)| * √(meanSquaredError bs.flatten : ℝ) := by
    push_cast
    rw [Real.sqrt_mul (sq_nonneg _), Real.sqrt_sq_eq_abs]
  rw [hs] at n1' n2'
  have key : ∀ d : ℝ, |v - √(meanSquaredError bs.flatten : ℝ)| ≤ d →
      |v' - |(a : ℝ)| * √(meanSquaredError bs.flatten : ℝ)| ≤ d → |v' - |(a : ℝ)| * v| ≤ (1 + |(a : ℝ)|) * d := by
    intro d h1 h2
    have h3 : |(|(a : ℝ)| * √(meanSquaredError bs.flatten : ℝ)) - |(a : ℝ)| * v| ≤ |(a : ℝ)| * d := by
      rw [← mul_sub, abs_mul, abs_abs, abs_sub_comm]
      exact mul_le_mul_of_nonneg_left h1 (abs_nonneg _)
    have := abs_sub_le v' (|(a : ℝ)| * √(meanSquaredError bs.flatten : ℝ)) (|(a : ℝ)| * v)
    linarith
  refine ⟨v, v', e, e', ?_, fun h h' => ?_⟩
  · rw [div_eq_mul_one_div]; exact key _ n1 n1'
  · rw [div_eq_mul_one_div]; exact key _ (n2 h) (n2' h')

/-! ### Specific humidity in kg/kg and in g/kg: both forecasts are too moist by 0.0001 kg/kg -/

def exHumidity : Table :=
  { cols := ["total", "fbar", "obar", "fobar", "ffbar", "oobar"]
    rows := [[some 2, some (103 / 10000), some (102 / 10000), some (1051 / 10000000), some (10613 / 100000000),
      some (10408 / 100000000)]] }

def exGrams : Table :=
  { cols := ["total", "fbar", "obar", "fobar", "ffbar", "oobar"]
    rows := [[some 2, some (103 / 10), some (102 / 10), some (1051 / 10), some (10613 / 100), some (10408 / 100)]] }

def exMoist : List (List Pair) := [[(101 / 10000, 100 / 10000), (105 / 10000, 104 / 10000)]]

theorem exHumidity_data : Sl1l2Data exHumidity exMoist where
  rows_ne := by simp [exHumidity]
  batch_ne := by simp [exMoist]
  total := ⟨0, rfl, by simp [exHumidity], by simp [exHumidity, exMoist]⟩
  fbar := ⟨1, rfl, by simp [exHumidity], by simp [exHumidity, exMoist, avg]; norm_num⟩
  obar := ⟨2, rfl, by simp [exHumidity]; decide, by simp [exHumidity, exMoist, avg]; norm_num⟩
  fobar := ⟨3, rfl, by simp [exHumidity]; decide, by simp [exHumidity, exMoist, avg]; norm_num⟩
  ffbar := ⟨4, rfl, by simp [exHumidity]; decide, by simp [exHumidity, exMoist, avg]; norm_num⟩
  oobar := ⟨5, rfl, by simp [exHumidity]; decide, by simp [exHumidity, exMoist, avg]; norm_num⟩

theorem exGrams_data : Sl1l2Data exGrams (exMoist.map (List.map (inUnit 1000 0))) where
  rows_ne := by simp [exGrams]
  batch_ne := by simp [exMoist]
  total := ⟨0, rfl, by simp [exGrams], by simp [exGrams, exMoist]⟩
  fbar := ⟨1, rfl, by simp [exGrams], by simp [exGrams, exMoist, avg, inUnit]; norm_num⟩
  obar := ⟨2, rfl, by simp [exGrams]; decide, by simp [exGrams, exMoist, avg, inUnit]; norm_num⟩
  fobar := ⟨3, rfl, by simp [exGrams]; decide, by simp [exGrams, exMoist, avg, inUnit]; norm_num⟩
  ffbar := ⟨4, rfl, by simp [exGrams]; decide, by simp [exGrams, exMoist, avg, inUnit]; norm_num⟩
  oobar := ⟨5, rfl, by simp [exGrams]; decide, by simp [exGrams, exMoist, avg, inUnit]; norm_num⟩

example : aggregated "pr_corr" slPrCorr exGrams = aggregated "pr_corr" slPrCorr exHumidity :=
  C271_correlation 1000 0 (by norm_num) _ _ _ exHumidity_data exGrams_data

example : aggregated "me" slMe exHumidity = .ok (some (roundHalfUp (1 / 10000) 7)) ∧
    aggregated "me" slMe exGrams = .ok (some (roundHalfUp (1 / 10) 7)) := by
  have h := (C271_scores_partial 1000 0 _ _ _ exHumidity_data exGrams_data _ rfl).2.2.1
  have e : meanError exMoist.flatten = 1 / 10000 := by norm_num [meanError, exMoist, avg]
  rw [e] at h
  refine ⟨h.1, ?_⟩
  rw [h.2]
  norm_num

/-- C271, the property is false for scores computed from the rounded mean squared error: with forecasts of specific humidity too
high by 0.0001 kg/kg everywhere, the RMSE is 0 and the skill score 1 (perfect) in kg/kg, while in g/kg the RMSE is 0.1 and the
skill score at most 0.9. -/
theorem C271_humidity_counterexample : ∃ (t t' : Table) (bs : List (List Pair)), Sl1l2Data t bs ∧
    Sl1l2Data t' (bs.map (List.map (inUnit 1000 0))) ∧ (∀ p ∈ bs.flatten, p.1 - p.2 = 1 / 10000) ∧
    aggregated "rmse" slRmse t = .ok (.ok (some 0)) ∧ aggregated "rmse" slRmse t' = .ok (.ok (some (1 / 10))) ∧
    aggregated "msess" slMsess t = .ok (some 1) ∧ ∃ v, aggregated "msess" slMsess t' = .ok (some v) ∧ v ≤ 9 / 10 := by
  have hm : meanSquaredError exMoist.flatten = 1 / 100000000 := by norm_num [meanSquaredError, exMoist, avg]
  have hv : sampleVariance Prod.snd exMoist.flatten = 8 / 100000000 := by norm_num [sampleVariance, exMoist, avg]
  have hl : exMoist.flatten.length = 2 := rfl
  have r0 : roundHalfUp (1 / 100000000 : ℚ) 7 = 0 := by norm_num [roundHalfUp]
  have r1 : roundHalfUp (1 / 100 : ℚ) 7 = 1 / 100 := by norm_num [roundHalfUp]
  refine ⟨exHumidity, exGrams, exMoist, exHumidity_data, exGrams_data, ?_, ?_, ?_, ?_, ?_⟩
  · simp [exMoist]; norm_num
  · rw [rmse_value exHumidity_data, hm, r0]
    norm_num [roundHalfUp]
  · rw [rmse_value exGrams_data, flatten_unit, mse_unit, hm]
    have : (1000 : ℚ) ^ 2 * (1 / 100000000) = 1 / 100 := by norm_num
    rw [this, r1]
    have : √(((1 / 100 : ℚ)) : ℝ) = 1 / 10 := by
      rw [show (((1 / 100 : ℚ)) : ℝ) = (1 / 10) ^ 2 by norm_num]
      exact Real.sqrt_sq (by norm_num)
    rw [this]
    norm_num [roundHalfUp]
  · rw [(C95_msess _ _ exHumidity_data).1, hm, hv, hl, r0]
    have hs : 2 / 10000 ≤ √((8 / 100000000 : ℚ) : ℝ) := by
      apply Real.le_sqrt_of_sq_le
      norm_num
    have h2 := abs_le.mp (round_real (√((8 / 100000000 : ℚ) : ℝ)))
    have h3 : roundHalfUp (√((8 / 100000000 : ℚ) : ℝ)) 7 ≠ 0 := by
      intro h
      rw [h] at h2
      have := h2.1
      norm_num at this hs
      linarith
    rw [if_neg (by rintro (h | h); · cases h
                   · exact h3 h)]
    norm_num [roundHalfUp]
  · have hm' : meanSquaredError (exMoist.map (List.map (inUnit 1000 0))).flatten = 1 / 100 := by
      rw [flatten_unit, mse_unit, hm]; norm_num
    have hv' : sampleVariance Prod.snd (exMoist.map (List.map (inUnit 1000 0))).flatten = 8 / 100 := by
      rw [flatten_unit, (sampleVariance_unit 1000 0 exMoist.flatten (by rw [hl]; norm_num)).2, hv]; norm_num
    have hl' : (exMoist.map (List.map (inUnit 1000 0))).flatten.length = 2 := rfl
    have hu : √((8 / 100 : ℚ) : ℝ) ≤ 29 / 100 := by
      rw [Real.sqrt_le_left (by norm_num)]
      norm_num
    have hs : 2 / 10 ≤ √((8 / 100 : ℚ) : ℝ) := by
      apply Real.le_sqrt_of_sq_le
      norm_num
    have h2 := abs_le.mp (round_real (√((8 / 100 : ℚ) : ℝ)))
    have key := (C95_msess _ _ exGrams_data).1
    rw [hm', hv', hl', r1] at key
    generalize √((8 / 100 : ℚ) : ℝ) = x at *
    generalize roundHalfUp x 7 = y at *
    have h3 : 1 / 10 ≤ y := by
      have := h2.1
      norm_num at this hs ⊢
      linarith
    have h4 : y ≤ 3 / 10 := by
      have := h2.2
      norm_num at this hu ⊢
      linarith
    rw [if_neg (by rintro (h | h); · cases h
                   · linarith)] at key
    refine ⟨_, key, ?_⟩
    have h5 := abs_le.mp (round_real (1 - ((1 / 100 : ℚ) : ℝ) / y ^ 2))
    have h6 : (1 / 9 : ℝ) ≤ ((1 / 100 : ℚ) : ℝ) / y ^ 2 := by
      rw [le_div_iff₀ (by positivity)]
      push_cast
      nlinarith
    have := h5.2
    norm_num at this h6 ⊢
    linarith

end Metcalcpy.Props
