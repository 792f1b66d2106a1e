/-
C274 Exchanging forecasts and observations in SL1L2 lines.
-/
import Verif.Props.C271_Units

namespace Metcalcpy.Props
open Metcalcpy Spec

section
variable (P : List Pair)

theorem avg_fst_swap : avg Prod.fst (P.map Prod.swap) = avg Prod.snd P ∧ avg Prod.snd (P.map Prod.swap) = avg Prod.fst P := by
  rw [avg_map, avg_map]
  exact ⟨rfl, rfl⟩

theorem meanError_swap : meanError (P.map Prod.swap) = -meanError P := by
  unfold meanError
  rw [avg_map, ← neg_one_mul, ← Metcalcpy.avg_mul_left]
  exact Metcalcpy.avg_congr P (fun p => by simp only [Prod.swap]; ring)

theorem mse_swap : meanSquaredError (P.map Prod.swap) = meanSquaredError P := by
  unfold meanSquaredError
  rw [avg_map]
  exact Metcalcpy.avg_congr P (fun p => by simp only [Prod.swap]; ring)

theorem mae_swap : meanAbsError (P.map Prod.swap) = meanAbsError P := by
  unfold meanAbsError
  rw [avg_map]
  exact Metcalcpy.avg_congr P (fun p => abs_sub_comm _ _)

theorem variance_swap : variance Prod.fst (P.map Prod.swap) = variance Prod.snd P ∧ variance Prod.snd (P.map Prod.swap) = variance Prod.fst P ∧
    covariance (P.map Prod.swap) = covariance P := by
  obtain ⟨h1, h2⟩ := avg_fst_swap P
  unfold variance covariance
  rw [h1, h2, avg_map, avg_map, avg_map]
  refine ⟨rfl, rfl, Metcalcpy.avg_congr P (fun p => by simp only [Prod.swap]; ring)⟩

theorem sampleVariance_swap : sampleVariance Prod.fst (P.map Prod.swap) = sampleVariance Prod.snd P ∧
    sampleVariance Prod.snd (P.map Prod.swap) = sampleVariance Prod.fst P := by
  obtain ⟨h1, h2⟩ := avg_fst_swap P
  unfold sampleVariance
  rw [h1, h2, List.map_map, List.map_map, List.length_map]
  exact ⟨rfl, rfl⟩

theorem pearson_swap : pearson (P.map Prod.swap) = pearson P := by
  obtain ⟨h1, h2, h3⟩ := variance_swap P
  unfold pearson
  rw [h1, h2, h3, mul_comm]

end

theorem flatten_swap (bs : List (List Pair)) : (bs.map (List.map Prod.swap)).flatten = bs.flatten.map Prod.swap := by
  rw [List.map_flatten]

/-- A number in the middle between two neighbouring numbers with 7 decimals. -/
def Halfway (x : ℚ) : Prop := ∃ n : ℤ, x = (n + 1 / 2) / 10 ^ 7

/-- Rounding the opposite number gives the opposite, except for numbers in the middle, where the two are apart by one unit of the
last decimal. -/
theorem round_neg (x : ℚ) : (¬ Halfway x → roundHalfUp (-x) 7 = -roundHalfUp x 7) ∧
    (Halfway x → roundHalfUp (-x) 7 = -roundHalfUp x 7 + 1 / 10 ^ 7) := by
  have h7 : ((10 : ℚ) ^ (7 : ℤ)) = 10 ^ 7 := by norm_cast
  unfold roundHalfUp
  rw [h7]
  constructor
  · intro h
    have e : ⌊-x * 10 ^ 7 + 1 / 2⌋ = -⌊x * 10 ^ 7 + 1 / 2⌋ := by
      rw [Int.floor_eq_iff]
      have a := Int.floor_le (x * 10 ^ 7 + 1 / 2 : ℚ)
      have b := Int.lt_floor_add_one (x * 10 ^ 7 + 1 / 2 : ℚ)
      have c : ((⌊x * 10 ^ 7 + 1 / 2⌋ : ℤ) : ℚ) ≠ x * 10 ^ 7 + 1 / 2 := by
        intro hc
        refine h ⟨⌊x * 10 ^ 7 + 1 / 2⌋ - 1, ?_⟩
        push_cast
        rw [hc]
        ring
      have d := lt_of_le_of_ne a c
      push_cast
      constructor <;> linarith
    rw [e]
    push_cast
    ring
  · rintro ⟨n, rfl⟩
    have e1 : -((n + 1 / 2 : ℚ) / 10 ^ 7) * 10 ^ 7 + 1 / 2 = ((-n : ℤ) : ℚ) := by push_cast; ring
    have e2 : ((n + 1 / 2 : ℚ) / 10 ^ 7) * 10 ^ 7 + 1 / 2 = ((n + 1 : ℤ) : ℚ) := by push_cast; ring
    rw [e1, e2, Int.floor_intCast, Int.floor_intCast]
    push_cast
    ring

/-- C274: with forecasts and observations exchanged, the correlation, MSE, RMSE and MAE of a group of SL1L2 lines are the same,
the means and the standard deviations are exchanged, MBIAS becomes its reciprocal, and ME changes its sign, apart from the last
decimal of values in the middle between two roundings. -/
theorem C274_exchange_partial (t t' : Table) (bs : List (List Pair)) (D : Sl1l2Data t bs) (D' : Sl1l2Data t' (bs.map (List.map Prod.swap))) :
    aggregated "pr_corr" slPrCorr t' = aggregated "pr_corr" slPrCorr t ∧ aggregated "mse" slMse t' = aggregated "mse" slMse t ∧
    aggregated "rmse" slRmse t' = aggregated "rmse" slRmse t ∧
    (CompleteColumn t "mae" (bs.map meanAbsError) → CompleteColumn t' "mae" ((bs.map (List.map Prod.swap)).map meanAbsError) →
      aggregated "mae" (slMean "mae") t' = aggregated "mae" (slMean "mae") t) ∧
    aggregated "fbar" (slMean "fbar") t' = aggregated "obar" (slMean "obar") t ∧
    aggregated "obar" (slMean "obar") t' = aggregated "fbar" (slMean "fbar") t ∧
    aggregated "fstdev" slFstdev t' = aggregated "ostdev" slOstdev t ∧ aggregated "ostdev" slOstdev t' = aggregated "fstdev" slFstdev t ∧
    (avg Prod.fst bs.flatten ≠ 0 → avg Prod.snd bs.flatten ≠ 0 → ∃ x : ℚ, aggregated "mbias" slMbias t = .ok (some (roundHalfUp x 7)) ∧
      aggregated "mbias" slMbias t' = .ok (some (roundHalfUp (1 / x) 7))) ∧
    ∃ v w : ℚ, aggregated "me" slMe t = .ok (some v) ∧ aggregated "me" slMe t' = .ok (some w) ∧
      (¬ Halfway (meanError bs.flatten) → w = -v ∧ aggregated "me2" slMe2 t' = aggregated "me2" slMe2 t ∧
        aggregated "bcmse" slBcmse t' = aggregated "bcmse" slBcmse t) ∧
      (Halfway (meanError bs.flatten) → w = -v + 1 / 10 ^ 7) := by
  have m := C15_means t bs D
  have m' := C15_means t' _ D'
  have e := C15_me_mse t bs D
  have e' := C15_me_mse t' _ D'
  have s := C95_stdev t bs D
  have s' := C95_stdev t' _ D'
  have b := C95_bias t bs D
  have b' := C95_bias t' _ D'
  obtain ⟨c1, c2⟩ := C17_pr_corr t bs D
  obtain ⟨c1', c2'⟩ := C17_pr_corr t' _ D'
  rw [flatten_swap] at m' e' s' b' c1' c2'
  obtain ⟨v1, v2, -⟩ := variance_swap bs.flatten
  obtain ⟨a1, a2⟩ := avg_fst_swap bs.flatten
  obtain ⟨w1, w2⟩ := sampleVariance_swap bs.flatten
  obtain ⟨r1, r2⟩ := round_neg (meanError bs.flatten)
  refine ⟨?_, ?_, ?_, fun h h' => ?_, ?_, ?_, ?_, ?_, fun hf ho => ?_, _, _, e.1, e'.1, fun h => ⟨?_, ?_, ?_⟩, fun h => ?_⟩
  · rw [v1, v2] at c1' c2'
    by_cases h : 0 < variance Prod.fst bs.flatten ∧ 0 < variance Prod.snd bs.flatten
    · rw [(c1 h).1, (c1' h.symm).1, pearson_swap]
    · rw [c2 h, c2' (fun hh => h hh.symm)]
  · rw [e.2, e'.2, mse_swap]
  · rw [rmse_value D, rmse_value D', flatten_swap, mse_swap]
  · rw [C95_mae t bs D h, C95_mae t' _ D' h', flatten_swap, mae_swap]
  · rw [m'.1, m.2.1]; exact congrArg (fun x => Except.ok (some (roundHalfUp x 7))) a1
  · rw [m'.2.1, m.1]; exact congrArg (fun x => Except.ok (some (roundHalfUp x 7))) a2
  · rw [s'.1, s.2, w1, List.length_map]
  · rw [s'.2, s.1, w2, List.length_map]
  · refine ⟨avg Prod.fst bs.flatten / avg Prod.snd bs.flatten, ?_, ?_⟩
    · rw [b.1, if_neg ho]
    · rw [b'.1, a1, a2, if_neg hf, one_div_div]
  · rw [meanError_swap, r1 h]
  · rw [b.2, b'.2, meanError_swap, r1 h, neg_sq]
  · obtain ⟨p, p1, p2, -⟩ := bcmse_value D
    obtain ⟨p', p1', p2', -⟩ := bcmse_value D'
    rw [aggregated_ok p1, aggregated_ok p1', p2, p2', flatten_swap, mse_swap, meanError_swap, r1 h, neg_sq]
  · rw [meanError_swap, r2 h]

/-! ### Two pairs with mean error 0.00000005 -/

def exTie : Table :=
  { cols := ["total", "fbar", "obar", "fobar", "ffbar", "oobar"]
    rows := [[some 2, some (3 / 2 + 1 / 20000000), some (3 / 2), some (5 / 2 + 1 / 20000000),
      some ((1 + 1 / 10000000) ^ 2 / 2 + 2), some (5 / 2)]] }

def exTieSwapped : Table :=
  { cols := ["total", "fbar", "obar", "fobar", "ffbar", "oobar"]
    rows := [[some 2, some (3 / 2), some (3 / 2 + 1 / 20000000), some (5 / 2 + 1 / 20000000), some (5 / 2),
      some ((1 + 1 / 10000000) ^ 2 / 2 + 2)]] }

def exTiePairs : List (List Pair) := [[(1 + 1 / 10000000, 1), (2, 2)]]

theorem exTie_data : Sl1l2Data exTie exTiePairs where
  rows_ne := by simp [exTie]
  batch_ne := by simp [exTiePairs]
  total := ⟨0, rfl, by simp [exTie], by simp [exTie, exTiePairs]⟩
  fbar := ⟨1, rfl, by simp [exTie], by simp [exTie, exTiePairs, avg]; norm_num⟩
  obar := ⟨2, rfl, by simp [exTie]; decide, by simp [exTie, exTiePairs, avg]; norm_num⟩
  fobar := ⟨3, rfl, by simp [exTie]; decide, by simp [exTie, exTiePairs, avg]; norm_num⟩
  ffbar := ⟨4, rfl, by simp [exTie]; decide, by simp [exTie, exTiePairs, avg]; norm_num⟩
  oobar := ⟨5, rfl, by simp [exTie]; decide, by simp [exTie, exTiePairs, avg]; norm_num⟩

theorem exTieSwapped_data : Sl1l2Data exTieSwapped (exTiePairs.map (List.map Prod.swap)) where
  rows_ne := by simp [exTieSwapped]
  batch_ne := by simp [exTiePairs]
  total := ⟨0, rfl, by simp [exTieSwapped], by simp [exTieSwapped, exTiePairs]⟩
  fbar := ⟨1, rfl, by simp [exTieSwapped], by simp [exTieSwapped, exTiePairs, avg]; norm_num⟩
  obar := ⟨2, rfl, by simp [exTieSwapped]; decide, by simp [exTieSwapped, exTiePairs, avg]; norm_num⟩
  fobar := ⟨3, rfl, by simp [exTieSwapped]; decide, by simp [exTieSwapped, exTiePairs, avg]; norm_num⟩
  ffbar := ⟨4, rfl, by simp [exTieSwapped]; decide, by simp [exTieSwapped, exTiePairs, avg]; norm_num⟩
  oobar := ⟨5, rfl, by simp [exTieSwapped]; decide, by simp [exTieSwapped, exTiePairs, avg]; norm_num⟩

/-- The hypotheses of C274 hold for these lines. -/
example : aggregated "fstdev" slFstdev exTieSwapped = aggregated "ostdev" slOstdev exTie :=
  (C274_exchange_partial _ _ _ exTie_data exTieSwapped_data).2.2.2.2.2.2.1

/-- C274, the sign of ME is not reversed for every group: the mean error 0.00000005 is reported as 0.0000001, and as 0 after the
exchange. -/
theorem C274_tie_counterexample : ∃ (t t' : Table) (bs : List (List Pair)), Sl1l2Data t bs ∧ Sl1l2Data t' (bs.map (List.map Prod.swap)) ∧
    aggregated "me" slMe t = .ok (some (1 / 10 ^ 7)) ∧ aggregated "me" slMe t' = .ok (some 0) := by
  have hm : meanError exTiePairs.flatten = 1 / 20000000 := by norm_num [meanError, exTiePairs, avg]
  refine ⟨exTie, exTieSwapped, exTiePairs, exTie_data, exTieSwapped_data, ?_, ?_⟩
  · rw [(C15_me_mse _ _ exTie_data).1, hm]
    norm_num [roundHalfUp]
  · rw [(C15_me_mse _ _ exTieSwapped_data).1, flatten_swap, meanError_swap, hm]
    norm_num [roundHalfUp]

end Metcalcpy.Props
