/-
C275 Mean error, mean absolute error and root mean squared error of a group are ordered.
-/
import Verif.Props.C274_Sl1l2Exchange

namespace Metcalcpy.Props
open Metcalcpy Spec

theorem abs_meanError_le (P : List Pair) : |meanError P| ≤ meanAbsError P := by
  unfold meanError meanAbsError avg
  rw [abs_div, abs_of_nonneg (Nat.cast_nonneg (α := ℚ) P.length)]
  refine div_le_div_of_nonneg_right ?_ (Nat.cast_nonneg _)
  induction P with
  | nil => simp
  | cons p P ih =>
    rw [List.map_cons, List.sum_cons, List.map_cons, List.sum_cons]
    exact (abs_add_le _ _).trans (by linarith)

theorem sq_meanAbsError_le (P : List Pair) (hn : (P.length : ℚ) ≠ 0) : meanAbsError P ^ 2 ≤ meanSquaredError P := by
  have h0 : 0 ≤ avg (fun p : Pair => (|p.1 - p.2| - meanAbsError P) ^ 2) P := Metcalcpy.avg_nonneg_sq _ _
  have e : avg (fun p : Pair => (|p.1 - p.2| - meanAbsError P) ^ 2) P = meanSquaredError P - meanAbsError P ^ 2 := by
    have h1 : avg (fun p : Pair => (|p.1 - p.2| - meanAbsError P) ^ 2) P =
        avg (fun p : Pair => (p.1 - p.2) ^ 2 + ((-2 * meanAbsError P) * |p.1 - p.2| + meanAbsError P ^ 2)) P :=
      Metcalcpy.avg_congr P (fun p => by rw [← sq_abs (p.1 - p.2)]; ring)
    rw [h1, Metcalcpy.avg_add (fun p : Pair => (p.1 - p.2) ^ 2), Metcalcpy.avg_add (fun p : Pair => (-2 * meanAbsError P) * |p.1 - p.2|),
      Metcalcpy.avg_mul_left, Metcalcpy.avg_const _ P hn]
    unfold meanSquaredError
    change _ + (-2 * meanAbsError P * meanAbsError P + _) = _
    ring
  rw [e] at h0
  linarith

theorem round7_cast (x : ℚ) : ((roundHalfUp x 7 : ℚ) : ℝ) = roundHalfUp (x : ℝ) 7 := by
  unfold roundHalfUp
  have e : (⌊(x : ℝ) * 10 ^ (7 : ℤ) + 1 / 2⌋ : ℤ) = ⌊x * 10 ^ (7 : ℤ) + 1 / 2⌋ := by
    rw [← Rat.floor_cast (α := ℝ)]
    norm_num
  rw [e]
  norm_num

theorem abs_round_le (x y : ℚ) (h : |x| ≤ y) : |roundHalfUp x 7| ≤ roundHalfUp y 7 := by
  rw [abs_le] at h ⊢
  have h2 : roundHalfUp x 7 ≤ roundHalfUp y 7 := roundHalfUp_mono h.2 7
  have h1 : roundHalfUp (-y) 7 ≤ roundHalfUp x 7 := roundHalfUp_mono h.1 7
  obtain ⟨a, b⟩ := round_neg y
  refine ⟨?_, h2⟩
  by_cases hy : Halfway y
  · rw [b hy] at h1
    linarith [show (0 : ℚ) < 1 / 10 ^ 7 by norm_num]
  · rw [a hy] at h1
    exact h1

/-- C275: the reported mean error is never larger in size than the reported mean absolute error of the same group. -/
theorem C275_me_mae (t : Table) (bs : List (List Pair)) (D : Sl1l2Data t bs) (hmae : CompleteColumn t "mae" (bs.map meanAbsError)) :
    ∃ me mae : ℚ, aggregated "me" slMe t = .ok (some me) ∧ aggregated "mae" (slMean "mae") t = .ok (some mae) ∧ |me| ≤ mae :=
  ⟨_, _, (C15_me_mse t bs D).1, C95_mae t bs D hmae, abs_round_le _ _ (abs_meanError_le _)⟩

/-- C275: the mean absolute error is not larger than the RMSE when the mean squared error is not rounded down; in general it is
larger by at most 1/3900, and by at most two units of the last decimal if the mean squared error is at least 1.  The property
itself is false: `C275_small_errors_counterexample`. -/
theorem C275_mae_rmse_partial (t : Table) (bs : List (List Pair)) (D : Sl1l2Data t bs)
    (hmae : CompleteColumn t "mae" (bs.map meanAbsError)) :
    ∃ (mae : ℚ) (rmse : ℝ), aggregated "mae" (slMean "mae") t = .ok (some mae) ∧ aggregated "rmse" slRmse t = .ok (.ok (some rmse)) ∧
      (∀ mse, aggregated "mse" slMse t = .ok (some mse) → meanSquaredError bs.flatten ≤ mse → (mae : ℝ) ≤ rmse) ∧
      (mae : ℝ) ≤ rmse + 1 / 3900 ∧ (1 ≤ meanSquaredError bs.flatten → (mae : ℝ) ≤ rmse + 2 / 10 ^ 7) := by
  obtain ⟨v, hv, n1, n2⟩ := rmse_near D
  have hn := pool_length D
  have hsq := sq_meanAbsError_le bs.flatten hn
  have h0 : 0 ≤ meanAbsError bs.flatten := (abs_nonneg _).trans (abs_meanError_le _)
  have hle : ∀ m : ℚ, meanSquaredError bs.flatten ≤ m → ((meanAbsError bs.flatten : ℚ) : ℝ) ≤ √(m : ℝ) := by
    intro m hm
    apply Real.le_sqrt_of_sq_le
    exact_mod_cast hsq.trans hm
  have hr := abs_le.mp (round_rat_real (meanAbsError bs.flatten))
  have hs := hle _ le_rfl
  refine ⟨_, v, C95_mae t bs D hmae, hv, fun mse hm hle' => ?_, ?_, fun h => ?_⟩
  · have e := (C15_me_mse t bs D).2
    rw [hm] at e
    simp only [Except.ok.injEq, Option.some.injEq] at e
    have e2 := rmse_value D
    rw [hv, ← e] at e2
    simp only [Except.ok.injEq, Option.some.injEq] at e2
    rw [e2, round7_cast]
    exact roundHalfUp_mono (hle mse hle') 7
  · have := abs_le.mp n1
    have := hr.2
    norm_num at *
    linarith
  · have := abs_le.mp (n2 h)
    have := hr.2
    norm_num at *
    linarith

/-! ### Specific humidity too high by 0.0001 kg/kg everywhere -/

def exHumidityMae : Table :=
  { cols := ["total", "fbar", "obar", "fobar", "ffbar", "oobar", "mae"]
    rows := [[some 2, some (103 / 10000), some (102 / 10000), some (1051 / 10000000), some (10613 / 100000000),
      some (10408 / 100000000), some (1 / 10000)]] }

theorem exHumidityMae_data : Sl1l2Data exHumidityMae exMoist ∧
    CompleteColumn exHumidityMae "mae" (exMoist.map meanAbsError) where
  left :=
    { rows_ne := by simp [exHumidityMae]
      batch_ne := by simp [exMoist]
      total := ⟨0, rfl, by simp [exHumidityMae], by simp [exHumidityMae, exMoist]⟩
      fbar := ⟨1, rfl, by simp [exHumidityMae], by simp [exHumidityMae, exMoist, avg]; norm_num⟩
      obar := ⟨2, rfl, by simp [exHumidityMae]; decide, by simp [exHumidityMae, exMoist, avg]; norm_num⟩
      fobar := ⟨3, rfl, by simp [exHumidityMae]; decide, by simp [exHumidityMae, exMoist, avg]; norm_num⟩
      ffbar := ⟨4, rfl, by simp [exHumidityMae]; decide, by simp [exHumidityMae, exMoist, avg]; norm_num⟩
      oobar := ⟨5, rfl, by simp [exHumidityMae]; decide, by simp [exHumidityMae, exMoist, avg]; norm_num⟩ }
  right := ⟨6, rfl, by simp [exHumidityMae]; decide, by
    simp [exHumidityMae, exMoist, avg, meanAbsError]
    norm_num [abs_of_pos]⟩

/-- C275 is false: with forecasts of specific humidity too high by 0.0001 kg/kg everywhere, ME and MAE are 0.0001 and the RMSE is 0. -/
theorem C275_small_errors_counterexample : ∃ (t : Table) (bs : List (List Pair)), Sl1l2Data t bs ∧
    CompleteColumn t "mae" (bs.map meanAbsError) ∧
    aggregated "me" slMe t = .ok (some (1 / 10000)) ∧ aggregated "mae" (slMean "mae") t = .ok (some (1 / 10000)) ∧
    aggregated "rmse" slRmse t = .ok (.ok (some 0)) := by
  obtain ⟨D, M⟩ := exHumidityMae_data
  have hm : meanSquaredError exMoist.flatten = 1 / 100000000 := by norm_num [meanSquaredError, exMoist, avg]
  have he : meanError exMoist.flatten = 1 / 10000 := by norm_num [meanError, exMoist, avg]
  have ha : meanAbsError exMoist.flatten = 1 / 10000 := by norm_num [meanAbsError, exMoist, avg, abs_of_pos]
  have r0 : roundHalfUp (1 / 100000000 : ℚ) 7 = 0 := by norm_num [roundHalfUp]
  have r1 : roundHalfUp (1 / 10000 : ℚ) 7 = 1 / 10000 := by norm_num [roundHalfUp]
  refine ⟨_, _, D, M, ?_, ?_, ?_⟩
  · rw [(C15_me_mse _ _ D).1, he, r1]
  · rw [C95_mae _ _ D M, ha, r1]
  · rw [rmse_value D, hm, r0]
    norm_num [roundHalfUp]

example : ∃ me mae : ℚ, aggregated "me" slMe exHumidityMae = .ok (some me) ∧
    aggregated "mae" (slMean "mae") exHumidityMae = .ok (some mae) ∧ |me| ≤ mae :=
  C275_me_mae _ _ exHumidityMae_data.1 exHumidityMae_data.2

end Metcalcpy.Props
