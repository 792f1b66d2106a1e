/-
C104  The anomaly correlations of a group are the centred vector correlation of the pooled anomalies (false for VCNT).
-/
import Verif.Props.C69_VectorCorr

namespace Metcalcpy.Props
open Metcalcpy Spec

/-- Covariance of two vector samples: the mean product of the deviations from the mean vectors. -/
def vecCov (P : List WindPair) : ℚ :=
  avg (fun p => (p.uf - avg WindPair.uf P) * (p.uo - avg WindPair.uo P) +
    (p.vf - avg WindPair.vf P) * (p.vo - avg WindPair.vo P)) P

/-- Variance of the forecast and of the observed vectors. -/
def vecVarF (P : List WindPair) : ℚ :=
  avg (fun p => (p.uf - avg WindPair.uf P) ^ 2 + (p.vf - avg WindPair.vf P) ^ 2) P
def vecVarO (P : List WindPair) : ℚ :=
  avg (fun p => (p.uo - avg WindPair.uo P) ^ 2 + (p.vo - avg WindPair.vo P) ^ 2) P

theorem vecCov_eq (P : List WindPair) (hp : 0 < (P.length : ℚ)) :
    vecCov P = avg (windSum "uvfoabar") P - avg WindPair.uf P * avg WindPair.uo P -
      avg WindPair.vf P * avg WindPair.vo P := by
  unfold vecCov
  generalize hU : avg WindPair.uf P = U
  generalize hV : avg WindPair.vf P = V
  generalize hX : avg WindPair.uo P = X
  generalize hY : avg WindPair.vo P = Y
  have e : avg (fun p : WindPair => (p.uf - U) * (p.uo - X) + (p.vf - V) * (p.vo - Y)) P =
      avg (fun p => windSum "uvfoabar" p - X * p.uf - U * p.uo - Y * p.vf - V * p.vo + (U * X + V * Y)) P :=
    avg_congr P (fun p _ => by simp only [windSum]; ring)
  rw [e, avg_add, avg_sub, avg_sub, avg_sub, avg_sub, avg_smul, avg_smul, avg_smul, avg_smul, avg_const P hp, hU, hV,
    hX, hY]
  ring

theorem vecVarF_eq (P : List WindPair) (hp : 0 < (P.length : ℚ)) :
    vecVarF P = avg (windSum "uvffabar") P - avg WindPair.uf P * avg WindPair.uf P -
      avg WindPair.vf P * avg WindPair.vf P := by
  unfold vecVarF
  generalize hU : avg WindPair.uf P = U
  generalize hV : avg WindPair.vf P = V
  have e : avg (fun p : WindPair => (p.uf - U) ^ 2 + (p.vf - V) ^ 2) P =
      avg (fun p => windSum "uvffabar" p - (2 * U) * p.uf - (2 * V) * p.vf + (U * U + V * V)) P :=
    avg_congr P (fun p _ => by simp only [windSum]; ring)
  rw [e, avg_add, avg_sub, avg_sub, avg_smul, avg_smul, avg_const P hp, hU, hV]
  ring

theorem vecVarO_eq (P : List WindPair) (hp : 0 < (P.length : ℚ)) :
    vecVarO P = avg (windSum "uvooabar") P - avg WindPair.uo P * avg WindPair.uo P -
      avg WindPair.vo P * avg WindPair.vo P := by
  unfold vecVarO
  generalize hU : avg WindPair.uo P = U
  generalize hV : avg WindPair.vo P = V
  have e : avg (fun p : WindPair => (p.uo - U) ^ 2 + (p.vo - V) ^ 2) P =
      avg (fun p => windSum "uvooabar" p - (2 * U) * p.uo - (2 * V) * p.vo + (U * U + V * V)) P :=
    avg_congr P (fun p _ => by simp only [windSum]; ring)
  rw [e, avg_add, avg_sub, avg_sub, avg_smul, avg_smul, avg_const P hp, hU, hV]
  ring

/-- C104 (the part that holds): VAL1L2_ANOM_CORR of a group is the centred correlation of the pooled anomaly vectors,
rounded to seven digits; it is missing exactly when the forecast or the observed anomalies do not vary. -/
theorem C104_val1l2_partial (t : Table) (bs : List (List WindPair)) (D : Val1l2Data t bs) :
    aggregated "val1l2_anom_corr" valAnomCorr t = .ok
      (if vecVarF bs.flatten = 0 ∨ vecVarO bs.flatten = 0 then none
       else some (roundHalfUp ((vecCov bs.flatten : ℝ) /
        (Real.sqrt (vecVarF bs.flatten : ℝ) * Real.sqrt (vecVarO bs.flatten : ℝ))) 7)) := by
  obtain ⟨t', h1, -, -, h3, h4⟩ := batch_prepared D "val1l2_anom_corr"
    ["ufabar", "vfabar", "uoabar", "voabar", "uvfoabar", "uvffabar", "uvooabar"] rfl (by decide)
    (by decide) (by decide)
  rw [aggregated_eq h1]
  have hF : 0 ≤ vecVarF bs.flatten := avg_nonneg _ (fun p _ => by positivity)
  have hO : 0 ≤ vecVarO bs.flatten := avg_nonneg _ (fun p _ => by positivity)
  have e1 : avg (windSum "ufabar") bs.flatten = avg WindPair.uf bs.flatten := rfl
  have e2 : avg (windSum "vfabar") bs.flatten = avg WindPair.vf bs.flatten := rfl
  have e3 : avg (windSum "uoabar") bs.flatten = avg WindPair.uo bs.flatten := rfl
  have e4 : avg (windSum "voabar") bs.flatten = avg WindPair.vo bs.flatten := rfl
  simp only [valAnomCorr, h3 "ufabar" (by simp), h3 "vfabar" (by simp), h3 "uoabar" (by simp),
    h3 "voabar" (by simp), h3 "uvfoabar" (by simp), h3 "uvffabar" (by simp), h3 "uvooabar" (by simp),
    bind, Option.bind, calcWindCorr, e1, e2, e3, e4, ← vecCov_eq _ h4, ← vecVarF_eq _ h4, ← vecVarO_eq _ h4]
  rw [if_neg (by push Not; exact ⟨hF, hO⟩)]
  by_cases hz : vecVarF bs.flatten = 0 ∨ vecVarO bs.flatten = 0
  · simp [hz]
  · simp [hz, PRECISION]

/-- C104: what VCNT_ANOM_CORR of a group is: the vectors are not centred by the mean vectors, but the mean products by
the mean speeds; the result is cut off at -1 and 1, and missing unless the product of both variances is positive. -/
theorem C104_vcnt_actual (t : Table) (bs : List (List WindPair)) (D : Val1l2Data t bs) :
    aggregated "vcnt_anom_corr" vcntAnomCorr t = .ok
      (if (avg (fun p => p.uf ^ 2 + p.vf ^ 2) bs.flatten - avg WindPair.fs bs.flatten ^ 2) *
          (avg (fun p => p.uo ^ 2 + p.vo ^ 2) bs.flatten - avg WindPair.os bs.flatten ^ 2) ≤ 0 then none
       else some (max (-1) (min 1 (((avg (fun p => p.uf * p.uo + p.vf * p.vo) bs.flatten -
          avg WindPair.fs bs.flatten * avg WindPair.os bs.flatten : ℚ) : ℝ) /
        Real.sqrt (((avg (fun p => p.uf ^ 2 + p.vf ^ 2) bs.flatten - avg WindPair.fs bs.flatten ^ 2) *
          (avg (fun p => p.uo ^ 2 + p.vo ^ 2) bs.flatten - avg WindPair.os bs.flatten ^ 2) : ℚ) : ℝ))))) := by
  obtain ⟨t', h1, h0, h2, -, h4⟩ := batch_prepared D "vcnt_anom_corr"
    ["uvffabar", "uvfoabar", "uvooabar", "fa_speed_bar", "oa_speed_bar"] rfl (by decide) (by decide) (by decide)
  rw [aggregated_eq h1]
  have eff : avg (fun p : WindPair => p.uf ^ 2 + p.vf ^ 2) bs.flatten =
      avg (windSum "uvffabar") bs.flatten := avg_congr _ (fun p _ => by simp only [windSum]; ring)
  have eoo : avg (fun p : WindPair => p.uo ^ 2 + p.vo ^ 2) bs.flatten =
      avg (windSum "uvooabar") bs.flatten := avg_congr _ (fun p _ => by simp only [windSum]; ring)
  have efo : avg (fun p : WindPair => p.uf * p.uo + p.vf * p.vo) bs.flatten =
      avg (windSum "uvfoabar") bs.flatten := rfl
  have ef : avg WindPair.fs bs.flatten = avg (windSum "fa_speed_bar") bs.flatten := rfl
  have eo : avg WindPair.os bs.flatten = avg (windSum "oa_speed_bar") bs.flatten := rfl
  rw [eff, eoo, efo, ef, eo]
  have toSum : ∀ c : String, (bs.flatten.map (windSum c)).sum =
      (bs.flatten.length : ℚ) * avg (windSum c) bs.flatten := by
    intro c; unfold avg; rw [mul_div_cancel₀ _ h4.ne']
  have hs : ∀ c ∈ ["uvffabar", "uvfoabar", "uvooabar", "fa_speed_bar", "oa_speed_bar"],
      sumColumn t' c = some ((bs.flatten.length : ℚ) * avg (windSum c) bs.flatten) := by
    intro c hc; rw [h2 c hc, toSum]
  simp only [vcntAnomCorr, getTotalValues, h0, if_true, hs "uvffabar" (by simp), hs "uvfoabar" (by simp),
    hs "uvooabar" (by simp), hs "fa_speed_bar" (by simp), hs "oa_speed_bar" (by simp), bind, Option.bind]
  generalize avg (windSum "uvfoabar") bs.flatten = c at *
  generalize avg (windSum "uvffabar") bs.flatten = a at *
  generalize avg (windSum "uvooabar") bs.flatten = b at *
  generalize avg (windSum "fa_speed_bar") bs.flatten = f at *
  generalize avg (windSum "oa_speed_bar") bs.flatten = o at *
  generalize (bs.flatten.length : ℚ) = N at *
  have hv : (N * (N * a) - N * f * (N * f)) * (N * (N * b) - N * o * (N * o)) =
      (N ^ 2) ^ 2 * ((a - f ^ 2) * (b - o ^ 2)) := by ring
  have hn : N * (N * c) - N * f * (N * o) = N ^ 2 * (c - f * o) := by ring
  rw [hv, hn]
  have hN4 : (0 : ℚ) < (N ^ 2) ^ 2 := by positivity
  by_cases hle : (a - f ^ 2) * (b - o ^ 2) ≤ 0
  · rw [if_pos hle, if_pos (mul_nonpos_of_nonneg_of_nonpos hN4.le hle)]
  · rw [if_neg hle, if_neg (not_le.mpr (mul_pos hN4 (not_le.mp hle)))]
    have hNr : (0 : ℝ) < N := by exact_mod_cast h4
    have er : ((N ^ 2 * (c - f * o) : ℚ) : ℝ) / Real.sqrt (((N ^ 2) ^ 2 * ((a - f ^ 2) * (b - o ^ 2)) : ℚ) : ℝ) =
        ((c - f * o : ℚ) : ℝ) / Real.sqrt (((a - f ^ 2) * (b - o ^ 2) : ℚ) : ℝ) := by
      have : (((N ^ 2) ^ 2 * ((a - f ^ 2) * (b - o ^ 2)) : ℚ) : ℝ) =
          ((N : ℝ) ^ 2) ^ 2 * (((a - f ^ 2) * (b - o ^ 2) : ℚ) : ℝ) := by push_cast; ring
      rw [this, Real.sqrt_mul (by positivity), Real.sqrt_sq (by positivity)]
      rw [Rat.cast_mul, Rat.cast_pow, mul_div_mul_left _ _ (by positivity)]
    rw [er]
    generalize ((c - f * o : ℚ) : ℝ) / Real.sqrt (((a - f ^ 2) * (b - o ^ 2) : ℚ) : ℝ) = r
    congr 2
    unfold clampCorr
    split_ifs with h5 h6
    · rw [min_eq_left h5.le, max_eq_right (by norm_num)]
    · rw [min_eq_right (by linarith), max_eq_left h6.le]
    · rw [min_eq_right (not_lt.mp h5), max_eq_right (not_lt.mp h6)]

/-- Two pairs of anomalies. -/
def anomPairs : List WindPair := [⟨3, 4, 4, 3, 5, 5⟩, ⟨0, 1, 0, 1, 1, 1⟩]

/-- Their partial sums, one row per pair. -/
def anomTable : Table :=
  { cols := ["total", "ufabar", "vfabar", "uoabar", "voabar", "uvfoabar", "uvffabar", "uvooabar", "fa_speed_bar",
      "oa_speed_bar"]
    rows := [[some 1, some 3, some 4, some 4, some 3, some 24, some 25, some 25, some 5, some 5],
             [some 1, some 0, some 1, some 0, some 1, some 1, some 1, some 1, some 1, some 1]] }

theorem anomTable_data : Val1l2Data anomTable (anomPairs.map (fun p => [p])) := by
  refine ⟨by decide, by decide, ⟨0, by decide, by decide, by decide +kernel⟩, ?_⟩
  intro c hc
  simp only [val1l2Columns, List.mem_cons, List.not_mem_nil, or_false] at hc
  rcases hc with rfl | rfl | rfl | rfl | rfl | rfl | rfl | rfl | rfl
  · exact ⟨1, by decide, by decide, by decide +kernel⟩
  · exact ⟨2, by decide, by decide, by decide +kernel⟩
  · exact ⟨3, by decide, by decide, by decide +kernel⟩
  · exact ⟨4, by decide, by decide, by decide +kernel⟩
  · exact ⟨5, by decide, by decide, by decide +kernel⟩
  · exact ⟨6, by decide, by decide, by decide +kernel⟩
  · exact ⟨7, by decide, by decide, by decide +kernel⟩
  · exact ⟨8, by decide, by decide, by decide +kernel⟩
  · exact ⟨9, by decide, by decide, by decide +kernel⟩

/-- C104 (example): the VAL1L2 correlation of the two pairs is 4.5 / (sqrt 4.5 * sqrt 5). -/
example : vecCov anomPairs = 9 / 2 ∧ vecVarF anomPairs = 9 / 2 ∧ vecVarO anomPairs = 5 := by decide +kernel

/-- C104 fails for VCNT: for these two pairs (with genuine speeds) VCNT_ANOM_CORR is 0.875, while the centred
correlation is above 0.94. -/
theorem C104_vcnt_counterexample :
    Val1l2Data anomTable (anomPairs.map (fun p => [p])) ∧
    (∀ p ∈ anomPairs, p.fs ^ 2 = p.uf ^ 2 + p.vf ^ 2 ∧ p.os ^ 2 = p.uo ^ 2 + p.vo ^ 2) ∧
    aggregated "vcnt_anom_corr" vcntAnomCorr anomTable = .ok (some (7 / 8)) ∧
    (94 / 100 : ℝ) < (vecCov anomPairs : ℝ) / (Real.sqrt (vecVarF anomPairs : ℝ) * Real.sqrt (vecVarO anomPairs : ℝ)) := by
  refine ⟨anomTable_data, by decide +kernel, ?_, ?_⟩
  · rw [C104_vcnt_actual anomTable _ anomTable_data]
    have hfl : (anomPairs.map (fun p => [p])).flatten = anomPairs := by decide
    rw [hfl]
    have h1 : avg (fun p : WindPair => p.uf ^ 2 + p.vf ^ 2) anomPairs - avg WindPair.fs anomPairs ^ 2 = 4 := by
      decide +kernel
    have h2 : avg (fun p : WindPair => p.uo ^ 2 + p.vo ^ 2) anomPairs - avg WindPair.os anomPairs ^ 2 = 4 := by
      decide +kernel
    have h3 : avg (fun p : WindPair => p.uf * p.uo + p.vf * p.vo) anomPairs -
        avg WindPair.fs anomPairs * avg WindPair.os anomPairs = 7 / 2 := by decide +kernel
    rw [h1, h2, h3, if_neg (by norm_num)]
    have hs : Real.sqrt (((4 : ℚ) * 4 : ℚ) : ℝ) = 4 := by
      rw [show (((4 : ℚ) * 4 : ℚ) : ℝ) = 4 ^ 2 by norm_num, Real.sqrt_sq (by norm_num)]
    rw [hs]
    congr 2
    norm_num
  · have h1 : vecCov anomPairs = 9 / 2 := by decide +kernel
    have h2 : vecVarF anomPairs = 9 / 2 := by decide +kernel
    have h3 : vecVarO anomPairs = 5 := by decide +kernel
    rw [h1, h2, h3, ← Real.sqrt_mul (by norm_num), lt_div_iff₀ (Real.sqrt_pos.mpr (by norm_num))]
    have hs : Real.sqrt (((9 / 2 : ℚ) : ℝ) * ((5 : ℚ) : ℝ)) < 4.75 := by
      rw [Real.sqrt_lt' (by norm_num)]; norm_num
    have : (((9 / 2 : ℚ)) : ℝ) = 4.5 := by norm_num
    rw [this]
    rw [this] at hs
    nlinarith

end Metcalcpy.Props
