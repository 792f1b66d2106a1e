/-
C15  Scalar partial sums give the statistics of the underlying matched pairs.
C16  MSE and BCMSE of genuine data are never negative (false for BCMSE because of rounding).
C17  Pearson and anomaly correlation lie in [-1,1].
C63  ESTDEV of an aggregated group is the standard deviation of the pooled errors (false of the code).
C64  FE of an aggregated group is computed from total-weighted means (false of the code).
C65  The scatter index never raises (false of the code).
-/
import Verif.Model.Sl1l2
import Verif.Lemmas.Pairs
import Verif.Spec.Corr
import Mathlib.Analysis.Real.Sqrt

namespace Metcalcpy.Props
open Metcalcpy Spec

/-- What each partial-sum column averages. -/
def gSl (c : String) (p : Pair) : ℚ :=
  if c = "fbar" ∨ c = "fabar" then p.1 else if c = "obar" ∨ c = "oabar" then p.2
  else if c = "fobar" ∨ c = "foabar" then p.1 * p.2
  else if c = "ffbar" ∨ c = "ffabar" then p.1 * p.1 else p.2 * p.2

theorem gSl_f : gSl "fbar" = fun p => p.1 := by funext p; simp [gSl]
theorem gSl_o : gSl "obar" = fun p => p.2 := by funext p; simp [gSl]
theorem gSl_fo : gSl "fobar" = fun p => p.1 * p.2 := by funext p; simp [gSl]
theorem gSl_ff : gSl "ffbar" = fun p => p.1 * p.1 := by funext p; simp [gSl]
theorem gSl_oo : gSl "oobar" = fun p => p.2 * p.2 := by funext p; simp [gSl]
theorem gSl_fa : gSl "fabar" = fun p => p.1 := by funext p; simp [gSl]
theorem gSl_oa : gSl "oabar" = fun p => p.2 := by funext p; simp [gSl]
theorem gSl_foa : gSl "foabar" = fun p => p.1 * p.2 := by funext p; simp [gSl]
theorem gSl_ffa : gSl "ffabar" = fun p => p.1 * p.1 := by funext p; simp [gSl]
theorem gSl_ooa : gSl "ooabar" = fun p => p.2 * p.2 := by funext p; simp [gSl]

theorem aggregated_ok {α : Type} {stat : String} {calculate : Table → Bool → α} {t t' : Table}
    (h : prepareFields t (fieldsOf stat) = .ok t') :
    aggregated stat calculate t = .ok (calculate t' true) := by
  simp only [aggregated, h, bind, Except.bind, pure, Except.pure]

theorem sl_prepared {t : Table} {bs : List (List Pair)} (D : Sl1l2Data t bs) (stat : String)
    (fields : List String) (hf : fieldsOf stat = some fields) (hnd : fields.Nodup)
    (hsub : ∀ c ∈ fields, c ∈ ["fbar", "obar", "fobar", "ffbar", "oobar"]) :
    ∃ t', prepareFields t (fieldsOf stat) = .ok t' ∧ sumColumn t' "total" = some (bs.flatten.length : ℚ) ∧
      (∀ c ∈ fields, sumColumn t' c = some (bs.flatten.map (gSl c)).sum) ∧
      0 < (bs.flatten.length : ℚ) := by
  obtain ⟨t', h1, -, h2, h3, h4⟩ := prepared_sums D.rows_ne D.batch_ne D.total gSl fields hnd
    (fun h => by have := hsub _ h; simp at this)
    (by
      intro c hc
      have := hsub c hc
      simp only [List.mem_cons, List.not_mem_nil, or_false] at this
      rcases this with rfl | rfl | rfl | rfl | rfl
      · exact D.fbar
      · exact D.obar
      · exact D.fobar
      · exact D.ffbar
      · exact D.oobar)
  exact ⟨t', by rw [hf, h1], h2, h3, h4⟩

theorem sal_prepared {t : Table} {bs : List (List Pair)} (D : Sal1l2Data t bs) (stat : String)
    (fields : List String) (hf : fieldsOf stat = some fields) (hnd : fields.Nodup)
    (hsub : ∀ c ∈ fields, c ∈ ["fabar", "oabar", "foabar", "ffabar", "ooabar"]) :
    ∃ t', prepareFields t (fieldsOf stat) = .ok t' ∧ sumColumn t' "total" = some (bs.flatten.length : ℚ) ∧
      (∀ c ∈ fields, sumColumn t' c = some (bs.flatten.map (gSl c)).sum) ∧
      0 < (bs.flatten.length : ℚ) := by
  obtain ⟨t', h1, -, h2, h3, h4⟩ := prepared_sums D.rows_ne D.batch_ne D.total gSl fields hnd
    (fun h => by have := hsub _ h; simp at this)
    (by
      intro c hc
      have := hsub c hc
      simp only [List.mem_cons, List.not_mem_nil, or_false] at this
      rcases this with rfl | rfl | rfl | rfl | rfl
      · exact D.fbar
      · exact D.obar
      · exact D.fobar
      · exact D.ffbar
      · exact D.oobar)
  exact ⟨t', by rw [hf, h1], h2, h3, h4⟩

/-! ### C15 -/

/-- C15: the aggregated means are the means over all pairs pooled together. -/
theorem C15_means (t : Table) (bs : List (List Pair)) (D : Sl1l2Data t bs) :
    aggregated "fbar" (slMean "fbar") t =
      .ok (some (roundHalfUp (avg (fun p => p.1) bs.flatten) 7)) ∧
    aggregated "obar" (slMean "obar") t =
      .ok (some (roundHalfUp (avg (fun p => p.2) bs.flatten) 7)) ∧
    aggregated "fobar" (slMean "fobar") t =
      .ok (some (roundHalfUp (avg (fun p => p.1 * p.2) bs.flatten) 7)) ∧
    aggregated "ffbar" (slMean "ffbar") t =
      .ok (some (roundHalfUp (avg (fun p => p.1 * p.1) bs.flatten) 7)) ∧
    aggregated "oobar" (slMean "oobar") t =
      .ok (some (roundHalfUp (avg (fun p => p.2 * p.2) bs.flatten) 7)) := by
  have key : ∀ c ∈ ["fbar", "obar", "fobar", "ffbar", "oobar"], fieldsOf c = some [c] →
      aggregated c (slMean c) t = .ok (some (roundHalfUp (avg (gSl c) bs.flatten) 7)) := by
    intro c hc hf
    obtain ⟨t', h1, h2, h3, h4⟩ := sl_prepared D c [c] hf (by simp) (by simpa using hc)
    simp only [aggregated, h1, bind, Except.bind, pure, Except.pure]
    generalize bs.flatten = P at *
    simp [slMean, getTotalValues, h2, h3 c (by simp), pyDiv_ne h4.ne', PRECISION, avg]
  refine ⟨?_, ?_, ?_, ?_, ?_⟩
  · rw [key "fbar" (by simp) rfl, gSl_f]
  · rw [key "obar" (by simp) rfl, gSl_o]
  · rw [key "fobar" (by simp) rfl, gSl_fo]
  · rw [key "ffbar" (by simp) rfl, gSl_ff]
  · rw [key "oobar" (by simp) rfl, gSl_oo]

/-- C15: the mean error and the mean squared error are those of the pooled pairs. -/
theorem C15_me_mse (t : Table) (bs : List (List Pair)) (D : Sl1l2Data t bs) :
    aggregated "me" slMe t = .ok (some (roundHalfUp (meanError bs.flatten) 7)) ∧
    aggregated "mse" slMse t = .ok (some (roundHalfUp (meanSquaredError bs.flatten) 7)) := by
  constructor
  · obtain ⟨t', h1, h2, h3, h4⟩ := sl_prepared D "me" ["fbar", "obar"] rfl (by simp) (by simp)
    simp only [aggregated, h1, bind, Except.bind, pure, Except.pure]
    generalize bs.flatten = P at *
    simp [slMe, getTotalValues, h2, h3 "fbar" (by simp), h3 "obar" (by simp), pyDiv_ne h4.ne',
      PRECISION, meanError_eq, avg, gSl_f, gSl_o, gSl_fo, gSl_ff, gSl_oo]
  · obtain ⟨t', h1, h2, h3, h4⟩ := sl_prepared D "mse" ["ffbar", "oobar", "fobar"] rfl (by simp)
      (by simp)
    simp only [aggregated, h1, bind, Except.bind, pure, Except.pure]
    generalize bs.flatten = P at *
    simp [slMse, getTotalValues, h2, h3 "ffbar" (by simp), h3 "oobar" (by simp), h3 "fobar" (by simp),
      pyDiv_ne h4.ne', PRECISION, mse_eq, avg, gSl_f, gSl_o, gSl_fo, gSl_ff, gSl_oo]

/-- The aggregated BCMSE in terms of the rounded MSE and ME. -/
theorem bcmse_value {t : Table} {bs : List (List Pair)} (D : Sl1l2Data t bs) :
    ∃ t', prepareFields t (fieldsOf "bcmse") = .ok t' ∧ slBcmse t' true =
      some (roundHalfUp (roundHalfUp (meanSquaredError bs.flatten) 7 -
        roundHalfUp (meanError bs.flatten) 7 ^ 2) 7) ∧ 0 < (bs.flatten.length : ℚ) := by
  obtain ⟨t', h1, h2, h3, h4⟩ := sl_prepared D "bcmse" ["ffbar", "oobar", "fobar", "fbar", "obar"] rfl
    (by simp) (by simp)
  refine ⟨t', h1, ?_, h4⟩
  generalize bs.flatten = P at *
  simp [slBcmse, slMse, slMe, getTotalValues, h2, h3 "ffbar" (by simp), h3 "oobar" (by simp),
    h3 "fobar" (by simp), h3 "fbar" (by simp), h3 "obar" (by simp),
      pyDiv_ne h4.ne', PRECISION, mse_eq, meanError_eq, avg, gSl_f, gSl_o, gSl_fo, gSl_ff, gSl_oo]

/-- C15: the bias-corrected mean squared error is that of the pooled pairs, up to the rounding of the
intermediate MSE and ME (explicit bound). -/
theorem C15_bcmse (t : Table) (bs : List (List Pair)) (D : Sl1l2Data t bs) :
    ∃ x, aggregated "bcmse" slBcmse t = .ok (some x) ∧
      |x - biasCorrectedMse bs.flatten| ≤ (1 + |meanError bs.flatten|) / 10 ^ 7 + 1 / 10 ^ 14 := by
  obtain ⟨t', h1, h2, h4⟩ := bcmse_value D
  refine ⟨_, by rw [aggregated_ok h1, h2], ?_⟩
  rw [bcmse_eq _ h4.ne']
  set m := meanSquaredError bs.flatten
  set e := meanError bs.flatten
  have e1 := abs_roundHalfUp_sub_le m 7
  have e2 := abs_roundHalfUp_sub_le e 7
  have e3 := abs_roundHalfUp_sub_le (roundHalfUp m 7 - roundHalfUp e 7 ^ 2) 7
  set m' := roundHalfUp m 7
  set e' := roundHalfUp e 7
  set x := roundHalfUp (m' - e' ^ 2) 7
  have eps : (1 / 2 : ℚ) / 10 ^ (7 : ℤ) = 1 / (2 * 10 ^ 7) := by norm_num
  rw [eps] at e1 e2 e3
  have h5 : |e' ^ 2 - e ^ 2| ≤ 1 / (2 * 10 ^ 7) * (2 * |e| + 1 / (2 * 10 ^ 7)) := by
    have : e' ^ 2 - e ^ 2 = (e' - e) * (e' - e + 2 * e) := by ring
    rw [this, abs_mul]
    apply mul_le_mul e2 _ (abs_nonneg _) (by norm_num)
    calc |e' - e + 2 * e| ≤ |e' - e| + |2 * e| := abs_add_le _ _
      _ ≤ _ := by rw [abs_mul, abs_two]; linarith
  have h6 : x - (m - e ^ 2) = (x - (m' - e' ^ 2)) + ((m' - m) - (e' ^ 2 - e ^ 2)) := by ring
  rw [h6]
  have h7 := abs_add_le (x - (m' - e' ^ 2)) ((m' - m) - (e' ^ 2 - e ^ 2))
  have h8 := abs_sub (m' - m) (e' ^ 2 - e ^ 2)
  refine h7.trans ?_
  have : (1 + |e|) / 10 ^ 7 = 1 / 10 ^ 7 + |e| * (1 / 10 ^ 7) := by ring
  rw [this]
  nlinarith [e3, h8, e1, h5, abs_nonneg e]

/-- C15: for a single row, calling the statistics without preparation and without the aggregation flag
gives the same values as the aggregation run. -/
theorem C15_single_row (t : Table) (b : List Pair) (D : Sl1l2Data t [b]) :
    aggregated "me" slMe t = .ok (slMe t false) ∧ aggregated "mse" slMse t = .ok (slMse t false) ∧
    aggregated "bcmse" slBcmse t = .ok (slBcmse t false) ∧
    aggregated "fbar" (slMean "fbar") t = .ok (slMean "fbar" t false) ∧
    aggregated "obar" (slMean "obar") t = .ok (slMean "obar" t false) := by
  have s : ∀ c x, CompleteColumn t c ([b].map x) → sumColumn t c = some (x b) := by
    intro c x h; rw [sumColumn_of_complete D.rows_ne h]; simp
  have hb : (b.length : ℚ) ≠ 0 := by
    have := D.batch_ne b (by simp)
    exact_mod_cast (List.length_pos_iff.mpr this).ne'
  have d1 : ∀ x : ℚ, pyDiv x 1 = some x := fun x => by simp [pyDiv]
  have v1 : slMe t false = some (roundHalfUp (meanError b) 7) := by
    simp [slMe, getTotalValues, s _ _ D.fbar, s _ _ D.obar, d1, PRECISION, meanError_eq, avg]
  have v2 : slMse t false = some (roundHalfUp (meanSquaredError b) 7) := by
    simp [slMse, getTotalValues, s _ _ D.ffbar, s _ _ D.oobar, s _ _ D.fobar, d1, PRECISION, mse_eq, avg]
  have v3 : slMean "fbar" t false = some (roundHalfUp (avg Prod.fst b) 7) := by
    simp [slMean, getTotalValues, s _ _ D.fbar, d1, PRECISION]
  have v4 : slMean "obar" t false = some (roundHalfUp (avg Prod.snd b) 7) := by
    simp [slMean, getTotalValues, s _ _ D.obar, d1, PRECISION]
  have fl : [b].flatten = b := by simp
  obtain ⟨m1, m2⟩ := C15_me_mse t [b] D
  obtain ⟨f1, f2, -⟩ := C15_means t [b] D
  rw [fl] at m1 m2 f1 f2
  refine ⟨by rw [m1, v1], by rw [m2, v2], ?_, by rw [f1, v3], by rw [f2, v4]⟩
  obtain ⟨t', h1, h2, -⟩ := bcmse_value D
  simp only [aggregated, h1, bind, Except.bind, pure, Except.pure, h2, fl]
  simp [slBcmse, v1, v2, PRECISION]

/-! ### C16 -/

/-- C16: MSE is never negative for partial sums of real pairs, hence RMSE is always defined; before
rounding MSE = BCMSE + ME² and BCMSE ≥ 0.  Missing: BCMSE ≥ 0 for the computed value, see the
counterexample; it holds when the true BCMSE exceeds the rounding error. -/
theorem C16_mse_nonneg_partial (t : Table) (bs : List (List Pair)) (D : Sl1l2Data t bs) :
    (∃ x, aggregated "mse" slMse t = .ok (some x) ∧ 0 ≤ x) ∧
    (∃ y, aggregated "rmse" slRmse t = .ok (.ok (some y)) ∧ 0 ≤ y) ∧
    meanSquaredError bs.flatten = biasCorrectedMse bs.flatten + meanError bs.flatten ^ 2 ∧
    0 ≤ biasCorrectedMse bs.flatten ∧
    ((1 + |meanError bs.flatten|) / 10 ^ 7 ≤ biasCorrectedMse bs.flatten →
      (∃ x, aggregated "bcmse" slBcmse t = .ok (some x) ∧ 0 ≤ x) ∧
      ∃ y, aggregated "bcrmse" slBcrmse t = .ok (.ok (some y)) ∧ 0 ≤ y) := by
  have hm : 0 ≤ meanSquaredError bs.flatten := avg_nonneg_sq _ _
  have hm' : 0 ≤ roundHalfUp (meanSquaredError bs.flatten) 7 := round7_nonneg hm
  have ms := (C15_me_mse t bs D).2
  obtain ⟨t', h1, h2, h4⟩ := bcmse_value D
  refine ⟨⟨_, ms, hm'⟩, ?_, ?_, avg_nonneg_sq _ _, ?_⟩
  · have hmse : ∃ t', prepareFields t (fieldsOf "rmse") = .ok t' ∧
        slMse t' true = some (roundHalfUp (meanSquaredError bs.flatten) 7) := by
      simp only [aggregated, bind, Except.bind] at ms
      have e : fieldsOf "rmse" = fieldsOf "mse" := rfl
      rw [e]
      cases hp : prepareFields t (fieldsOf "mse") with
      | error e => simp [hp] at ms
      | ok t' => exact ⟨t', rfl, by simpa [hp, pure, Except.pure] using ms⟩
    obtain ⟨t', g1, g2⟩ := hmse
    refine ⟨roundHalfUp (Real.sqrt ((roundHalfUp (meanSquaredError bs.flatten) 7 : ℚ) : ℝ)) 7, ?_, ?_⟩
    · rw [aggregated_ok g1]
      simp only [slRmse, g2, lenientSqrt, if_neg (not_lt.mpr hm'), Except.map]
      rfl
    · exact round7_nonneg (Real.sqrt_nonneg _)
  · rw [bcmse_eq _ h4.ne']; ring
  · intro hb
    have hx : 0 ≤ roundHalfUp (roundHalfUp (meanSquaredError bs.flatten) 7 -
        roundHalfUp (meanError bs.flatten) 7 ^ 2) 7 := by
      apply round7_nonneg
      rw [bcmse_eq _ h4.ne'] at hb
      set m := meanSquaredError bs.flatten
      set e := meanError bs.flatten
      have e1 := abs_le.mp (abs_roundHalfUp_sub_le m 7)
      have e2 := abs_roundHalfUp_sub_le e 7
      set m' := roundHalfUp m 7
      set e' := roundHalfUp e 7
      have eps : (1 / 2 : ℚ) / 10 ^ (7 : ℤ) = 1 / (2 * 10 ^ 7) := by norm_num
      rw [eps] at e1 e2
      have h5 : |e' ^ 2 - e ^ 2| ≤ 1 / (2 * 10 ^ 7) * (2 * |e| + 1 / (2 * 10 ^ 7)) := by
        have : e' ^ 2 - e ^ 2 = (e' - e) * (e' - e + 2 * e) := by ring
        rw [this, abs_mul]
        apply mul_le_mul e2 _ (abs_nonneg _) (by norm_num)
        calc |e' - e + 2 * e| ≤ |e' - e| + |2 * e| := abs_add_le _ _
          _ ≤ _ := by rw [abs_mul, abs_two]; linarith
      have h6 := (abs_le.mp h5).2
      have : (1 + |e|) / 10 ^ 7 = 1 / 10 ^ 7 + |e| * (1 / 10 ^ 7) := by ring
      rw [this] at hb
      nlinarith [e1.1, abs_nonneg e]
    refine ⟨⟨_, by rw [aggregated_ok h1, h2], hx⟩, ?_⟩
    have e : fieldsOf "bcrmse" = fieldsOf "bcmse" := rfl
    refine ⟨roundHalfUp (Real.sqrt ((roundHalfUp (roundHalfUp (meanSquaredError bs.flatten) 7 -
        roundHalfUp (meanError bs.flatten) 7 ^ 2) 7 : ℚ) : ℝ)) 7, ?_, ?_⟩
    · rw [aggregated_ok (e ▸ h1)]
      simp only [slBcrmse, h2, lenientSqrt, if_neg (not_lt.mpr hx), Except.map]
      rfl
    · exact round7_nonneg (Real.sqrt_nonneg _)

/-- One matched pair with forecast error 1000 2/3. -/
def exBias : Table :=
  { cols := ["total", "fbar", "obar", "fobar", "ffbar", "oobar"]
    rows := [[some 1, some (3002 / 3), some 0, some 0, some (9012004 / 9), some 0]] }

theorem exBias_data : Sl1l2Data exBias [[(3002 / 3, 0)]] where
  rows_ne := by simp [exBias]
  batch_ne := by simp
  total := ⟨0, rfl, by simp, by simp [exBias]⟩
  fbar := ⟨1, rfl, by simp [exBias] <;> decide, by simp [exBias, avg]⟩
  obar := ⟨2, rfl, by simp [exBias] <;> decide, by simp [exBias, avg]⟩
  fobar := ⟨3, rfl, by simp [exBias] <;> decide, by simp [exBias, avg]⟩
  ffbar := ⟨4, rfl, by simp [exBias] <;> decide, by simp [exBias, avg] <;> norm_num⟩
  oobar := ⟨5, rfl, by simp [exBias] <;> decide, by simp [exBias, avg]⟩

/-- C16 is false for BCMSE: the rounded MSE and ME of a single genuine pair give a negative BCMSE, and
BCRMSE raises an unhandled ValueError on it. -/
theorem C16_bcmse_counterexample :
    ∃ t bs, Sl1l2Data t bs ∧ biasCorrectedMse bs.flatten = 0 ∧
      (∃ x, aggregated "bcmse" slBcmse t = .ok (some x) ∧ x < 0) ∧
      aggregated "bcrmse" slBcrmse t = .ok (.error .valueError) := by
  have hx : roundHalfUp (roundHalfUp (meanSquaredError [((3002 / 3 : ℚ), (0 : ℚ))]) 7 -
        roundHalfUp (meanError [((3002 / 3 : ℚ), (0 : ℚ))]) 7 ^ 2) 7 < 0 := by
    decide +kernel
  obtain ⟨t', h1, h2, -⟩ := bcmse_value exBias_data
  refine ⟨exBias, [[(3002 / 3, 0)]], exBias_data, by
    simp [biasCorrectedMse, meanError, avg], ⟨_, ?_, hx⟩, ?_⟩
  · rw [aggregated_ok h1, h2]; rfl
  · have e : fieldsOf "bcrmse" = fieldsOf "bcmse" := rfl
    simp only [aggregated, e, h1, bind, Except.bind, pure, Except.pure, slBcrmse, h2, lenientSqrt]
    rw [if_pos (by simpa using hx)]
    rfl

/-! ### C17 -/

/-- The arithmetic of calculate_pr_corr / calculate_anom_corr on pooled sums. -/
theorem corr_arith (ps : List Pair) (hn : 0 < (ps.length : ℚ)) (n ff f oo o fo : ℚ)
    (hN : n = ps.length) (hff : ff = avg (fun p => p.1 * p.1) ps) (hf : f = avg Prod.fst ps)
    (hoo : oo = avg (fun p => p.2 * p.2) ps) (ho : o = avg Prod.snd ps)
    (hfo : fo = avg (fun p => p.1 * p.2) ps) :
    (n ^ 2 * ff - n ^ 2 * f ^ 2) * (n ^ 2 * oo - n ^ 2 * o ^ 2) =
      (n ^ 2) ^ 2 * (variance Prod.fst ps * variance Prod.snd ps) ∧
    n ^ 2 * fo - n ^ 2 * f * o = n ^ 2 * covariance ps ∧
    (0 < variance Prod.fst ps * variance Prod.snd ps →
      ((n ^ 2 * covariance ps : ℚ) : ℝ) /
        Real.sqrt (((n ^ 2) ^ 2 * (variance Prod.fst ps * variance Prod.snd ps) : ℚ) : ℝ) = pearson ps ∧
      |pearson ps| ≤ 1) := by
  have hv1 := variance_eq Prod.fst ps hn.ne'
  have hv2 := variance_eq Prod.snd ps hn.ne'
  refine ⟨?_, ?_, ?_⟩
  · rw [hv1, hv2, hff, hf, hoo, ho]; ring
  · rw [covariance_eq ps hn.ne', hfo, hf, ho]; ring
  · intro hpos
    have hvf : 0 ≤ variance Prod.fst ps := avg_nonneg_sq _ _
    have hvo : 0 ≤ variance Prod.snd ps := avg_nonneg_sq _ _
    have hn2 : (0 : ℝ) < ((n ^ 2 : ℚ) : ℝ) := by
      rw [hN]; have : (0 : ℚ) < (ps.length : ℚ) ^ 2 := by positivity
      exact_mod_cast this
    have hC := cov_sq_le ps hn
    have hsplit : Real.sqrt ((variance Prod.fst ps * variance Prod.snd ps : ℚ) : ℝ) =
        Real.sqrt (variance Prod.fst ps : ℝ) * Real.sqrt (variance Prod.snd ps : ℝ) := by
      push_cast
      exact Real.sqrt_mul (by exact_mod_cast hvf) _
    have hsp : 0 < Real.sqrt ((variance Prod.fst ps * variance Prod.snd ps : ℚ) : ℝ) :=
      Real.sqrt_pos.mpr (by exact_mod_cast hpos)
    constructor
    · have e : Real.sqrt (((n ^ 2) ^ 2 * (variance Prod.fst ps * variance Prod.snd ps) : ℚ) : ℝ) =
          ((n ^ 2 : ℚ) : ℝ) * Real.sqrt ((variance Prod.fst ps * variance Prod.snd ps : ℚ) : ℝ) := by
        have : (((n ^ 2) ^ 2 * (variance Prod.fst ps * variance Prod.snd ps) : ℚ) : ℝ) =
            ((n ^ 2 : ℚ) : ℝ) ^ 2 * ((variance Prod.fst ps * variance Prod.snd ps : ℚ) : ℝ) := by
          push_cast; ring
        rw [this, Real.sqrt_mul (by positivity), Real.sqrt_sq hn2.le]
      rw [e, pearson, ← hsplit]
      have : ((n ^ 2 * covariance ps : ℚ) : ℝ) = ((n ^ 2 : ℚ) : ℝ) * (covariance ps : ℝ) := by push_cast; ring
      rw [this, mul_div_mul_left _ _ hn2.ne']
    · rw [pearson, ← hsplit, abs_div, abs_of_pos hsp, div_le_one hsp]
      apply Real.abs_le_sqrt
      exact_mod_cast hC

/-- C17: the aggregated Pearson correlation is that of the pooled pairs and lies in [-1,1]; it is
missing exactly when the forecasts or the observations do not vary. -/
theorem C17_pr_corr (t : Table) (bs : List (List Pair)) (D : Sl1l2Data t bs) :
    (0 < variance Prod.fst bs.flatten ∧ 0 < variance Prod.snd bs.flatten →
      aggregated "pr_corr" slPrCorr t = .ok (some (roundHalfUp (pearson bs.flatten) 7)) ∧
      -1 ≤ roundHalfUp (pearson bs.flatten) 7 ∧ roundHalfUp (pearson bs.flatten) 7 ≤ 1) ∧
    (¬ (0 < variance Prod.fst bs.flatten ∧ 0 < variance Prod.snd bs.flatten) →
      aggregated "pr_corr" slPrCorr t = .ok none) := by
  obtain ⟨t', h1, h2, h3, h4⟩ := sl_prepared D "pr_corr" ["ffbar", "oobar", "fobar", "fbar", "obar"] rfl
    (by simp) (by simp)
  have hvf : 0 ≤ variance Prod.fst bs.flatten := avg_nonneg_sq _ _
  have hvo : 0 ≤ variance Prod.snd bs.flatten := avg_nonneg_sq _ _
  have s1 := h3 "ffbar" (by simp)
  have s2 := h3 "oobar" (by simp)
  have s3 := h3 "fobar" (by simp)
  have s4 := h3 "fbar" (by simp)
  have s5 := h3 "obar" (by simp)
  obtain ⟨a1, a2, a3⟩ := corr_arith bs.flatten h4 _ _ _ _ _ _ rfl rfl rfl rfl rfl rfl
  have hval : slPrCorr t' true =
      if (((bs.flatten.length : ℚ) ^ 2) ^ 2 * (variance Prod.fst bs.flatten * variance Prod.snd bs.flatten)) < 0
        then none
      else if (((bs.flatten.length : ℚ) ^ 2) ^ 2 *
        (variance Prod.fst bs.flatten * variance Prod.snd bs.flatten)) = 0 then none
      else if (((bs.flatten.length : ℚ) ^ 2) ^ 2 *
          (variance Prod.fst bs.flatten * variance Prod.snd bs.flatten)) ≤ 0 ∨
          ((((bs.flatten.length : ℚ) ^ 2 * covariance bs.flatten : ℚ) : ℝ) /
            Real.sqrt ((((bs.flatten.length : ℚ) ^ 2) ^ 2 *
              (variance Prod.fst bs.flatten * variance Prod.snd bs.flatten) : ℚ) : ℝ)) > 1 then none
      else some (roundHalfUp ((((bs.flatten.length : ℚ) ^ 2 * covariance bs.flatten : ℚ) : ℝ) /
            Real.sqrt ((((bs.flatten.length : ℚ) ^ 2) ^ 2 *
              (variance Prod.fst bs.flatten * variance Prod.snd bs.flatten) : ℚ) : ℝ)) PRECISION) := by
    rw [← a1, ← a2]
    simp only [slPrCorr, h2, s1, s2, s3, s4, s5, Option.bind_eq_bind, Option.bind_some, if_true,
      pyDiv_ne h4.ne']
    rfl
  have hn4 : 0 < ((bs.flatten.length : ℚ) ^ 2) ^ 2 := by positivity
  constructor
  · rintro ⟨p1, p2⟩
    have hpos : 0 < variance Prod.fst bs.flatten * variance Prod.snd bs.flatten := mul_pos p1 p2
    have hP := mul_pos hn4 hpos
    obtain ⟨b1, b2⟩ := a3 hpos
    have b3 := abs_le.mp b2
    refine ⟨?_, round7_ge_neg_one b3.1, round7_le_one b3.2⟩
    simp only [aggregated, h1, bind, Except.bind, pure, Except.pure, hval, b1]
    rw [if_neg (not_lt.mpr hP.le), if_neg hP.ne', if_neg]
    · rfl
    · push Not; exact ⟨hP, b3.2⟩
  · intro hnot
    have h0 : variance Prod.fst bs.flatten * variance Prod.snd bs.flatten = 0 := by
      rcases hvf.lt_or_eq with p | p
      · rcases hvo.lt_or_eq with q | q
        · exact absurd ⟨p, q⟩ hnot
        · rw [← q]; ring
      · rw [← p]; ring
    simp only [aggregated, h1, bind, Except.bind, pure, Except.pure, hval, h0]
    simp

/-- C17: the same for the anomaly correlation. -/
theorem C17_anom_corr (t : Table) (bs : List (List Pair)) (D : Sal1l2Data t bs) :
    (0 < variance Prod.fst bs.flatten ∧ 0 < variance Prod.snd bs.flatten →
      aggregated "anom_corr" salAnomCorr t = .ok (some (roundHalfUp (pearson bs.flatten) 7)) ∧
      -1 ≤ roundHalfUp (pearson bs.flatten) 7 ∧ roundHalfUp (pearson bs.flatten) 7 ≤ 1) ∧
    (¬ (0 < variance Prod.fst bs.flatten ∧ 0 < variance Prod.snd bs.flatten) →
      aggregated "anom_corr" salAnomCorr t = .ok none) := by
  obtain ⟨t', h1, h2, h3, h4⟩ := sal_prepared D "anom_corr" ["ffabar", "fabar", "ooabar", "oabar", "foabar"]
    rfl (by simp) (by simp)
  have hvf : 0 ≤ variance Prod.fst bs.flatten := avg_nonneg_sq _ _
  have hvo : 0 ≤ variance Prod.snd bs.flatten := avg_nonneg_sq _ _
  have s1 := h3 "ffabar" (by simp)
  have s2 := h3 "ooabar" (by simp)
  have s3 := h3 "foabar" (by simp)
  have s4 := h3 "fabar" (by simp)
  have s5 := h3 "oabar" (by simp)
  obtain ⟨a1, a2, a3⟩ := corr_arith bs.flatten h4 _ _ _ _ _ _ rfl rfl rfl rfl rfl rfl
  have hval : salAnomCorr t' true =
      if (((bs.flatten.length : ℚ) ^ 2) ^ 2 *
        (variance Prod.fst bs.flatten * variance Prod.snd bs.flatten)) ≤ 0 then none
      else if ((((bs.flatten.length : ℚ) ^ 2 * covariance bs.flatten : ℚ) : ℝ) /
            Real.sqrt ((((bs.flatten.length : ℚ) ^ 2) ^ 2 *
              (variance Prod.fst bs.flatten * variance Prod.snd bs.flatten) : ℚ) : ℝ)) > 1 then none
      else some (roundHalfUp ((((bs.flatten.length : ℚ) ^ 2 * covariance bs.flatten : ℚ) : ℝ) /
            Real.sqrt ((((bs.flatten.length : ℚ) ^ 2) ^ 2 *
              (variance Prod.fst bs.flatten * variance Prod.snd bs.flatten) : ℚ) : ℝ)) PRECISION) := by
    rw [← a1, ← a2]
    simp only [salAnomCorr, getTotalValues, h2, s1, s2, s3, s4, s5, Option.bind_eq_bind,
      Option.bind_some, if_true, pyDiv_ne h4.ne']
    rfl
  have hn4 : 0 < ((bs.flatten.length : ℚ) ^ 2) ^ 2 := by positivity
  constructor
  · rintro ⟨p1, p2⟩
    have hpos : 0 < variance Prod.fst bs.flatten * variance Prod.snd bs.flatten := mul_pos p1 p2
    have hP := mul_pos hn4 hpos
    obtain ⟨b1, b2⟩ := a3 hpos
    have b3 := abs_le.mp b2
    refine ⟨?_, round7_ge_neg_one b3.1, round7_le_one b3.2⟩
    simp only [aggregated, h1, bind, Except.bind, pure, Except.pure, hval, b1]
    rw [if_neg (not_le.mpr hP), if_neg (not_lt.mpr b3.2)]
    rfl
  · intro hnot
    have h0 : variance Prod.fst bs.flatten * variance Prod.snd bs.flatten = 0 := by
      rcases hvf.lt_or_eq with p | p
      · rcases hvo.lt_or_eq with q | q
        · exact absurd ⟨p, q⟩ hnot
        · rw [← q]; ring
      · rw [← p]; ring
    simp only [aggregated, h1, bind, Except.bind, pure, Except.pure, hval, h0]
    simp

/-- C17: the uncentered anomaly correlation lies in [-1,1] for *every* table and both flags. -/
theorem C17_anom_corr_raw (t : Table) (aggregation : Bool) (x : ℝ)
    (h : salAnomCorrRaw t aggregation = some x) : -1 ≤ x ∧ x ≤ 1 := by
  simp only [salAnomCorrRaw, Option.bind_eq_bind, Option.bind_eq_some_iff] at h
  obtain ⟨_, -, _, -, _, -, _, -, _, -, _, -, _, -, h⟩ := h
  split at h
  · simp at h
  · split at h
    · simp at h
    · simp only [Option.some.injEq] at h
      rw [← h]
      constructor
      · apply round7_ge_neg_one
        split
        · norm_num
        · split
          · norm_num
          · next h1 => exact not_lt.mp h1
      · apply round7_le_one
        split
        · norm_num
        · next h1 =>
          split
          · norm_num
          · exact not_lt.mp h1

/-! ### C63-C65 -/

/-- Two pairs with errors 1 and 3 in one batch. -/
def exEst : Table :=
  { cols := ["total", "fbar", "obar", "fobar", "ffbar", "oobar"]
    rows := [[some 2, some 2, some 0, some 0, some 5, some 0]] }

theorem exEst_data : Sl1l2Data exEst [[(1, 0), (3, 0)]] where
  rows_ne := by simp [exEst]
  batch_ne := by simp
  total := ⟨0, rfl, by simp, by simp [exEst]⟩
  fbar := ⟨1, rfl, by simp [exEst] <;> decide, by simp [exEst, avg] <;> norm_num⟩
  obar := ⟨2, rfl, by simp [exEst] <;> decide, by simp [exEst, avg]⟩
  fobar := ⟨3, rfl, by simp [exEst] <;> decide, by simp [exEst, avg]⟩
  ffbar := ⟨4, rfl, by simp [exEst] <;> decide, by simp [exEst, avg] <;> norm_num⟩
  oobar := ⟨5, rfl, by simp [exEst] <;> decide, by simp [exEst, avg]⟩

/-- C63 is false: the aggregation run reports no ESTDEV for two errors 1 and 3, whose sample variance
is 2. -/
theorem C63_estdev_counterexample :
    ∃ t bs, Sl1l2Data t bs ∧ sampleVariance (fun p : Pair => p.1 - p.2) bs.flatten = 2 ∧
      aggregated "estdev" slEstdev t = .ok (.ok none) := by
  refine ⟨exEst, _, exEst_data, by simp [sampleVariance, avg]; norm_num, ?_⟩
  obtain ⟨t', h1, h2, h3, h4⟩ := sl_prepared exEst_data "estdev"
    ["ffbar", "oobar", "fobar", "fbar", "obar"] rfl (by simp) (by simp)
  have s1 := h3 "ffbar" (by simp)
  have s2 := h3 "oobar" (by simp)
  have s3 := h3 "fobar" (by simp)
  have s4 := h3 "fbar" (by simp)
  have s5 := h3 "obar" (by simp)
  simp only [aggregated, h1, bind, Except.bind, pure, Except.pure]
  congr 1
  have v1 : slMe t' false = some 4 := by
    simp [slMe, getTotalValues, s4, s5, pyDiv, gSl_f, gSl_o, gSl_fo, gSl_ff, gSl_oo, PRECISION]
    norm_num
    have := roundHalfUp_int (K := ℚ) 4 7
    exact_mod_cast this
  have v2 : slMse t' false = some 10 := by
    simp [slMse, getTotalValues, s1, s2, s3, pyDiv, gSl_f, gSl_o, gSl_fo, gSl_ff, gSl_oo, PRECISION]
    norm_num
    have := roundHalfUp_int (K := ℚ) 10 7
    exact_mod_cast this
  have v0 : sumColumn t' "total" = some 2 := by rw [h2]; simp
  simp only [slEstdev, v0, v1, v2]
  norm_num

/-- C63, the part that holds: for one row that has not been prepared (no aggregation run), with ME and
MSE representable in 7 decimals, ESTDEV is the rounded sample standard deviation of the errors.
Missing: the aggregation run. -/
theorem C63_estdev_partial (t : Table) (b : List Pair) (D : Sl1l2Data t [b]) (h2 : 2 ≤ b.length)
    (hme : roundHalfUp (meanError b) 7 = meanError b)
    (hmse : roundHalfUp (meanSquaredError b) 7 = meanSquaredError b) :
    slEstdev t false =
      .ok (some (roundHalfUp (Real.sqrt (sampleVariance (fun p : Pair => p.1 - p.2) b : ℝ)) 7)) := by
  have s : ∀ c x, CompleteColumn t c ([b].map x) → sumColumn t c = some (x b) := by
    intro c x h; rw [sumColumn_of_complete D.rows_ne h]; simp
  have d1 : ∀ x : ℚ, pyDiv x 1 = some x := fun x => by simp [pyDiv]
  have v1 : slMe t false = some (meanError b) := by
    rw [← hme]
    simp [slMe, getTotalValues, s _ _ D.fbar, s _ _ D.obar, d1, PRECISION, meanError_eq, avg]
  have v2 : slMse t false = some (meanSquaredError b) := by
    rw [← hmse]
    simp [slMse, getTotalValues, s _ _ D.ffbar, s _ _ D.oobar, s _ _ D.fobar, d1, PRECISION, mse_eq, avg]
  have v0 : sumColumn t "total" = some (b.length : ℚ) := s _ _ D.total
  have hn : (2 : ℚ) ≤ b.length := by exact_mod_cast h2
  have hn0 : (b.length : ℚ) ≠ 0 := by linarith
  have hx : meanSquaredError b * b.length - (meanError b * b.length) * (meanError b * b.length) / b.length =
      (b.map (fun p => (p.1 - p.2 - avg (fun p : Pair => p.1 - p.2) b) ^ 2)).sum := by
    have e1 := bcmse_eq b hn0
    have e2 : biasCorrectedMse b * b.length =
        (b.map (fun p => (p.1 - p.2 - avg (fun p : Pair => p.1 - p.2) b) ^ 2)).sum := by
      unfold biasCorrectedMse meanError
      conv_lhs => rw [avg]
      rw [div_mul_cancel₀ _ hn0]
    rw [← e2, e1]
    field_simp
  have hpos : 0 ≤ sampleVariance (fun p : Pair => p.1 - p.2) b :=
    div_nonneg (sum_sq_nonneg' b _) (by linarith)
  simp only [slEstdev, v0, v1, v2, hx]
  rw [if_neg (by linarith), if_neg (by linarith), if_neg]
  · rfl
  · exact not_lt.mpr hpos

/-- C63 also fails for a single pair, which has no sample standard deviation: when its error and squared error are
representable in 7 decimals, the call does not return None but raises a ValueError. -/
theorem C63_estdev_single_pair (t : Table) (p : Pair) (D : Sl1l2Data t [[p]])
    (hme : roundHalfUp (meanError [p]) 7 = meanError [p])
    (hmse : roundHalfUp (meanSquaredError [p]) 7 = meanSquaredError [p]) :
    slEstdev t false = .error .valueError := by
  have s : ∀ c x, CompleteColumn t c ([[p]].map x) → sumColumn t c = some (x [p]) := by
    intro c x h; rw [sumColumn_of_complete D.rows_ne h]; simp
  have d1 : ∀ x : ℚ, pyDiv x 1 = some x := fun x => by simp [pyDiv]
  have v1 : slMe t false = some (meanError [p]) := by
    rw [← hme]
    simp [slMe, getTotalValues, s _ _ D.fbar, s _ _ D.obar, d1, PRECISION, meanError_eq, avg]
  have v2 : slMse t false = some (meanSquaredError [p]) := by
    rw [← hmse]
    simp [slMse, getTotalValues, s _ _ D.ffbar, s _ _ D.oobar, s _ _ D.fobar, d1, PRECISION, mse_eq, avg]
  have v0 : sumColumn t "total" = some 1 := by simpa using s _ _ D.total
  have hx : meanSquaredError [p] * 1 - (meanError [p] * 1) * (meanError [p] * 1) / 1 = 0 := by
    simp [meanSquaredError, meanError, avg]; ring
  simp only [slEstdev, v0, v1, v2, hx]
  norm_num

/-- One pair with error 2. -/
example : ∃ t p, Sl1l2Data t [[p]] ∧ roundHalfUp (meanError [p]) 7 = meanError [p] ∧
    roundHalfUp (meanSquaredError [p]) 7 = meanSquaredError [p] :=
  ⟨{ cols := ["total", "fbar", "obar", "fobar", "ffbar", "oobar"]
     rows := [[some 1, some 3, some 1, some 3, some 9, some 1]] }, (3, 1),
    { rows_ne := by simp
      batch_ne := by simp
      total := ⟨0, rfl, by simp, by simp⟩
      fbar := ⟨1, rfl, by simp <;> decide, by simp [avg]⟩
      obar := ⟨2, rfl, by simp <;> decide, by simp [avg]⟩
      fobar := ⟨3, rfl, by simp <;> decide, by simp [avg]⟩
      ffbar := ⟨4, rfl, by simp <;> decide, by simp [avg] <;> norm_num⟩
      oobar := ⟨5, rfl, by simp <;> decide, by simp [avg]⟩ },
    by decide +kernel, by decide +kernel⟩

/-- C64 is false: FE has no entry in the table of fields to be weighted, so a group of a 1-pair row and a
3-pair row is averaged without weights. -/
theorem C64_fe_counterexample :
    ∃ t bs, Sl1l2Data t bs ∧
      (avg Prod.fst bs.flatten - avg Prod.snd bs.flatten) / avg Prod.fst bs.flatten = 1 / 4 ∧
      aggregated "fe" slFe t = .ok (some (1 / 2)) := by
  refine ⟨{ cols := ["total", "fbar", "obar", "fobar", "ffbar", "oobar"]
            rows := [[some 1, some 1, some 0, some 0, some 1, some 0],
                     [some 3, some 1, some 1, some 1, some 1, some 1]] },
    [[(1, 0)], [(1, 1), (1, 1), (1, 1)]], ?_, ?_, ?_⟩
  · exact
    { rows_ne := by simp
      batch_ne := by simp
      total := ⟨0, rfl, by simp, by simp⟩
      fbar := ⟨1, rfl, by simp <;> decide, by simp [avg] <;> norm_num⟩
      obar := ⟨2, rfl, by simp <;> decide, by simp [avg] <;> norm_num⟩
      fobar := ⟨3, rfl, by simp <;> decide, by simp [avg] <;> norm_num⟩
      ffbar := ⟨4, rfl, by simp <;> decide, by simp [avg] <;> norm_num⟩
      oobar := ⟨5, rfl, by simp <;> decide, by simp [avg] <;> norm_num⟩ }
  · simp [avg]; norm_num
  · decide +kernel

/-- C64, the part that holds: for one row FE is the fractional error of its pairs.  Missing: the
aggregation run of several rows. -/
theorem C64_fe_partial (t : Table) (b : List Pair) (D : Sl1l2Data t [b]) (hf : avg Prod.fst b ≠ 0) :
    slFe t false = some (roundHalfUp (meanError b / avg Prod.fst b) 7) := by
  have s : ∀ c x, CompleteColumn t c ([b].map x) → sumColumn t c = some (x b) := by
    intro c x h; rw [sumColumn_of_complete D.rows_ne h]; simp
  have d1 : ∀ x : ℚ, pyDiv x 1 = some x := fun x => by simp [pyDiv]
  simp [slFe, getTotalValues, s _ _ D.fbar, s _ _ D.obar, d1, PRECISION, meanError_eq, pyDiv_ne hf]

/-- C65 is false: when the mean observation is zero the scatter index raises ZeroDivisionError. -/
theorem C65_si_counterexample :
    ∃ t bs, Sl1l2Data t bs ∧ aggregated "si" slSi t = .ok (.error .zeroDivisionError) := by
  refine ⟨exEst, _, exEst_data, ?_⟩
  obtain ⟨t', h1, h2, h3, h4⟩ := sl_prepared exEst_data "si"
    ["ffbar", "oobar", "fobar", "obar"] rfl (by simp) (by simp)
  have s1 := h3 "ffbar" (by simp)
  have s2 := h3 "oobar" (by simp)
  have s3 := h3 "fobar" (by simp)
  have s5 := h3 "obar" (by simp)
  have v0 : sumColumn t' "total" = some 2 := by rw [h2]; simp
  have v2 : slMse t' true = some 5 := by
    simp [slMse, getTotalValues, v0, s1, s2, s3, pyDiv, gSl_f, gSl_o, gSl_fo, gSl_ff, gSl_oo, PRECISION]
    norm_num
    have := roundHalfUp_int (K := ℚ) 5 7
    exact_mod_cast this
  have v3 : slMean "obar" t' true = some 0 := by
    simp [slMean, getTotalValues, v0, s5, pyDiv, gSl_f, gSl_o, gSl_fo, gSl_ff, gSl_oo, PRECISION]
    exact round7_zero
  simp only [aggregated, h1, bind, Except.bind, pure, Except.pure, slSi, slRmse, v2, v3, lenientSqrt]
  norm_num [Except.map]

/-- C65, the part that holds: with genuine data the scatter index is defined whenever the rounded mean
observation is not zero, and is the (rounded) root of the (rounded) mean squared error over the (rounded) mean
observation. -/
theorem C65_si_partial (t : Table) (bs : List (List Pair)) (D : Sl1l2Data t bs)
    (ho : roundHalfUp (avg Prod.snd bs.flatten) 7 ≠ 0) :
    aggregated "si" slSi t = .ok (.ok (some (roundHalfUp
      (roundHalfUp √((roundHalfUp (meanSquaredError bs.flatten) 7 : ℚ) : ℝ) 7 /
        ((roundHalfUp (avg Prod.snd bs.flatten) 7 : ℚ) : ℝ)) 7))) := by
  obtain ⟨t', h1, h2, h3, h4⟩ := sl_prepared D "si" ["ffbar", "oobar", "fobar", "obar"] rfl
    (by simp) (by simp)
  generalize bs.flatten = P at *
  have hm : 0 ≤ meanSquaredError P := avg_nonneg_sq _ _
  have hm' : 0 ≤ roundHalfUp (meanSquaredError P) 7 := round7_nonneg hm
  have v2 : slMse t' true = some (roundHalfUp (meanSquaredError P) 7) := by
    simp [slMse, getTotalValues, h2, h3 "ffbar" (by simp), h3 "oobar" (by simp), h3 "fobar" (by simp),
      pyDiv_ne h4.ne', PRECISION, mse_eq, avg, gSl_f, gSl_o, gSl_fo, gSl_ff, gSl_oo]
  have v3 : slMean "obar" t' true = some (roundHalfUp (avg Prod.snd P) 7) := by
    simp [slMean, getTotalValues, h2, h3 "obar" (by simp), pyDiv_ne h4.ne', PRECISION, avg, gSl_f, gSl_o, gSl_fo, gSl_ff, gSl_oo]
  rw [aggregated_ok h1]
  simp only [slSi, slRmse, v2, v3, lenientSqrt, if_neg (not_lt.mpr hm'), Except.map, if_neg ho,
    bind, Except.bind, PRECISION]

/-- A non-trivial instance of the hypotheses: two batches of different size. -/
def exTwo : Table :=
  { cols := ["model", "total", "fbar", "obar", "fobar", "ffbar", "oobar"]
    rows := [[none, some 1, some 2, some 1, some 2, some 4, some 1],
             [none, some 2, some 2, some 1, some 3, some 5, some 2]] }

theorem exTwo_data : Sl1l2Data exTwo [[(2, 1)], [(1, 0), (3, 2)]] where
  rows_ne := by simp [exTwo]
  batch_ne := by simp
  total := ⟨1, rfl, by simp [exTwo], by simp [exTwo]⟩
  fbar := ⟨2, rfl, by simp [exTwo] <;> decide, by simp [exTwo, avg] <;> norm_num⟩
  obar := ⟨3, rfl, by simp [exTwo] <;> decide, by simp [exTwo, avg] <;> norm_num⟩
  fobar := ⟨4, rfl, by simp [exTwo] <;> decide, by simp [exTwo, avg] <;> norm_num⟩
  ffbar := ⟨5, rfl, by simp [exTwo] <;> decide, by simp [exTwo, avg] <;> norm_num⟩
  oobar := ⟨6, rfl, by simp [exTwo] <;> decide, by simp [exTwo, avg] <;> norm_num⟩

example : 0 < variance Prod.fst [[((2 : ℚ), (1 : ℚ))], [(1, 0), (3, 2)]].flatten ∧
    0 < variance Prod.snd [[((2 : ℚ), (1 : ℚ))], [(1, 0), (3, 2)]].flatten := by
  constructor <;> simp [variance, avg] <;> norm_num

example : aggregated "mse" slMse exTwo = .ok (some 1) := by
  have := (C15_me_mse exTwo _ exTwo_data).2
  rw [this]
  decide +kernel

end Metcalcpy.Props
