/-
C196  The Bayes factor of a correlation.
-/
import Verif.Model.Shepherd
import Mathlib.Analysis.SpecialFunctions.Pow.Real
import Mathlib.Analysis.SpecialFunctions.Gamma.Beta
import Mathlib.Topology.Algebra.InfiniteSum.Order
import Mathlib.Tactic.Linarith
import Mathlib.Tactic.Positivity

namespace Metcalcpy.Props
open Metcalcpy

/-- The coefficients of the hypergeometric function are positive. -/
theorem hyper_coeff_pos (a c : ℝ) (ha : 0 < a) (hc : 0 < c) (m : ℕ) :
    0 < ((m.factorial : ℝ)⁻¹) * (ascPochhammer ℝ m).eval a * (ascPochhammer ℝ m).eval a * ((ascPochhammer ℝ m).eval c)⁻¹ := by
  have h1 := ascPochhammer_pos m a ha
  have h2 := ascPochhammer_pos m c hc
  have h3 : (0 : ℝ) < m.factorial := by exact_mod_cast m.factorial_pos
  positivity

theorem hyper_summable (a c : ℝ) (ha : 0 < a) (hc : 0 < c) (z : ℝ) (h0 : 0 ≤ z) (h1 : z < 1) :
    Summable fun m : ℕ => ((m.factorial : ℝ)⁻¹ * (ascPochhammer ℝ m).eval a * (ascPochhammer ℝ m).eval a *
      ((ascPochhammer ℝ m).eval c)⁻¹) * z ^ m := by
  have hr := ordinaryHypergeometricSeries_radius_eq_one (𝕂 := ℝ) ℝ a a c (fun m => by
    have : (0 : ℝ) ≤ m := Nat.cast_nonneg m
    refine ⟨?_, ?_, ?_⟩ <;> linarith)
  have hz : z ∈ Metric.eball (0 : ℝ) (ordinaryHypergeometricSeries ℝ a a c).radius := by
    rw [hr]
    simp [Metric.mem_eball, edist_dist, abs_of_nonneg h0, h1]
  have := FormalMultilinearSeries.summable _ hz
  simpa only [ordinaryHypergeometricSeries_apply_eq, smul_eq_mul] using this

/-- The hypergeometric function increases on [0, 1). -/
theorem hyper_lt (a c : ℝ) (ha : 0 < a) (hc : 0 < c) (z w : ℝ) (h0 : 0 ≤ z) (h1 : z < w) (h2 : w < 1) :
    ordinaryHypergeometric a a c z < ordinaryHypergeometric a a c w := by
  rw [ordinaryHypergeometric_eq_tsum]
  simp only [smul_eq_mul]
  refine Summable.tsum_lt_tsum (i := 1) (fun m => ?_) ?_ (hyper_summable a c ha hc z h0 (h1.trans h2))
    (hyper_summable a c ha hc w (h0.trans h1.le) h2)
  · exact mul_le_mul_of_nonneg_left (pow_le_pow_left₀ h0 h1.le m) (hyper_coeff_pos a c ha hc m).le
  · have := hyper_coeff_pos a c ha hc 1
    simp only [pow_one]
    exact mul_lt_mul_of_pos_left h1 this

theorem hyper_pos (a c : ℝ) (ha : 0 < a) (hc : 0 < c) (z : ℝ) (h0 : 0 ≤ z) (h1 : z < 1) : 0 < ordinaryHypergeometric a a c z := by
  rcases h0.eq_or_lt with rfl | h
  · rw [ordinaryHypergeometric_zero]
    exact one_pos
  · have := hyper_lt a c ha hc 0 z le_rfl h h1
    rw [ordinaryHypergeometric_zero] at this
    linarith

/-- The hypotheses that may be named. -/
def tailNames : List String := ["two-sided", "one-sided", "greater", "less", "g", "l", "positive", "negative", "pos", "neg"]

/-- **C196, the documented formula.**  For a correlation inside (-1, 1), at least two cases and a positive kappa, the value is
`2^(1 - 2/κ) √π / B(1/κ, 1/κ) · Γ((n - 1 + 2/κ)/2) / Γ((n + 2/κ)/2) · ₂F₁((n-1)/2, (n-1)/2; (n + 2/κ)/2; r²)`. -/
theorem C196_formula (r : ℝ) (hr : |r| < 1) (n : ℕ) (hn : 2 ≤ n) (tail : String) (ht : tail.toLower ∈ tailNames) (k : ℝ) (hk : 0 < k) :
    bayesfactorPearson r n tail k = .ok (some (2 ^ (1 - 2 / k) * √Real.pi /
      (Real.Gamma (1 / k) * Real.Gamma (1 / k) / Real.Gamma (2 / k)) * (Real.Gamma (((n : ℝ) - 1 + 2 / k) / 2) / Real.Gamma (((n : ℝ) + 2 / k) / 2)) *
      ordinaryHypergeometric (((n : ℝ) - 1) / 2) (((n : ℝ) - 1) / 2) (((n : ℝ) + 2 / k) / 2) (r ^ 2))) := by
  have hb := abs_lt.mp hr
  have hn' : (2 : ℝ) ≤ n := by exact_mod_cast hn
  have hk2 : 0 < 2 / k := by positivity
  unfold tailNames at ht
  unfold bayesfactorPearson
  rw [if_neg (not_not.mpr ht), if_neg (by omega), if_neg (not_not.mpr ⟨hb.1.le, hb.2.le⟩)]
  dsimp only
  congr 2
  have g1 : 0 < Real.Gamma (1 / k) := Real.Gamma_pos_of_pos (by positivity)
  have g2 : 0 < Real.Gamma (2 / k) := Real.Gamma_pos_of_pos hk2
  have g3 : 0 < Real.Gamma (((n : ℝ) - 1 + 2 / k) / 2) := Real.Gamma_pos_of_pos (by linarith)
  have g4 : 0 < Real.Gamma (((n : ℝ) + 2 / k) / 2) := Real.Gamma_pos_of_pos (by linarith)
  have hF := hyper_pos (((n : ℝ) - 1) / 2) (((n : ℝ) + 2 / k) / 2) (by linarith) (by linarith) (r ^ 2) (sq_nonneg r)
    ((sq_lt_one_iff_abs_lt_one r).mpr hr)
  have hpi := Real.pi_pos
  have h1 : 1 / k + 1 / k = 2 / k := by ring
  have h2 : ((n : ℝ) + 2 / k - 1) / 2 = ((n : ℝ) - 1 + 2 / k) / 2 := by ring
  rw [h1, h2, Real.exp_add, Real.exp_sub, Real.exp_add, Real.exp_sub, Real.exp_add, Real.exp_log hF, Real.exp_log g4, Real.exp_log g3,
    Real.exp_log (by positivity)]
  have h3 : Real.exp ((1 - 2 / k) * Real.log 2) = 2 ^ (1 - 2 / k) := by
    rw [Real.rpow_def_of_pos two_pos, mul_comm]
  have h4 : Real.exp (0.5 * Real.log Real.pi) = √Real.pi := by
    rw [Real.sqrt_eq_rpow, Real.rpow_def_of_pos hpi, mul_comm]
    norm_num
  rw [h3, h4]
  ring

/-- **C196, evidence grows with the correlation.**  The factor is positive, depends on the absolute value of the correlation only and is
strictly larger for a stronger one. -/
theorem C196_monotone (r s : ℝ) (hrs : |r| < |s|) (hs : |s| < 1) (n : ℕ) (hn : 2 ≤ n) (tail : String) (ht : tail.toLower ∈ tailNames)
    (k : ℝ) (hk : 0 < k) : ∃ b b' : ℝ, bayesfactorPearson r n tail k = .ok (some b) ∧ bayesfactorPearson s n tail k = .ok (some b') ∧
      0 < b ∧ b < b' := by
  have hn' : (2 : ℝ) ≤ n := by exact_mod_cast hn
  have hk2 : 0 < 2 / k := by positivity
  have g1 : 0 < Real.Gamma (1 / k) := Real.Gamma_pos_of_pos (by positivity)
  have g2 : 0 < Real.Gamma (2 / k) := Real.Gamma_pos_of_pos hk2
  have g3 : 0 < Real.Gamma (((n : ℝ) - 1 + 2 / k) / 2) := Real.Gamma_pos_of_pos (by linarith)
  have g4 : 0 < Real.Gamma (((n : ℝ) + 2 / k) / 2) := Real.Gamma_pos_of_pos (by linarith)
  have hpi := Real.pi_pos
  have ha : 0 < ((n : ℝ) - 1) / 2 := by linarith
  have hc : 0 < ((n : ℝ) + 2 / k) / 2 := by linarith
  have hF := hyper_pos _ _ ha hc (r ^ 2) (sq_nonneg r) ((sq_lt_one_iff_abs_lt_one r).mpr (hrs.trans hs))
  have hL := hyper_lt _ _ ha hc (r ^ 2) (s ^ 2) (sq_nonneg r) (sq_lt_sq.mpr hrs) ((sq_lt_one_iff_abs_lt_one s).mpr hs)
  refine ⟨_, _, C196_formula r (hrs.trans hs) n hn tail ht k hk, C196_formula s hs n hn tail ht k hk, ?_, ?_⟩
  · positivity
  · exact mul_lt_mul_of_pos_left hL (by positivity)

/-- **C196, the sign does not matter.** -/
theorem C196_sign (r : ℝ) (n : ℕ) (tail : String) (k : ℝ) : bayesfactorPearson (-r) n tail k = bayesfactorPearson r n tail k := by
  unfold bayesfactorPearson
  have : (-1 ≤ -r ∧ -r ≤ 1) ↔ (-1 ≤ r ∧ r ≤ 1) := by constructor <;> rintro ⟨h1, h2⟩ <;> constructor <;> linarith
  simp only [this, neg_sq]

/-- **C196, what is not computed.**  No factor for fewer than two cases; impossible correlations and unknown alternatives are refused. -/
theorem C196_refused (r : ℝ) (n : ℕ) (tail : String) (k : ℝ) :
    (tail.toLower ∉ tailNames → bayesfactorPearson r n tail k = .error .assertionError) ∧
    (tail.toLower ∈ tailNames → n < 2 → bayesfactorPearson r n tail k = .ok none) ∧
    (tail.toLower ∈ tailNames → 2 ≤ n → 1 < |r| → bayesfactorPearson r n tail k = .error .assertionError) := by
  unfold bayesfactorPearson tailNames
  refine ⟨fun h => by rw [if_pos h], fun h hn => by rw [if_neg (not_not.mpr h), if_pos hn], fun h hn hr => ?_⟩
  rw [if_neg (not_not.mpr h), if_neg (by omega), if_pos]
  rintro ⟨h1, h2⟩
  exact absurd (abs_le.mpr ⟨h1, h2⟩) (not_le.mpr hr)

/-- **C196, the alternative counts for nothing.**  A one-sided alternative is accepted but the factor is that of the two-sided one: 'greater'
and 'less' give the same evidence for the same correlation. -/
theorem C196_tail_ignored (r : ℝ) (n : ℕ) (tail tail' : String) (ht : tail.toLower ∈ tailNames) (ht' : tail'.toLower ∈ tailNames) (k : ℝ) :
    bayesfactorPearson r n tail k = bayesfactorPearson r n tail' k := by
  unfold bayesfactorPearson
  unfold tailNames at ht ht'
  rw [if_neg (not_not.mpr ht), if_neg (not_not.mpr ht')]

/-- Not vacuous: a stronger correlation of twenty cases, and both directions. -/
example : (∃ b b' : ℝ, bayesfactorPearson (1 / 4) 20 "greater" 1 = .ok (some b) ∧ bayesfactorPearson (-1 / 2) 20 "greater" 1 = .ok (some b') ∧
    0 < b ∧ b < b') ∧ bayesfactorPearson (1 / 4) 20 "greater" 1 = bayesfactorPearson (1 / 4) 20 "less" 1 :=
  ⟨C196_monotone _ _ (by norm_num [abs_lt, abs_of_pos, abs_of_neg]) (by norm_num [abs_lt]) 20 (by norm_num) _ (by decide +kernel) 1 one_pos,
    C196_tail_ignored _ _ _ _ (by decide +kernel) (by decide +kernel) _⟩

end Metcalcpy.Props
