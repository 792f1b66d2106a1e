/-
C35  The paired TOST always reports a combined outcome (fails when the t-test p-value equals alpha).
C36  Invalid TOST input is rejected before any computation (fails for alpha = 0).
C75  The second implementation of the test reports an outcome for strong evidence (fails for p = 0).
-/
import Verif.Spec.Tost
import Mathlib.Tactic.Linarith
import Mathlib.Tactic.NormNum

namespace Metcalcpy.Props
open Metcalcpy Spec

theorem diffVariance_nonneg {a : TostArgs} (V : TostValid a) : 0 ≤ diffVariance a := by
  unfold diffVariance
  have h := abs_le.mp V.r12
  have h1 := mul_pos V.sd1 V.sd2
  nlinarith [sq_nonneg (a.sd1 - a.sd2)]

theorem radicand_eq (a : TostArgs) :
    a.sd1 * a.sd1 + a.sd2 * a.sd2 - 2 * a.r12 * a.sd1 * a.sd2 = diffVariance a := by
  unfold diffVariance; ring

theorem tostAlpha_valid {a : TostArgs} (V : TostValid a) : tostAlpha a.alpha = level a := by
  have h := V.alpha_pos
  unfold tostAlpha level at *
  cases hα : a.alpha with
  | none => rfl
  | some x =>
    rw [hα] at h
    have h' : x ≠ 0 := ne_of_gt (by simpa using h)
    simp [h']

theorem tostCheck_valid {a : TostArgs} (V : TostValid a) : tostCheck a = .ok () := by
  have h := abs_le.mp V.r12
  unfold tostCheck
  rw [tostAlpha_valid V, if_neg (not_lt.mpr V.n),
    if_neg (by push Not; exact ⟨V.alpha_lt, V.alpha_pos⟩),
    if_neg (by push Not; exact ⟨V.sd1, V.sd2⟩), if_neg (by push Not; exact ⟨h.2, h.1⟩)]

theorem n_pos {a : TostArgs} (V : TostValid a) : (0 : ℝ) < a.n := by
  have : (2 : ℤ) ≤ a.n := V.n
  exact_mod_cast (by linarith : (0 : ℤ) < a.n)

theorem sqrt_n_ne {a : TostArgs} (V : TostValid a) : √(a.n : ℝ) ≠ 0 := (Real.sqrt_pos.mpr (n_pos V)).ne'

theorem diffSE_pos {a : TostArgs} (V : TostValid a) (h : 0 < diffVariance a) : 0 < diffSE a :=
  div_pos (Real.sqrt_pos.mpr h) (Real.sqrt_pos.mpr (n_pos V))

/-- Whole run for admissible arguments with a positive variance of the difference. -/
theorem tostPaired_run (D : TDist) {a : TostArgs} (V : TostValid a) (hv : 0 < diffVariance a) :
    tostPaired D a = match combinedOutcome (pDiff D a) (pEqv D a) (level a) with
      | none => .error .unboundLocalError
      | some c => .ok (tostReport D a √(diffVariance a) (diffSE a)
          (some ((a.m1 - a.m2 - a.low * √(diffVariance a)) / diffSE a,
            (a.m1 - a.m2 - a.high * √(diffVariance a)) / diffSE a))
          (some (1 - D.cdf ((a.m1 - a.m2 - a.low * √(diffVariance a)) / diffSE a) (a.n - 1),
            D.cdf ((a.m1 - a.m2 - a.high * √(diffVariance a)) / diffSE a) (a.n - 1)))
          c (pOutcome (pDiff D a) (level a)) (pOutcome (pEqv D a) (level a))) := by
  have hse : √(diffVariance a) / √(a.n : ℝ) ≠ 0 := (diffSE_pos V hv).ne'
  simp only [tostPaired, tostCheck_valid V, bind, Except.bind, radicand_eq, pySqrt, if_neg (not_lt.mpr hv.le),
    if_neg (not_lt.mpr (n_pos V).le), pyDivRE, if_neg (sqrt_n_ne V), if_neg hse, tostAlpha_valid V, pt]
  rfl

theorem combined_spec (p q al : ℝ) :
    (p = al ∧ al < q ∧ combinedOutcome p q al = none) ∨
    (¬ (p = al ∧ al < q) ∧ ∃ c, combinedOutcome p q al = some c ∧ OutcomeMeans c (p ≤ al) (q ≤ al)) := by
  unfold combinedOutcome OutcomeMeans
  rcases lt_trichotomy p al with h1 | h1 | h1 <;> rcases le_or_gt q al with h2 | h2
  · right; refine ⟨fun h => absurd h.1 h1.ne, .diffEqv, ?_, ?_⟩ <;>
      simp [h1, h1.le, h2, not_lt.mpr h1.le, not_lt.mpr h2]
  · right; refine ⟨fun h => absurd h.1 h1.ne, .diffNoEqv, ?_, ?_⟩ <;>
      simp [h1, h1.le, h2, not_lt.mpr h1.le, not_le.mpr h2]
  · right; refine ⟨fun h => absurd h.2 (not_lt.mpr h2), .diffEqv, ?_, ?_⟩ <;>
      simp [h1, h2, not_lt.mpr h2]
  · left; refine ⟨h1, h2, ?_⟩
    simp [h1, h2, not_le.mpr h2]
  · right; refine ⟨fun h => absurd h.1 h1.ne', .noDiffEqv, ?_, ?_⟩ <;>
      simp [h1, not_le.mpr h1, h2, not_lt.mpr h1.le, not_lt.mpr h2]
  · right; refine ⟨fun h => absurd h.1 h1.ne', .noDiffNoEqv, ?_, ?_⟩ <;>
      simp [h1, not_le.mpr h1, h2, not_le.mpr h2]

/-- C35 (everything but the boundary): admissible arguments with a varying difference give one of the four
outcomes, the one fitting the two p-values, unless the t-test p-value equals alpha while the equivalence
p-value exceeds it.  The p-values are in the report. -/
theorem C35_outcome_partial (D : TDist) (a : TostArgs) (V : TostValid a) (hv : 0 < diffVariance a)
    (hb : ¬ (pDiff D a = level a ∧ level a < pEqv D a)) :
    ∃ r, tostPaired D a = .ok r ∧ OutcomeMeans r.combined (pDiff D a ≤ level a) (pEqv D a ≤ level a) ∧
      (r.test = .significant ↔ pDiff D a < level a) ∧ (r.tost = .significant ↔ pEqv D a < level a) := by
  rcases combined_spec (pDiff D a) (pEqv D a) (level a) with ⟨h1, h2, _⟩ | ⟨_, c, hc, hm⟩
  · exact absurd ⟨h1, h2⟩ hb
  · rw [tostPaired_run D V hv, hc]
    refine ⟨_, rfl, hm, ?_, ?_⟩ <;> simp only [tostReport, pOutcome] <;> split_ifs <;> simp_all

/-- C35 fails on the boundary, for every such input: UnboundLocalError. -/
theorem C35_boundary (D : TDist) (a : TostArgs) (V : TostValid a) (hv : 0 < diffVariance a)
    (h1 : pDiff D a = level a) (h2 : level a < pEqv D a) :
    tostPaired D a = .error .unboundLocalError := by
  rcases combined_spec (pDiff D a) (pEqv D a) (level a) with ⟨_, _, h⟩ | ⟨h, _⟩
  · rw [tostPaired_run D V hv, h]
  · exact absurd ⟨h1, h2⟩ h

/-- C35 fails for a constant difference (equal deviations, correlation 1): ZeroDivisionError. -/
theorem C35_zero_variance (D : TDist) (a : TostArgs) (V : TostValid a) (hv : diffVariance a = 0) :
    tostPaired D a = .error .zeroDivisionError := by
  simp only [tostPaired, tostCheck_valid V, bind, Except.bind, radicand_eq, hv, pySqrt, lt_irrefl, if_false,
    if_neg (not_lt.mpr (n_pos V).le), pyDivRE, if_neg (sqrt_n_ne V), Real.sqrt_zero, zero_div, if_true]

/-- A distribution function increasing from 0 to 1, symmetric (for the examples). -/
noncomputable def exDist : TDist where
  cdf := fun q _ => if q ≤ -2 then 0 else if q < 2 then (q + 2) / 4 else 1
  ppf := fun p _ => 4 * p - 2

noncomputable def exTost (m : ℝ) (al : Option ℝ) : TostArgs := ⟨4, m, 0, 1, 1, 1 / 2, -1, 1, al⟩

theorem exTost_variance (m : ℝ) (al : Option ℝ) : diffVariance (exTost m al) = 1 := by
  simp [diffVariance, exTost]

theorem exTost_valid (m x : ℝ) (h0 : 0 < x) (h1 : x < 1) : TostValid (exTost m (some x)) where
  n := by norm_num [exTost]
  alpha_pos := h0
  alpha_lt := h1
  sd1 := by norm_num [exTost]
  sd2 := by norm_num [exTost]
  r12 := by norm_num [exTost, abs_le]

theorem exTost_se (m : ℝ) (al : Option ℝ) : diffSE (exTost m al) = 1 / 2 := by
  have h4 : √(4 : ℝ) = 2 := by rw [show (4 : ℝ) = 2 ^ 2 by norm_num]; exact Real.sqrt_sq (by norm_num)
  rw [diffSE, exTost_variance, Real.sqrt_one]
  simp [exTost, h4]

theorem exTost_p (al : Option ℝ) : pDiff exDist (exTost (3 / 4) al) = 1 / 4 ∧
    pEqv exDist (exTost (3 / 4) al) = 3 / 8 := by
  constructor
  · rw [pDiff, exTost_se]
    norm_num [exTost, exDist]
  · rw [pEqv, exTost_se, exTost_variance, Real.sqrt_one]
    norm_num [exTost, exDist]

/-- C35 counterexample: an admissible input with p = alpha = 1/4 and p(equivalence) = 3/8. -/
theorem C35_counterexample : ∃ (D : TDist) (a : TostArgs), TostValid a ∧
    tostPaired D a = .error .unboundLocalError := by
  refine ⟨exDist, exTost (3 / 4) (some (1 / 4)), exTost_valid _ _ (by norm_num) (by norm_num), ?_⟩
  apply C35_boundary _ _ (exTost_valid _ _ (by norm_num) (by norm_num))
  · rw [exTost_variance]; norm_num
  · rw [(exTost_p _).1]; simp [level, exTost]
  · rw [(exTost_p _).2]; simp [level, exTost]; norm_num

example : TostValid (exTost (3 / 4) (some (1 / 20))) ∧ 0 < diffVariance (exTost (3 / 4) (some (1 / 20))) ∧
    ¬ (pDiff exDist (exTost (3 / 4) (some (1 / 20))) = level (exTost (3 / 4) (some (1 / 20))) ∧
      level (exTost (3 / 4) (some (1 / 20))) < pEqv exDist (exTost (3 / 4) (some (1 / 20)))) := by
  refine ⟨exTost_valid _ _ (by norm_num) (by norm_num), by rw [exTost_variance]; norm_num, ?_⟩
  rw [(exTost_p _).1]
  simp [level, exTost]

/-! ### C36 -/

/-- C36: apart from alpha = 0, the program ends exactly for arguments outside the documented ranges. -/
theorem C36_exit_iff_partial (D : TDist) (a : TostArgs) (h0 : a.alpha ≠ some 0) :
    tostPaired D a = .error .systemExit ↔ ¬ TostValid a := by
  constructor
  · intro h V
    rcases (diffVariance_nonneg V).eq_or_lt with hv | hv
    · rw [C35_zero_variance D a V hv.symm] at h; cases h
    · rw [tostPaired_run D V hv] at h
      cases hc : combinedOutcome (pDiff D a) (pEqv D a) (level a) <;> rw [hc] at h <;> cases h
  · intro h
    have hal : tostAlpha a.alpha = level a := by
      unfold tostAlpha level
      cases hα : a.alpha with
      | none => rfl
      | some x =>
        have : x ≠ 0 := fun hx => h0 (by rw [hα, hx])
        simp [this]
    have hc : tostCheck a = .error .systemExit := by
      unfold tostCheck
      rw [hal]
      by_contra hne
      apply h
      split_ifs at hne with h1 h2 h3 h4
      · exact absurd rfl hne
      · exact absurd rfl hne
      · exact absurd rfl hne
      · exact absurd rfl hne
      · push Not at h1 h2 h3 h4
        exact ⟨h1, h2.2, h2.1, h3.1, h3.2, abs_le.mpr ⟨h4.2, h4.1⟩⟩
    simp only [tostPaired, hc, bind, Except.bind]

/-- C36: for admissible arguments the radicand is not negative, so `math.sqrt` cannot raise; the only
exceptions left are the two of C35. -/
theorem C36_no_value_error (D : TDist) (a : TostArgs) (V : TostValid a) :
    0 ≤ diffVariance a ∧ tostPaired D a ≠ .error .valueError := by
  refine ⟨diffVariance_nonneg V, fun h => ?_⟩
  rcases (diffVariance_nonneg V).eq_or_lt with hv | hv
  · rw [C35_zero_variance D a V hv.symm] at h; cases h
  · rw [tostPaired_run D V hv] at h
    cases hc : combinedOutcome (pDiff D a) (pEqv D a) (level a) <;> rw [hc] at h <;> cases h

/-- C36 fails for alpha = 0: it is silently replaced by 0.05 and the test runs. -/
theorem C36_counterexample : ∃ (D : TDist) (a : TostArgs), a.alpha = some 0 ∧ ¬ TostValid a ∧
    ∃ r, tostPaired D a = .ok r := by
  refine ⟨exDist, exTost (3 / 4) (some 0), rfl, fun V => ?_, ?_⟩
  · have := V.alpha_pos; simp [level, exTost] at this
  · obtain ⟨r, hr, _⟩ := C35_outcome_partial exDist (exTost (3 / 4) (some (1 / 20)))
      (exTost_valid _ _ (by norm_num) (by norm_num)) (by rw [exTost_variance]; norm_num)
      (by rw [(exTost_p _).1]; simp [level, exTost])
    refine ⟨r, ?_⟩
    rw [← hr]
    have e : tostAlpha (exTost (3 / 4) (some 0)).alpha = tostAlpha (exTost (3 / 4) (some (1 / 20))).alpha := by
      simp [exTost, tostAlpha]; norm_num
    simp only [tostPaired, tostCheck, tostReport, e]
    rfl

example : ¬ TostValid (exTost 1 (some 2)) := fun V => by
  have := V.alpha_lt; norm_num [level, exTost] at this

/-! ### C75 -/

theorem tostUtils_run (D : TDist) {a : TostArgs} (V : TostValid a) (hv : 0 < diffVariance a) :
    tostPairedUtils D a = if pDiff D a ≠ 0 ∧ pEqv D a ≠ 0 then tostPaired D a
      else .ok (tostReport D a √(diffVariance a) (diffSE a) none none .none' .none' .none') := by
  rw [tostPaired_run D V hv]
  have hse : √(diffVariance a) / √(a.n : ℝ) ≠ 0 := (diffSE_pos V hv).ne'
  simp only [tostPairedUtils, tostCheck_valid V, bind, Except.bind, radicand_eq, pySqrt,
    if_neg (not_lt.mpr hv.le), if_neg (not_lt.mpr (n_pos V).le), pyDivRE, if_neg (sqrt_n_ne V), if_neg hse,
    tostAlpha_valid V, pt]
  rfl

/-- C75 (the part that holds): when neither p-value is exactly zero, the version in utils agrees with the
one in tost_paired. -/
theorem C75_agree_partial (D : TDist) (a : TostArgs) (V : TostValid a) (hv : 0 < diffVariance a)
    (h1 : pDiff D a ≠ 0) (h2 : pEqv D a ≠ 0) : tostPairedUtils D a = tostPaired D a := by
  rw [tostUtils_run D V hv, if_pos ⟨h1, h2⟩]

/-- C75: a constant difference gives a report without outcome instead of an exception. -/
theorem C75_zero_variance (D : TDist) (a : TostArgs) (V : TostValid a) (hv : diffVariance a = 0) :
    ∃ r, tostPairedUtils D a = .ok r ∧ r.combined = .none' ∧ r.p = none := by
  refine ⟨tostReport D a 0 0 none none .none' .none' .none', ?_, rfl, rfl⟩
  simp only [tostPairedUtils, tostCheck_valid V, bind, Except.bind, radicand_eq, hv, pySqrt, lt_irrefl,
    if_false, if_neg (not_lt.mpr (n_pos V).le), pyDivRE, if_neg (sqrt_n_ne V), Real.sqrt_zero, zero_div, if_true]

/-- C75 fails: whenever a p-value is exactly 0 (the strongest possible evidence), no outcome and no p-values
are reported, although the other version reports them. -/
theorem C75_zero_p (D : TDist) (a : TostArgs) (V : TostValid a) (hv : 0 < diffVariance a)
    (h : pDiff D a = 0 ∨ pEqv D a = 0) :
    ∃ r, tostPairedUtils D a = .ok r ∧ r.combined = .none' ∧ r.test = .none' ∧ r.p = none := by
  rw [tostUtils_run D V hv, if_neg (by tauto)]
  exact ⟨_, rfl, rfl, rfl, rfl⟩

theorem C75_counterexample : ∃ (D : TDist) (a : TostArgs), TostValid a ∧
    (∃ r, tostPaired D a = .ok r ∧ r.test = .significant) ∧
    (∃ r, tostPairedUtils D a = .ok r ∧ r.test = .none') := by
  have V := exTost_valid 2 (1 / 20) (by norm_num) (by norm_num)
  have hv : 0 < diffVariance (exTost 2 (some (1 / 20))) := by rw [exTost_variance]; norm_num
  have hp : pDiff exDist (exTost 2 (some (1 / 20))) = 0 := by
    rw [pDiff, exTost_se]; norm_num [exTost, exDist]
  refine ⟨exDist, exTost 2 (some (1 / 20)), V, ?_, ?_⟩
  · obtain ⟨r, h1, _, h3, _⟩ := C35_outcome_partial exDist _ V hv (by
      rw [hp]; simp [level, exTost])
    exact ⟨r, h1, h3.mpr (by rw [hp]; simp [level, exTost])⟩
  · obtain ⟨r, h1, _, h3, _⟩ := C75_zero_p exDist _ V hv (Or.inl hp)
    exact ⟨r, h1, h3⟩

example : pDiff exDist (exTost (3 / 4) none) ≠ 0 ∧ pEqv exDist (exTost (3 / 4) none) ≠ 0 := by
  rw [(exTost_p _).1, (exTost_p _).2]; norm_num

end Metcalcpy.Props
