/-
C98  The confidence intervals reported by the paired equivalence test agree with its p-values.
-/
import Verif.Props.C35_Tost
import Verif.Lemmas.Round
import Mathlib.Analysis.SpecialFunctions.Sigmoid

namespace Metcalcpy.Props
open Metcalcpy Spec

/-- Every report of a run has these fields. -/
theorem tost_fields (D : TDist) (a : TostArgs) (V : TostValid a) (hv : 0 < diffVariance a) (r : TostResult)
    (h : tostPaired D a = .ok r) :
    ∃ c, r = tostReport D a √(diffVariance a) (diffSE a)
          (some ((a.m1 - a.m2 - a.low * √(diffVariance a)) / diffSE a,
            (a.m1 - a.m2 - a.high * √(diffVariance a)) / diffSE a))
          (some (1 - D.cdf ((a.m1 - a.m2 - a.low * √(diffVariance a)) / diffSE a) (a.n - 1),
            D.cdf ((a.m1 - a.m2 - a.high * √(diffVariance a)) / diffSE a) (a.n - 1)))
          c (pOutcome (pDiff D a) (level a)) (pOutcome (pEqv D a) (level a)) := by
  rw [tostPaired_run D V hv] at h
  cases hc : combinedOutcome (pDiff D a) (pEqv D a) (level a) with
  | none => rw [hc] at h; cases h
  | some c =>
    rw [hc] at h
    exact ⟨c, (Except.ok.inj h).symm⟩

/-- C98: the reported numbers.  The two intervals are centred at the difference of the means; the equivalence bounds
are multiples of the standard deviation of the difference. -/
theorem C98_report (D : TDist) (a : TostArgs) (V : TostValid a) (hv : 0 < diffVariance a) (r : TostResult)
    (h : tostPaired D a = .ok r) :
    r.dif = reported (a.m1 - a.m2) ∧ r.df = a.n - 1 ∧
    r.ciTost = (reported (a.m1 - a.m2 - halfWidth D a (level a)), reported (a.m1 - a.m2 + halfWidth D a (level a))) ∧
    r.ciTtest = (reported (a.m1 - a.m2 - halfWidth D a (level a / 2)),
      reported (a.m1 - a.m2 + halfWidth D a (level a / 2))) ∧
    r.eqbound = (reported (a.low * √(diffVariance a)), reported (a.high * √(diffVariance a))) ∧
    r.t = some (reported ((a.m1 - a.m2 - a.low * √(diffVariance a)) / diffSE a),
      reported ((a.m1 - a.m2 - a.high * √(diffVariance a)) / diffSE a)) ∧
    r.p = some (reported (1 - D.cdf ((a.m1 - a.m2 - a.low * √(diffVariance a)) / diffSE a) (a.n - 1)),
      reported (D.cdf ((a.m1 - a.m2 - a.high * √(diffVariance a)) / diffSE a) (a.n - 1))) := by
  obtain ⟨c, rfl⟩ := tost_fields D a V hv r h
  have e := tostAlpha_valid V
  refine ⟨rfl, ?_, ?_, ?_, rfl, rfl, rfl⟩
  · have := round7_int (K := ℝ) (a.n - 1)
    simp only [tostReport, r7]
    push_cast at this
    exact this
  · simp only [tostReport, e]; rfl
  · simp only [tostReport, e]; rfl

theorem pEqv_lt_iff {D : TDist} {a : TostArgs} (V : TostValid a) (hv : 0 < diffVariance a)
    (S : IsSymmetricDist D (a.n - 1)) :
    pEqv D a < level a ↔ a.low * √(diffVariance a) < a.m1 - a.m2 - halfWidth D a (level a) ∧
      a.m1 - a.m2 + halfWidth D a (level a) < a.high * √(diffVariance a) := by
  have hse := diffSE_pos V hv
  have hq := S.inv (1 - level a) (by linarith [V.alpha_lt]) (by linarith [V.alpha_pos])
  have m : StrictMono (fun x => D.cdf x (a.n - 1)) := fun x y => S.mono x y
  unfold pEqv halfWidth
  generalize D.ppf (1 - level a) (a.n - 1) = q at *
  rw [max_lt_iff]
  have e1 : ∀ x, 1 - D.cdf x (a.n - 1) < level a ↔ q < x := by
    intro x
    have e := m.lt_iff_lt (a := q) (b := x)
    simp only [hq] at e
    rw [← e]
    constructor <;> intro h <;> linarith
  have e2 : ∀ x, D.cdf x (a.n - 1) < level a ↔ x < -q := by
    intro x
    have e := m.lt_iff_lt (a := x) (b := -q)
    simp only [S.symm, hq] at e
    rw [← e]
    constructor <;> intro h <;> linarith
  rw [e1, e2, lt_div_iff₀ hse, div_lt_iff₀ hse]
  constructor <;> rintro ⟨h1, h2⟩ <;> constructor <;> linarith

theorem pDiff_lt_iff {D : TDist} {a : TostArgs} (V : TostValid a) (hv : 0 < diffVariance a)
    (S : IsSymmetricDist D (a.n - 1)) :
    pDiff D a < level a ↔ 0 < a.m1 - a.m2 - halfWidth D a (level a / 2) ∨
      a.m1 - a.m2 + halfWidth D a (level a / 2) < 0 := by
  have hse := diffSE_pos V hv
  have hq := S.inv (1 - level a / 2) (by linarith [V.alpha_lt]) (by linarith [V.alpha_pos])
  have m : StrictMono (fun x => D.cdf x (a.n - 1)) := fun x y => S.mono x y
  unfold pDiff halfWidth
  generalize D.ppf (1 - level a / 2) (a.n - 1) = q at *
  have e1 : ∀ x, 2 * (1 - D.cdf x (a.n - 1)) < level a ↔ q < x := by
    intro x
    have e := m.lt_iff_lt (a := q) (b := x)
    simp only [hq] at e
    rw [← e]
    constructor <;> intro h <;> linarith
  rw [e1, lt_abs, lt_div_iff₀ hse, ← neg_div, lt_div_iff₀ hse]
  constructor <;> rintro (h | h)
  · left; linarith
  · right; linarith
  · left; linarith
  · right; linarith

/-- C98: equivalence is reported as significant exactly when the (1 - 2 alpha) interval lies strictly inside the
equivalence bounds, up to the rounding of the reported numbers. -/
theorem C98_equivalence (D : TDist) (a : TostArgs) (V : TostValid a) (hv : 0 < diffVariance a)
    (S : IsSymmetricDist D (a.n - 1)) (r : TostResult) (h : tostPaired D a = .ok r) :
    (r.tost = .significant → r.eqbound.1 ≤ r.ciTost.1 ∧ r.ciTost.2 ≤ r.eqbound.2) ∧
    (r.eqbound.1 < r.ciTost.1 → r.ciTost.2 < r.eqbound.2 → r.tost = .significant) := by
  have hs : r.tost = .significant ↔ pEqv D a < level a := by
    obtain ⟨c, rfl⟩ := tost_fields D a V hv r h
    simp only [tostReport, pOutcome]; split_ifs <;> simp_all
  obtain ⟨-, -, h1, -, h2, -⟩ := C98_report D a V hv r h
  rw [hs, pEqv_lt_iff V hv S, h1, h2]
  simp only [reported]
  refine ⟨fun ⟨x, y⟩ => ⟨roundHalfUp_mono x.le 7, roundHalfUp_mono y.le 7⟩, fun x y => ⟨?_, ?_⟩⟩
  · by_contra hc; exact absurd (roundHalfUp_mono (not_lt.mp hc) 7) (not_le.mpr x)
  · by_contra hc; exact absurd (roundHalfUp_mono (not_lt.mp hc) 7) (not_le.mpr y)

/-- C98: a difference is reported as significant exactly when zero lies outside the (1 - alpha) interval, up to the
rounding of the reported numbers. -/
theorem C98_difference (D : TDist) (a : TostArgs) (V : TostValid a) (hv : 0 < diffVariance a)
    (S : IsSymmetricDist D (a.n - 1)) (r : TostResult) (h : tostPaired D a = .ok r) :
    (r.test = .significant → 0 ≤ r.ciTtest.1 ∨ r.ciTtest.2 ≤ 0) ∧
    (0 < r.ciTtest.1 ∨ r.ciTtest.2 < 0 → r.test = .significant) := by
  have hs : r.test = .significant ↔ pDiff D a < level a := by
    obtain ⟨c, rfl⟩ := tost_fields D a V hv r h
    simp only [tostReport, pOutcome]; split_ifs <;> simp_all
  obtain ⟨-, -, -, h1, -⟩ := C98_report D a V hv r h
  have z : roundHalfUp (0 : ℝ) 7 = 0 := round7_zero
  rw [hs, pDiff_lt_iff V hv S, h1]
  simp only [reported]
  constructor
  · rintro (x | x)
    · left; rw [← z]; exact roundHalfUp_mono x.le 7
    · right; rw [← z]; exact roundHalfUp_mono x.le 7
  · rintro (x | x)
    · left; by_contra hc; rw [← z] at x; exact absurd (roundHalfUp_mono (not_lt.mp hc) 7) (not_le.mpr x)
    · right; by_contra hc; rw [← z] at x; exact absurd (roundHalfUp_mono (not_lt.mp hc) 7) (not_le.mpr x)

/-- C98: for levels up to one half both intervals contain the difference, the interval of the equivalence test lies in
that of the t-test, and the proposed axis limits enclose the former and the bounds. -/
theorem C98_nested (D : TDist) (a : TostArgs) (V : TostValid a) (hv : 0 < diffVariance a)
    (S : IsSymmetricDist D (a.n - 1)) (ha : level a ≤ 1 / 2) (hb : a.low ≤ a.high) (r : TostResult)
    (h : tostPaired D a = .ok r) :
    r.ciTtest.1 ≤ r.ciTost.1 ∧ r.ciTost.1 ≤ r.dif ∧ r.dif ≤ r.ciTost.2 ∧ r.ciTost.2 ≤ r.ciTtest.2 ∧
    r.eqbound.1 ≤ r.eqbound.2 ∧
    r.xlim.1 ≤ r.ciTost.1 ∧ r.xlim.1 ≤ r.eqbound.1 ∧ r.ciTost.2 ≤ r.xlim.2 ∧ r.eqbound.2 ≤ r.xlim.2 := by
  have hse := diffSE_pos V hv
  have hp := V.alpha_pos
  have m : StrictMono (fun x => D.cdf x (a.n - 1)) := fun x y => S.mono x y
  have half : D.cdf 0 (a.n - 1) = 1 / 2 := by have := S.symm 0; rw [neg_zero] at this; linarith
  have q1 := S.inv (1 - level a) (by linarith) (by linarith)
  have q2 := S.inv (1 - level a / 2) (by linarith) (by linarith)
  have w1 : 0 ≤ halfWidth D a (level a) := by
    refine mul_nonneg ?_ hse.le
    rw [← m.le_iff_le]; simp only [q1, half]; linarith
  have w2 : halfWidth D a (level a) ≤ halfWidth D a (level a / 2) := by
    refine mul_le_mul_of_nonneg_right ?_ hse.le
    rw [← m.le_iff_le]; simp only [q1, q2]; linarith
  have hB : a.low * √(diffVariance a) ≤ a.high * √(diffVariance a) :=
    mul_le_mul_of_nonneg_right hb (Real.sqrt_nonneg _)
  obtain ⟨h0, -, h1, h2, h3, -⟩ := C98_report D a V hv r h
  have hx : r.xlim = (reported (min (a.m1 - a.m2 - halfWidth D a (level a)) (a.low * √(diffVariance a)) -
        max (a.m1 - a.m2 + halfWidth D a (level a) - (a.m1 - a.m2 - halfWidth D a (level a)))
          (a.high * √(diffVariance a) - a.low * √(diffVariance a)) / 10),
      reported (max (a.m1 - a.m2 + halfWidth D a (level a)) (a.high * √(diffVariance a)) +
        max (a.m1 - a.m2 + halfWidth D a (level a) - (a.m1 - a.m2 - halfWidth D a (level a)))
          (a.high * √(diffVariance a) - a.low * √(diffVariance a)) / 10)) := by
    obtain ⟨c, rfl⟩ := tost_fields D a V hv r h
    simp only [tostReport, tostAlpha_valid V]; rfl
  rw [h0, h1, h2, h3, hx]
  simp only [reported]
  generalize halfWidth D a (level a) = w at *
  generalize halfWidth D a (level a / 2) = w' at *
  generalize a.low * √(diffVariance a) = L at *
  generalize a.high * √(diffVariance a) = H at *
  have hm : 0 ≤ max (a.m1 - a.m2 + w - (a.m1 - a.m2 - w)) (H - L) := le_max_of_le_right (by linarith)
  generalize max (a.m1 - a.m2 + w - (a.m1 - a.m2 - w)) (H - L) = M at *
  refine ⟨?_, ?_, ?_, ?_, ?_, ?_, ?_, ?_, ?_⟩ <;> apply roundHalfUp_mono
  · linarith
  · linarith
  · linarith
  · linarith
  · exact hB
  · linarith [min_le_left (a.m1 - a.m2 - w) L]
  · linarith [min_le_right (a.m1 - a.m2 - w) L]
  · linarith [le_max_left (a.m1 - a.m2 + w) H]
  · linarith [le_max_right (a.m1 - a.m2 + w) H]

/-- The logistic distribution. -/
noncomputable def logisticDist : TDist where
  cdf := fun x _ => Real.sigmoid x
  ppf := fun p _ => Function.invFun Real.sigmoid p

theorem logistic_symmetric (df : ℝ) : IsSymmetricDist logisticDist df where
  mono := fun _ _ h => Real.sigmoid_strictMono h
  symm := fun x => Real.sigmoid_neg x
  inv := fun p h0 h1 => by
    refine Function.invFun_eq (f := Real.sigmoid) ?_
    have : p ∈ Set.range Real.sigmoid := by rw [Real.range_sigmoid]; exact ⟨h0, h1⟩
    exact this

/-- The hypotheses are satisfiable: for the logistic distribution and equal means a report exists, in which the
difference is not significant. -/
example : ∃ r, tostPaired logisticDist (exTost 0 (some (1 / 20))) = .ok r ∧ r.test = .nonSignificant := by
  have V := exTost_valid 0 (1 / 20) (by norm_num) (by norm_num)
  have hv : 0 < diffVariance (exTost 0 (some (1 / 20))) := by rw [exTost_variance]; norm_num
  have hp : pDiff logisticDist (exTost 0 (some (1 / 20))) = 1 := by
    simp [pDiff, exTost, logisticDist, Real.sigmoid_zero]; norm_num
  obtain ⟨r, h1, _, h3, _⟩ := C35_outcome_partial logisticDist _ V hv (by rw [hp]; norm_num [level, exTost])
  refine ⟨r, h1, ?_⟩
  obtain ⟨c, rfl⟩ := tost_fields _ _ V hv r h1
  simp only [tostReport, pOutcome, hp]
  norm_num [level, exTost]

end Metcalcpy.Props
