/-
C09  Contingency-table proportions lie in [0,1].
C10  A contingency-table score is missing exactly when its denominator vanishes.
C11  Skill scores are 1 for a perfect forecast and never exceed 1.
C12  Complementary contingency scores add up.
-/
import Verif.Lemmas.CtcSplit
import Mathlib.Tactic.Linarith
import Mathlib.Tactic.FieldSimp
import Mathlib.Algebra.Order.BigOperators.Group.List

namespace Metcalcpy.Props
open Metcalcpy Spec

variable {t : Table} {h f m c n : List ℚ}

/-- Non-negative counts that add up to the total in every row. -/
structure CtcCounts (h f m c n : List ℚ) : Prop where
  h_nonneg : ∀ x ∈ h, 0 ≤ x
  f_nonneg : ∀ x ∈ f, 0 ≤ x
  m_nonneg : ∀ x ∈ m, 0 ≤ x
  c_nonneg : ∀ x ∈ c, 0 ≤ x
  total_eq : n = List.zipWith (· + ·) (List.zipWith (· + ·) h f) (List.zipWith (· + ·) m c)

theorem zipWith_add_sum : ∀ (x y : List ℚ), x.length = y.length →
    (List.zipWith (· + ·) x y).sum = x.sum + y.sum
  | [], [], _ => by simp
  | [], _ :: _, e => by simp at e
  | _ :: _, [], e => by simp at e
  | a :: x, b :: y, e => by
    simp only [List.zipWith_cons_cons, List.sum_cons]
    rw [zipWith_add_sum x y (by simpa using e)]; ring

theorem CtcCounts.sums (D : CtcData t h f m c n) (C : CtcCounts h f m c n) :
    0 ≤ h.sum ∧ 0 ≤ f.sum ∧ 0 ≤ m.sum ∧ 0 ≤ c.sum ∧ n.sum = h.sum + f.sum + (m.sum + c.sum) := by
  refine ⟨List.sum_nonneg C.h_nonneg, List.sum_nonneg C.f_nonneg, List.sum_nonneg C.m_nonneg,
    List.sum_nonneg C.c_nonneg, ?_⟩
  have e1 : h.length = t.rows.length := by simpa using IsColumn.length D.fy_oy
  have e2 : f.length = t.rows.length := by simpa using IsColumn.length D.fy_on
  have e3 : m.length = t.rows.length := by simpa using IsColumn.length D.fn_oy
  have e4 : c.length = t.rows.length := by simpa using IsColumn.length D.fn_on
  rw [C.total_eq, zipWith_add_sum, zipWith_add_sum, zipWith_add_sum]
  · omega
  · omega
  · simp [e1, e2, e3, e4]

/-! ### C10 -/

/-- C10: each score is the rounded textbook ratio of the pooled counts, missing exactly when its
denominator is zero (`Ratio.rounded`). -/
theorem C10_ratio_scores (D : CtcData t h f m c n) :
    ctcBaser t = .ok (baserRatio h.sum m.sum n.sum).rounded ∧
    ctcAcc t = (accRatio h.sum c.sum n.sum).rounded ∧
    ctcFbias t = (fbiasRatio h.sum f.sum m.sum).rounded ∧
    ctcFmean t = (fmeanRatio h.sum f.sum n.sum).rounded ∧
    ctcPody t = (podyRatio h.sum m.sum).rounded ∧
    ctcPofd t = (pofdRatio f.sum c.sum).rounded ∧
    ctcPodn t = (podnRatio f.sum c.sum).rounded ∧
    ctcFar t = (farRatio h.sum f.sum).rounded ∧
    ctcCsi t = (csiRatio h.sum f.sum m.sum).rounded ∧
    ctcOrss t = (orssRatio h.sum f.sum m.sum c.sum).rounded ∧
    podYes t = (podyRatio h.sum m.sum).rounded ∧
    podNo t = (podnRatio f.sum c.sum).rounded :=
  ⟨baser_eq D, acc_eq D, fbias_eq D, fmean_eq D, pody_eq D, pofd_eq D, podn_eq D, far_eq D, csi_eq D,
    orss_eq D, podYes_eq D, podNo_eq D⟩

/-- C10: GSS and HSS are in addition missing for a zero total (where the chance term is undefined). -/
theorem C10_skill_scores (D : CtcData t h f m c n) :
    (n.sum = 0 → ctcGss t = none ∧ ctcHss t = none) ∧
    (n.sum ≠ 0 → ctcGss t = (gssRatio h.sum f.sum m.sum n.sum).rounded ∧
      ctcHss t = (hssRatio h.sum f.sum m.sum c.sum n.sum).rounded) := by
  rw [gss_eq D, hss_eq D]
  constructor <;> intro h0 <;> simp [h0]

/-- C10: HK, ODDS and ODDS1 are missing when PODY or POFD is, and otherwise are computed from the
(rounded) PODY `p` and POFD `q`; ODDS and ODDS1 also need `q (1-p) ≠ 0` resp. `p ≠ 1, q ≠ 0, 1`. -/
theorem C10_composed_scores (D : CtcData t h f m c n) :
    ((h.sum + m.sum = 0 ∨ f.sum + c.sum = 0) →
        ctcHk t = none ∧ ctcOdds t = none ∧ ctcOdds1 t = none) ∧
    (∀ p q, (podyRatio h.sum m.sum).rounded = some p → (pofdRatio f.sum c.sum).rounded = some q →
        ctcHk t = some (roundHalfUp (p - q) 7) ∧
        ctcOdds t = Ratio.rounded ⟨p * (1 - q), q * (1 - p)⟩ ∧
        ctcOdds1 t = if p = 1 ∨ q = 1 ∨ q = 0 then none else
            some (roundHalfUp ((p / (1 - p)) / (q / (1 - q))) 7)) := by
  constructor
  · rintro (h0 | h0)
    · have : (podyRatio h.sum m.sum).rounded = none := by simp [Ratio.rounded, podyRatio, h0]
      simp [hk_eq D, ctcOdds, ctcOdds1, pody_eq D, podYes_eq D, this]
    · have : (pofdRatio f.sum c.sum).rounded = none := by simp [Ratio.rounded, pofdRatio, h0]
      refine ⟨?_, ?_, ?_⟩
      · rw [hk_eq D, this]; cases (podyRatio h.sum m.sum).rounded <;> rfl
      · rw [ctcOdds, pofd_eq D, pody_eq D, this]; cases (podyRatio h.sum m.sum).rounded <;> rfl
      · rw [ctcOdds1, pofd_eq D, podYes_eq D, this]; cases (podyRatio h.sum m.sum).rounded <;> rfl
  · intro p q hp hq
    refine ⟨by simp [hk_eq D, hp, hq], ?_, ?_⟩
    · simp [ctcOdds, pody_eq D, pofd_eq D, hp, hq, pyDiv_round]
    · simp only [ctcOdds1, podYes_eq D, pofd_eq D, hp, hq, Option.bind_eq_bind, Option.bind_some]
      by_cases h1 : p = 1
      · simp [h1, pyDiv]
      · by_cases h2 : q = 1
        · simp [h2, pyDiv, sub_ne_zero.mpr (Ne.symm h1)]
        · have h1' := sub_ne_zero.mpr (Ne.symm h1)
          have h2' := sub_ne_zero.mpr (Ne.symm h2)
          by_cases h3 : q = 0
          · simp [h3, pyDiv, h1']
          · have : q / (1 - q) ≠ 0 := div_ne_zero h3 h2'
            simp [h1, h2, h3, pyDiv_ne h1', pyDiv_ne h2', pyDiv_ne this, PRECISION]

theorem sumR (t : Table) (name : String) (v : ℚ) (h : sumColumn t name = some v) :
    sumColumnR t name = some (v : ℝ) := by simp [sumColumnR, h]

/-- C10: the log odds ratio is the (rounded) logarithm of `ad/(bc)`, missing unless all four pooled
counts are positive. -/
theorem C10_lodds (D : CtcData t h f m c n) :
    (0 < h.sum ∧ 0 < f.sum ∧ 0 < m.sum ∧ 0 < c.sum →
      ctcLodds t = some (roundHalfUp
        (Real.log (((h.sum : ℚ) * c.sum) / (f.sum * m.sum) : ℝ)) 7)) ∧
    (¬ (0 < h.sum ∧ 0 < f.sum ∧ 0 < m.sum ∧ 0 < c.sum) → ctcLodds t = none) := by
  have e : ctcLodds t = (do
      let v := (← pyLog (h.sum : ℚ)) + (← pyLog (c.sum : ℚ)) - (← pyLog (f.sum : ℚ))
        - (← pyLog (m.sum : ℚ))
      some (roundHalfUp v PRECISION)) := by
    simp [ctcLodds, sumR _ _ _ (sum_fy_oy D), sumR _ _ _ (sum_fy_on D), sumR _ _ _ (sum_fn_oy D),
      sumR _ _ _ (sum_fn_on D)]
  rw [e]
  clear e
  generalize h.sum = A at *
  generalize f.sum = B at *
  generalize m.sum = M at *
  generalize c.sum = E at *
  constructor
  · rintro ⟨h1, h2, h3, h4⟩
    have h1' : (0 : ℝ) < (A : ℚ) := by exact_mod_cast h1
    have h2' : (0 : ℝ) < (B : ℚ) := by exact_mod_cast h2
    have h3' : (0 : ℝ) < (M : ℚ) := by exact_mod_cast h3
    have h4' : (0 : ℝ) < (E : ℚ) := by exact_mod_cast h4
    simp only [pyLog, h1', h2', h3', h4', if_true, Option.bind_eq_bind, Option.bind_some]
    rw [Real.log_div (mul_pos h1' h4').ne' (mul_pos h2' h3').ne', Real.log_mul h1'.ne' h4'.ne',
      Real.log_mul h2'.ne' h3'.ne']
    congr 2
    ring
  · intro hn
    have key : ∀ {x : ℚ}, ¬ (0 < x) → pyLog (x : ℝ) = none := by
      intro x hx; simp only [pyLog]; rw [if_neg]; exact_mod_cast hx
    by_cases h1 : 0 < A
    · have h1' : pyLog ((A : ℚ) : ℝ) = some (Real.log (A : ℚ)) := by
        simp only [pyLog]; rw [if_pos]; exact_mod_cast h1
      by_cases h4 : 0 < E
      · have h4' : pyLog ((E : ℚ) : ℝ) = some (Real.log (E : ℚ)) := by
          simp only [pyLog]; rw [if_pos]; exact_mod_cast h4
        by_cases h2 : 0 < B
        · have h2' : pyLog ((B : ℚ) : ℝ) = some (Real.log (B : ℚ)) := by
            simp only [pyLog]; rw [if_pos]; exact_mod_cast h2
          have h3 : ¬ 0 < M := fun h3 => hn ⟨h1, h2, h3, h4⟩
          simp [h1', h4', h2', key h3]
        · simp [h1', h4', key h2]
      · simp [h1', key h4]
    · simp [key h1]

/-! ### C09 -/

/-- C09: the proportions stay in the unit interval, also after rounding. -/
theorem C09_unit_interval (D : CtcData t h f m c n) (C : CtcCounts h f m c n) (v : ℚ)
    (hv : ctcBaser t = .ok (some v) ∨ ctcAcc t = some v ∨ ctcFmean t = some v ∨ ctcPody t = some v ∨
      ctcPodn t = some v ∨ ctcPofd t = some v ∨ ctcFar t = some v ∨ ctcCsi t = some v) :
    0 ≤ v ∧ v ≤ 1 := by
  obtain ⟨h1, h2, h3, h4, h5⟩ := C.sums D
  rw [baser_eq D, acc_eq D, fmean_eq D, pody_eq D, podn_eq D, pofd_eq D, far_eq D, csi_eq D] at hv
  rcases hv with hv | hv | hv | hv | hv | hv | hv | hv
  · simp only [Except.ok.injEq] at hv
    refine rounded_unit hv ?_ ?_ <;> simp only [baserRatio] <;> linarith
  all_goals
    refine rounded_unit hv ?_ ?_ <;>
      simp only [accRatio, fmeanRatio, podyRatio, podnRatio, pofdRatio, farRatio, csiRatio] <;>
        linarith

/-- C09: the frequency bias is non-negative. -/
theorem C09_fbias_nonneg (D : CtcData t h f m c n) (C : CtcCounts h f m c n) (v : ℚ)
    (hv : ctcFbias t = some v) : 0 ≤ v := by
  obtain ⟨h1, h2, h3, h4, h5⟩ := C.sums D
  rw [fbias_eq D] at hv
  obtain ⟨hd, rfl⟩ := rounded_eq_some.mp hv
  exact round7_nonneg (div_nonneg (by simp only [fbiasRatio]; linarith)
    (by simp only [fbiasRatio]; linarith))

/-! ### C11 -/

/-- C11: HK is exactly the difference of the reported PODY and POFD. -/
theorem C11_hk_is_difference (t : Table) (v : ℚ) :
    ctcHk t = some v ↔ ∃ p q, ctcPody t = some p ∧ ctcPofd t = some q ∧ v = p - q := by
  have grid : ∀ (t' : Table) (p : ℚ), (ctcPody t' = some p ∨ ctcPofd t' = some p) →
      ∃ k : ℤ, p = k / (10 : ℚ) ^ PRECISION := by
    intro t' p hp
    rcases hp with hp | hp
    all_goals
      simp only [ctcPody, ctcPofd, Option.bind_eq_bind, Option.bind_eq_some_iff, Option.some.injEq] at hp
      obtain ⟨_, _, _, _, _, _, rfl⟩ := hp
      exact roundHalfUp_isGrid _ _
  have hr : ∀ p q, ctcPody t = some p → ctcPofd t = some q →
      roundHalfUp (p - q) PRECISION = p - q := by
    intro p q hp hq
    obtain ⟨k, rfl⟩ := grid t p (Or.inl hp)
    obtain ⟨l, rfl⟩ := grid t q (Or.inr hq)
    rw [← sub_div, ← Int.cast_sub, roundHalfUp_grid]
  simp only [ctcHk, Option.bind_eq_bind, Option.bind_eq_some_iff, Option.some.injEq]
  constructor
  · rintro ⟨p, hp, q, hq, rfl⟩; exact ⟨p, q, hp, hq, hr p q hp hq⟩
  · rintro ⟨p, q, hp, hq, rfl⟩; exact ⟨p, hp, q, hq, hr p q hp hq⟩

/-- C11: no skill score exceeds 1; HK and HSS are at least -1, GSS at least -1/3 (rounded). -/
theorem C11_skill_bounds (D : CtcData t h f m c n) (C : CtcCounts h f m c n) (v : ℚ) :
    (ctcGss t = some v → roundHalfUp (-1 / 3 : ℚ) 7 ≤ v ∧ v ≤ 1) ∧
    (ctcHss t = some v → -1 ≤ v ∧ v ≤ 1) ∧
    (ctcHk t = some v → -1 ≤ v ∧ v ≤ 1) := by
  obtain ⟨h1, h2, h3, h4, h5⟩ := C.sums D
  refine ⟨fun hv => ?_, fun hv => ?_, fun hv => ?_⟩
  · rw [gss_eq D] at hv
    split at hv
    · simp at hv
    · next hn =>
      obtain ⟨hd, rfl⟩ := rounded_eq_some.mp hv
      simp only [gssRatio] at hd ⊢
      generalize h.sum = a at *
      generalize f.sum = b at *
      generalize m.sum = cc at *
      generalize c.sum = d at *
      generalize n.sum = N at *
      have hN : 0 < N := lt_of_le_of_ne (by linarith) (Ne.symm hn)
      have e1 : a - chanceHits a b cc N = (a * d - b * cc) / N := by
        unfold chanceHits; rw [h5] at hN ⊢; field_simp; ring
      have e2 : a + b + cc - chanceHits a b cc N =
          (a * d + b * b + cc * cc + b * cc + a * b + a * cc + b * d + cc * d) / N := by
        unfold chanceHits; rw [h5] at hN ⊢; field_simp; ring
      have hden : 0 < a + b + cc - chanceHits a b cc N := by
        refine lt_of_le_of_ne ?_ (Ne.symm hd)
        rw [e2]; positivity
      constructor
      · apply roundHalfUp_mono
        rw [le_div_iff₀ hden, e1, e2, ← mul_div_assoc, div_le_div_iff_of_pos_right hN]
        nlinarith [mul_nonneg h1 h4, mul_nonneg h2 h3, mul_nonneg h1 h2, mul_nonneg h1 h3,
          mul_nonneg h2 h4, mul_nonneg h3 h4, sq_nonneg (b - cc)]
      · apply round7_le_one
        rw [div_le_one hden]; linarith
  · rw [hss_eq D] at hv
    split at hv
    · simp at hv
    · next hn =>
      obtain ⟨hd, rfl⟩ := rounded_eq_some.mp hv
      simp only [hssRatio] at hd ⊢
      generalize h.sum = a at *
      generalize f.sum = b at *
      generalize m.sum = cc at *
      generalize c.sum = d at *
      generalize n.sum = N at *
      have hN : 0 < N := lt_of_le_of_ne (by linarith) (Ne.symm hn)
      have e1 : a + d - chanceCorrect a b cc d N = 2 * (a * d - b * cc) / N := by
        unfold chanceCorrect; rw [h5] at hN ⊢; field_simp; ring
      have e2 : N - chanceCorrect a b cc d N =
          ((a + b) * (b + d) + (a + cc) * (cc + d)) / N := by
        unfold chanceCorrect; rw [h5] at hN ⊢; field_simp; ring
      have hden : 0 < N - chanceCorrect a b cc d N := by
        refine lt_of_le_of_ne ?_ (Ne.symm hd)
        rw [e2]; positivity
      constructor
      · apply round7_ge_neg_one
        rw [le_div_iff₀ hden, e1, e2, ← mul_div_assoc, div_le_div_iff_of_pos_right hN]
        nlinarith [mul_nonneg h1 h4, mul_nonneg h2 h3, mul_nonneg h1 h2, mul_nonneg h1 h3,
          mul_nonneg h2 h4, mul_nonneg h3 h4, sq_nonneg (b - cc)]
      · apply round7_le_one
        rw [div_le_one hden]; linarith
  · obtain ⟨p, q, hp, hq, rfl⟩ := (C11_hk_is_difference t v).mp hv
    have b1 := C09_unit_interval D C p (by tauto)
    have b2 := C09_unit_interval D C q (by tauto)
    constructor <;> linarith [b1.1, b1.2, b2.1, b2.2]

/-- C11: without misses and false alarms every skill score that is defined equals 1 (as do ACC, PODY,
PODN, CSI), and they are all defined as soon as there is an event and a non-event. -/
theorem C11_perfect_forecast (D : CtcData t h f m c n) (C : CtcCounts h f m c n)
    (hf : ∀ x ∈ f, x = 0) (hm : ∀ x ∈ m, x = 0) :
    (∀ s ∈ [ctcGss, ctcHss, ctcHk, ctcAcc, ctcPody, ctcPodn, ctcCsi], ∀ v, s t = some v → v = 1) ∧
    ((∃ x ∈ h, 0 < x) → (∃ x ∈ c, 0 < x) →
      ∀ s ∈ [ctcGss, ctcHss, ctcHk, ctcAcc, ctcPody, ctcPodn, ctcCsi], s t = some 1) := by
  obtain ⟨h1, h2, h3, h4, h5⟩ := C.sums D
  have hf0 : f.sum = 0 := List.sum_eq_zero hf
  have hm0 : m.sum = 0 := List.sum_eq_zero hm
  have one : ∀ r : Ratio, r.num = r.den → ∀ v, r.rounded = some v → v = 1 := by
    intro r hr v hv
    obtain ⟨hd, rfl⟩ := rounded_eq_some.mp hv
    rw [hr, div_self hd]; exact round7_one
  have zero : ∀ r : Ratio, r.num = 0 → ∀ v, r.rounded = some v → v = 0 := by
    intro r hr v hv
    obtain ⟨hd, rfl⟩ := rounded_eq_some.mp hv
    rw [hr, zero_div]; exact round7_zero
  have first : ∀ s ∈ [ctcGss, ctcHss, ctcHk, ctcAcc, ctcPody, ctcPodn, ctcCsi],
      ∀ v, s t = some v → v = 1 := by
    have hpody : ∀ v, ctcPody t = some v → v = 1 := by
      rw [pody_eq D]; exact one _ (by simp [podyRatio, hm0])
    intro s hs
    simp only [List.mem_cons, List.not_mem_nil, or_false] at hs
    rcases hs with rfl | rfl | rfl | rfl | rfl | rfl | rfl
    · intro v hv; rw [gss_eq D] at hv; split at hv
      · simp at hv
      · exact one _ (by simp [gssRatio, hf0, hm0]) v hv
    · intro v hv; rw [hss_eq D] at hv; split at hv
      · simp at hv
      · exact one _ (by simp only [hssRatio, h5, hf0, hm0]; ring) v hv
    · intro v hv
      obtain ⟨p, q, hp, hq, rfl⟩ := (C11_hk_is_difference t v).mp hv
      rw [hpody p hp]
      rw [pofd_eq D] at hq
      rw [zero _ (by simp [pofdRatio, hf0]) q hq]; ring
    · rw [acc_eq D]; exact one _ (by simp only [accRatio, h5, hf0, hm0]; ring)
    · exact hpody
    · rw [podn_eq D]; exact one _ (by simp [podnRatio, hf0])
    · rw [csi_eq D]; exact one _ (by simp [csiRatio, hf0, hm0])
  refine ⟨first, fun hh hc s hs => ?_⟩
  have hpos : ∀ l : List ℚ, (∀ x ∈ l, 0 ≤ x) → (∃ x ∈ l, 0 < x) → 0 < l.sum := by
    intro l hl ⟨x, hx, hx0⟩
    exact lt_of_lt_of_le hx0 (List.single_le_sum hl x hx)
  have ha := hpos h C.h_nonneg hh
  have hd := hpos c C.c_nonneg hc
  have hn : n.sum ≠ 0 := by rw [h5, hf0, hm0]; linarith
  have defd : ∀ r : Ratio, r.den ≠ 0 → ∃ v, r.rounded = some v :=
    fun r hr => ⟨_, rounded_eq_some.mpr ⟨hr, rfl⟩⟩
  have : ∃ v, s t = some v := by
    have hp := defd (podyRatio h.sum m.sum) (by simp only [podyRatio, hm0]; linarith)
    have hq := defd (pofdRatio f.sum c.sum) (by simp only [pofdRatio, hf0]; linarith)
    simp only [List.mem_cons, List.not_mem_nil, or_false] at hs
    rcases hs with rfl | rfl | rfl | rfl | rfl | rfl | rfl
    · rw [gss_eq D, if_neg hn]; apply defd
      simp only [gssRatio, chanceHits, hf0, hm0, h5]
      have : h.sum + 0 + (0 + c.sum) ≠ 0 := by linarith
      intro e
      field_simp at e
      nlinarith [mul_pos ha hd]
    · rw [hss_eq D, if_neg hn]; apply defd
      simp only [hssRatio, chanceCorrect, hf0, hm0, h5]
      have : h.sum + 0 + (0 + c.sum) ≠ 0 := by linarith
      intro e
      field_simp at e
      nlinarith [mul_pos ha hd]
    · obtain ⟨p, hp⟩ := hp; obtain ⟨q, hq⟩ := hq
      exact ⟨_, (C11_hk_is_difference t _).mpr ⟨p, q, by rw [pody_eq D, hp], by rw [pofd_eq D, hq],
        rfl⟩⟩
    · rw [acc_eq D]; exact defd _ (by simpa [accRatio] using hn)
    · rw [pody_eq D]; exact hp
    · rw [podn_eq D]; exact defd _ (by simp only [podnRatio, hf0]; linarith)
    · rw [csi_eq D]; exact defd _ (by simp only [csiRatio, hf0, hm0]; linarith)
  obtain ⟨v, hv⟩ := this
  rw [hv, first s hs v hv]

/-! ### C12 -/

/-- C12: PODN and POFD of the same data are either both missing or add up to 1, except that a tie in
the seventh decimal is rounded up twice, which makes the sum 1 + 10^-7. -/
theorem C12_podn_pofd (D : CtcData t h f m c n) :
    (ctcPodn t = none ↔ ctcPofd t = none) ∧
    ∀ v w, ctcPodn t = some v → ctcPofd t = some w → v + w = 1 ∨ v + w = 1 + 1 / 10 ^ 7 := by
  rw [podn_eq D, pofd_eq D]
  constructor
  · by_cases h0 : f.sum + c.sum = 0 <;> simp [Ratio.rounded, podnRatio, pofdRatio, h0]
  · intro v w hv hw
    obtain ⟨hd, rfl⟩ := rounded_eq_some.mp hv
    obtain ⟨-, rfl⟩ := rounded_eq_some.mp hw
    simp only [podnRatio, pofdRatio] at hd ⊢
    have e : c.sum / (f.sum + c.sum) = 1 - f.sum / (f.sum + c.sum) := by field_simp; ring
    rw [e]
    generalize f.sum / (f.sum + c.sum) = x
    unfold roundHalfUp
    have hcast : ((10 : ℚ) ^ (7 : ℤ)) = 10 ^ 7 := by norm_cast
    rw [hcast]
    have f1 := Int.floor_le (x * 10 ^ 7 + 1 / 2)
    have f2 := Int.lt_floor_add_one (x * 10 ^ 7 + 1 / 2)
    have g1 := Int.floor_le ((1 - x) * 10 ^ 7 + 1 / 2)
    have g2 := Int.lt_floor_add_one ((1 - x) * 10 ^ 7 + 1 / 2)
    generalize ⌊x * 10 ^ 7 + 1 / 2⌋ = k at *
    generalize ⌊(1 - x) * 10 ^ 7 + 1 / 2⌋ = l at *
    have s1 : ((k + l : ℤ) : ℚ) ≤ ((10 ^ 7 + 1 : ℤ) : ℚ) := by push_cast; linarith
    have s2 : ((10 ^ 7 - 1 : ℤ) : ℚ) < ((k + l : ℤ) : ℚ) := by push_cast; linarith
    have s1' : k + l ≤ 10 ^ 7 + 1 := by exact_mod_cast s1
    have s2' : 10 ^ 7 - 1 < k + l := by exact_mod_cast s2
    rw [← add_div]
    have : k + l = 10 ^ 7 ∨ k + l = 10 ^ 7 + 1 := by omega
    rcases this with hs | hs
    · left
      have : ((l : ℚ) + k) = 10 ^ 7 := by
        have : ((k + l : ℤ) : ℚ) = ((10 ^ 7 : ℤ) : ℚ) := by rw [hs]
        push_cast at this; linarith
      rw [this]; norm_num
    · right
      have : ((l : ℚ) + k) = 10 ^ 7 + 1 := by
        have : ((k + l : ℤ) : ℚ) = ((10 ^ 7 + 1 : ℤ) : ℚ) := by rw [hs]
        push_cast at this; linarith
      rw [this]; norm_num

/-- C12: the reported PODY, FAR and CSI differ by at most half a unit in the seventh decimal from
exact numbers that satisfy the textbook identity 1/CSI = 1/PODY + 1/(1-FAR) - 1. -/
theorem C12_csi_identity (D : CtcData t h f m c n) (h0 : 0 < h.sum) (f0 : 0 ≤ f.sum)
    (m0 : 0 ≤ m.sum) :
    ∃ p r s : ℚ, 1 / s = 1 / p + 1 / (1 - r) - 1 ∧
      (∃ v, ctcPody t = some v ∧ |v - p| ≤ 1 / (2 * 10 ^ 7)) ∧
      (∃ v, ctcFar t = some v ∧ |v - r| ≤ 1 / (2 * 10 ^ 7)) ∧
      (∃ v, ctcCsi t = some v ∧ |v - s| ≤ 1 / (2 * 10 ^ 7)) := by
  have e : ∀ x : ℚ, |roundHalfUp x 7 - x| ≤ 1 / (2 * 10 ^ 7) := by
    intro x
    refine (abs_roundHalfUp_sub_le x 7).trans (le_of_eq ?_)
    norm_num
  refine ⟨h.sum / (h.sum + m.sum), f.sum / (h.sum + f.sum), h.sum / (h.sum + f.sum + m.sum), ?_,
    ⟨_, ?_, e _⟩, ⟨_, ?_, e _⟩, ⟨_, ?_, e _⟩⟩
  · have h1 : 0 < h.sum + f.sum := by linarith
    have : 1 - f.sum / (h.sum + f.sum) = h.sum / (h.sum + f.sum) := by field_simp; ring
    rw [this]
    field_simp
    ring
  · rw [pody_eq D, rounded_eq_some]
    exact ⟨by simp only [podyRatio]; linarith, rfl⟩
  · rw [far_eq D, rounded_eq_some]
    exact ⟨by simp only [farRatio]; linarith, rfl⟩
  · rw [csi_eq D, rounded_eq_some]
    exact ⟨by simp only [csiRatio]; linarith, rfl⟩

/-- C12: the odds ratio skill score equals (θ-1)/(θ+1) for the odds ratio θ = ad/(bc), before
rounding. -/
theorem C12_orss_odds (D : CtcData t h f m c n) (h0 : 0 < h.sum) (f0 : 0 < f.sum)
    (m0 : 0 < m.sum) (c0 : 0 < c.sum) :
    ∃ θ : ℚ, θ = (h.sum * c.sum) / (f.sum * m.sum) ∧
      ctcOrss t = some (roundHalfUp ((θ - 1) / (θ + 1)) 7) := by
  refine ⟨_, rfl, ?_⟩
  rw [orss_eq D, rounded_eq_some]
  constructor
  · simp only [orssRatio]; positivity
  · congr 1
    simp only [orssRatio]
    field_simp

/-- C12: the margins are the rounded sums of their two counts, and for whole counts each pair of margins adds up to the
total. -/
theorem C12_margins (D : CtcData t h f m c n) :
    ctcOy t = .ok (roundHalfUp (h.sum + m.sum) 7) ∧ ctcOn t = .ok (roundHalfUp (f.sum + c.sum) 7) ∧
    ctcFy t = .ok (roundHalfUp (h.sum + f.sum) 7) ∧ ctcFn t = .ok (roundHalfUp (m.sum + c.sum) 7) ∧
    ctcCount t "total" = .ok (roundHalfUp n.sum 7) := by
  simp [ctcOy, ctcOn, ctcFy, ctcFn, ctcCount2, ctcCount, sum_fy_oy D, sum_fy_on D, sum_fn_oy D, sum_fn_on D,
    sum_total D, PRECISION, add_comm]

theorem C12_margins_add_up (D : CtcData t h f m c n) (C : CtcCounts h f m c n) (a b e d : ℤ)
    (ha : h.sum = a) (hb : f.sum = b) (he : m.sum = e) (hd : c.sum = d) :
    ∃ oy on fy fn total : ℚ, ctcOy t = .ok oy ∧ ctcOn t = .ok on ∧ ctcFy t = .ok fy ∧ ctcFn t = .ok fn ∧
      ctcCount t "total" = .ok total ∧ oy + on = total ∧ fy + fn = total := by
  obtain ⟨m1, m2, m3, m4, m5⟩ := C12_margins D
  obtain ⟨-, -, -, -, h5⟩ := C.sums D
  refine ⟨_, _, _, _, _, m1, m2, m3, m4, m5, ?_, ?_⟩
  all_goals
    rw [h5, ha, hb, he, hd]
    have r : ∀ k : ℤ, roundHalfUp (k : ℚ) 7 = k := fun k => round7_int k
    have e1 := r (a + e); have e2 := r (b + d); have e3 := r (a + b); have e4 := r (e + d)
    have e5 := r (a + b + (e + d))
    push_cast at e1 e2 e3 e4 e5
    rw [e5]
    first
      | (rw [e1, e2]; ring)
      | (rw [e3, e4])

/-! ### A concrete table meeting the hypotheses -/

/-- Two rows of counts, with misses, false alarms, and different totals. -/
def exCtc : Table :=
  { cols := ["total", "fy_oy", "fy_on", "fn_oy", "fn_on"]
    rows := [[some 10, some 3, some 2, some 1, some 4], [some 7, some 2, some 1, some 0, some 4]] }

theorem exCtc_data : CtcData exCtc [3, 2] [2, 1] [1, 0] [4, 4] [10, 7] where
  rows_ne := by simp [exCtc]
  fy_oy := ⟨1, rfl, by decide, rfl⟩
  fy_on := ⟨2, rfl, by decide, rfl⟩
  fn_oy := ⟨3, rfl, by decide, rfl⟩
  fn_on := ⟨4, rfl, by decide, rfl⟩
  total := ⟨0, rfl, by decide, rfl⟩

theorem exCtc_counts : CtcCounts [3, 2] [2, 1] [1, 0] [4, 4] [10, 7] where
  h_nonneg := by simp
  f_nonneg := by simp
  m_nonneg := by simp
  c_nonneg := by simp
  total_eq := by norm_num

example : ctcPody exCtc = some (roundHalfUp (5 / 6) 7) := by
  rw [(C10_ratio_scores exCtc_data).2.2.2.2.1]; norm_num [Ratio.rounded, podyRatio]

/-- A perfect forecast with one event and one non-event. -/
def exPerfect : Table :=
  { cols := ["total", "fy_oy", "fy_on", "fn_oy", "fn_on"]
    rows := [[some 7, some 3, some 0, some 0, some 4]] }

example : CtcData exPerfect [3] [0] [0] [4] [7] ∧ CtcCounts [3] [0] [0] [4] [7] ∧
    ctcHss exPerfect = some 1 := by
  have D : CtcData exPerfect [3] [0] [0] [4] [7] :=
    ⟨by simp [exPerfect], ⟨1, rfl, by decide, rfl⟩, ⟨2, rfl, by decide, rfl⟩, ⟨3, rfl, by decide, rfl⟩,
      ⟨4, rfl, by decide, rfl⟩, ⟨0, rfl, by decide, rfl⟩⟩
  have C : CtcCounts [3] [0] [0] [4] [7] := ⟨by simp, by simp, by simp, by simp, by norm_num⟩
  exact ⟨D, C, (C11_perfect_forecast D C (by simp) (by simp)).2 (by simp) (by simp) ctcHss (by simp)⟩

/-- The degenerate table: all four counts zero, every ratio is reported missing. -/
example : ctcPody { exPerfect with rows := [[some 0, some 0, some 0, some 0, some 0]] } = none := by
  have D : CtcData { exPerfect with rows := [[some 0, some 0, some 0, some 0, some 0]] }
      [0] [0] [0] [0] [0] :=
    ⟨by simp, ⟨1, rfl, by decide, rfl⟩, ⟨2, rfl, by decide, rfl⟩, ⟨3, rfl, by decide, rfl⟩,
      ⟨4, rfl, by decide, rfl⟩, ⟨0, rfl, by decide, rfl⟩⟩
  rw [pody_eq D]; simp [Ratio.rounded, podyRatio]

end Metcalcpy.Props
