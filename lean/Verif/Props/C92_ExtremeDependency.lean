/-
C92  EDS and SEDS of pooled counts: value, bounds, perfect forecast.
C93  EDI and SEDI: value, bounds, sign (and the rounded hit rate).
C94  BAGSS is the Gilbert skill score after moving the forecast to bias one.
-/
import Verif.Spec.Extreme
import Verif.Props.C09_C12_Ctc
import Mathlib.Analysis.SpecialFunctions.Exp

namespace Metcalcpy.Props
open Metcalcpy Spec

variable {t : Table} {h f m c n : List ℚ}

theorem pyLog_pos {x : ℝ} (hx : 0 < x) : pyLog x = some (Real.log x) := if_pos hx
theorem pyLog_nonpos {x : ℝ} (hx : x ≤ 0) : pyLog x = none := if_neg (not_lt.mpr hx)
theorem pyDivR_ne {a b : ℝ} (hb : b ≠ 0) : pyDivR a b = some (a / b) := if_neg hb
theorem pyDivR_zero (a : ℝ) : pyDivR a 0 = none := if_pos rfl

/-- Real pooled counts of a table of contingency counts. -/
theorem real_counts (D : CtcData t h f m c n) (C : CtcCounts h f m c n) :
    (0 : ℝ) ≤ h.sum ∧ (0 : ℝ) ≤ f.sum ∧ (0 : ℝ) ≤ m.sum ∧ (0 : ℝ) ≤ c.sum ∧
      (n.sum : ℝ) = h.sum + f.sum + (m.sum + c.sum) := by
  obtain ⟨h1, h2, h3, h4, h5⟩ := C.sums D
  exact ⟨by exact_mod_cast h1, by exact_mod_cast h2, by exact_mod_cast h3, by exact_mod_cast h4, by exact_mod_cast h5⟩

/-- C92: EDS is the rounded textbook value of the pooled counts; it is missing exactly when there is no hit or nothing but
hits. -/
theorem C92_eds (D : CtcData t h f m c n) (C : CtcCounts h f m c n) :
    (0 < h.sum ∧ h.sum < n.sum → ctcEds t = some (roundHalfUp (edsValue h.sum m.sum n.sum) 7)) ∧
    (¬ (0 < h.sum ∧ h.sum < n.sum) → ctcEds t = none) := by
  have e : ctcEds t = (do
      let num ← pyLog (← pyDivR ((h.sum : ℝ) + m.sum) n.sum)
      let den ← pyLog (← pyDivR (h.sum : ℝ) n.sum)
      let q ← pyDivR (2 * num) den
      some (roundHalfUp (q - 1) PRECISION)) := by
    simp [ctcEds, sumR _ _ _ (sum_fy_oy D), sumR _ _ _ (sum_fn_oy D), sumR _ _ _ (sum_total D)]
  obtain ⟨h1, h2, h3, h4, h5⟩ := real_counts D C
  have i1 : 0 < h.sum ↔ (0 : ℝ) < h.sum := by exact_mod_cast Iff.rfl
  have i2 : h.sum < n.sum ↔ (h.sum : ℝ) < n.sum := by exact_mod_cast Iff.rfl
  rw [e, i1, i2]
  clear e i1 i2
  generalize (h.sum : ℝ) = a at *
  generalize (f.sum : ℝ) = b at *
  generalize (m.sum : ℝ) = cc at *
  generalize (c.sum : ℝ) = d at *
  generalize (n.sum : ℝ) = N at *
  constructor
  · rintro ⟨ha, hN⟩
    have hN0 : 0 < N := ha.trans hN
    have hl : Real.log (a / N) ≠ 0 := (Real.log_neg (by positivity) ((div_lt_one hN0).mpr hN)).ne
    simp only [pyDivR_ne hN0.ne', Option.bind_eq_bind, Option.bind_some,
      pyLog_pos (show 0 < (a + cc) / N by positivity), pyLog_pos (show 0 < a / N by positivity), pyDivR_ne hl]
    rfl
  · intro hn
    by_cases hN0 : N = 0
    · simp [hN0, pyDivR_zero]
    · simp only [pyDivR_ne hN0, Option.bind_eq_bind, Option.bind_some]
      have hNp : 0 < N := lt_of_le_of_ne (by linarith) (Ne.symm hN0)
      by_cases ha : 0 < a
      · have : a = N := le_antisymm (by linarith) (not_lt.mp fun x => hn ⟨ha, x⟩)
        subst this
        simp only [div_self hN0, pyLog_pos one_pos, Real.log_one, Option.bind_some, pyDivR_zero]
        cases pyLog ((a + cc) / a) <;> rfl
      · have : a = 0 := le_antisymm (not_lt.mp ha) h1
        subst this
        rw [zero_div, pyLog_nonpos le_rfl]
        cases pyLog ((0 + cc) / N) <;> rfl

/-- C92: the same for SEDS. -/
theorem C92_seds (D : CtcData t h f m c n) (C : CtcCounts h f m c n) :
    (0 < h.sum ∧ h.sum < n.sum → ctcSeds t = some (roundHalfUp (sedsValue h.sum f.sum m.sum n.sum) 7)) ∧
    (¬ (0 < h.sum ∧ h.sum < n.sum) → ctcSeds t = none) := by
  have e : ctcSeds t = (do
      let x ← pyLog (← pyDivR ((h.sum : ℝ) + f.sum) n.sum)
      let y ← pyLog (← pyDivR ((h.sum : ℝ) + m.sum) n.sum)
      let den ← pyLog (← pyDivR (h.sum : ℝ) n.sum)
      let q ← pyDivR (x + y) den
      some (roundHalfUp (q - 1) PRECISION)) := by
    simp [ctcSeds, sumR _ _ _ (sum_fy_oy D), sumR _ _ _ (sum_fy_on D), sumR _ _ _ (sum_fn_oy D),
      sumR _ _ _ (sum_total D)]
  obtain ⟨h1, h2, h3, h4, h5⟩ := real_counts D C
  have i1 : 0 < h.sum ↔ (0 : ℝ) < h.sum := by exact_mod_cast Iff.rfl
  have i2 : h.sum < n.sum ↔ (h.sum : ℝ) < n.sum := by exact_mod_cast Iff.rfl
  rw [e, i1, i2]
  clear e i1 i2
  generalize (h.sum : ℝ) = a at *
  generalize (f.sum : ℝ) = b at *
  generalize (m.sum : ℝ) = cc at *
  generalize (c.sum : ℝ) = d at *
  generalize (n.sum : ℝ) = N at *
  constructor
  · rintro ⟨ha, hN⟩
    have hN0 : 0 < N := ha.trans hN
    have hl : Real.log (a / N) ≠ 0 := (Real.log_neg (by positivity) ((div_lt_one hN0).mpr hN)).ne
    simp only [pyDivR_ne hN0.ne', Option.bind_eq_bind, Option.bind_some,
      pyLog_pos (show 0 < (a + b) / N by positivity), pyLog_pos (show 0 < (a + cc) / N by positivity),
      pyLog_pos (show 0 < a / N by positivity), pyDivR_ne hl]
    rw [sedsValue, Real.log_mul (by positivity) (by positivity)]
    rfl
  · intro hn
    by_cases hN0 : N = 0
    · simp [hN0, pyDivR_zero]
    · simp only [pyDivR_ne hN0, Option.bind_eq_bind, Option.bind_some]
      have hNp : 0 < N := lt_of_le_of_ne (by linarith) (Ne.symm hN0)
      by_cases ha : 0 < a
      · have : a = N := le_antisymm (by linarith) (not_lt.mp fun x => hn ⟨ha, x⟩)
        subst this
        simp only [div_self hN0, pyLog_pos one_pos, Real.log_one, Option.bind_some, pyDivR_zero]
        cases pyLog ((a + b) / a) <;> cases pyLog ((a + cc) / a) <;> rfl
      · have : a = 0 := le_antisymm (not_lt.mp ha) h1
        subst this
        rw [zero_div, pyLog_nonpos le_rfl]
        cases pyLog ((0 + b) / N) <;> cases pyLog ((0 + cc) / N) <;> rfl

theorem log_ratio_unit {a x : ℝ} (ha : 0 < a) (ha1 : a < 1) (hx : a ≤ x) (hx1 : x ≤ 1) :
    0 ≤ Real.log x / Real.log a ∧ Real.log x / Real.log a ≤ 1 := by
  have hl : Real.log a < 0 := Real.log_neg ha ha1
  have hx0 : Real.log x ≤ 0 := Real.log_nonpos (ha.le.trans hx) hx1
  have hax : Real.log a ≤ Real.log x := Real.log_le_log ha hx
  exact ⟨div_nonneg_of_nonpos hx0 hl.le, by rwa [div_le_one_of_neg hl]⟩

/-- C92: EDS and SEDS lie between -1 and 1. -/
theorem C92_bounds (D : CtcData t h f m c n) (C : CtcCounts h f m c n) (v : ℝ)
    (hv : ctcEds t = some v ∨ ctcSeds t = some v) : -1 ≤ v ∧ v ≤ 1 := by
  obtain ⟨h1, h2, h3, h4, h5⟩ := real_counts D C
  have key : 0 < h.sum ∧ h.sum < n.sum := by
    by_contra hc
    rcases hv with hv | hv
    · rw [(C92_eds D C).2 hc] at hv; cases hv
    · rw [(C92_seds D C).2 hc] at hv; cases hv
  have k1 : (0 : ℝ) < h.sum := by exact_mod_cast key.1
  have k2 : (h.sum : ℝ) < n.sum := by exact_mod_cast key.2
  have hN : (0 : ℝ) < n.sum := k1.trans k2
  have a1 : (h.sum : ℝ) / n.sum < 1 := (div_lt_one hN).mpr k2
  have a0 : (0 : ℝ) < h.sum / n.sum := by positivity
  have b1 := log_ratio_unit (x := ((h.sum : ℝ) + m.sum) / n.sum) a0 a1
    (by rw [div_le_div_iff_of_pos_right hN]; linarith) (by rw [div_le_one hN]; linarith)
  have b2 := log_ratio_unit (x := ((h.sum : ℝ) + f.sum) / n.sum) a0 a1
    (by rw [div_le_div_iff_of_pos_right hN]; linarith) (by rw [div_le_one hN]; linarith)
  rcases hv with hv | hv
  · rw [(C92_eds D C).1 key, Option.some.injEq] at hv
    subst hv
    have : edsValue h.sum m.sum n.sum = 2 * (Real.log (((h.sum : ℝ) + m.sum) / n.sum) / Real.log ((h.sum : ℝ) / n.sum)) - 1 := by
      unfold edsValue; ring
    refine ⟨round7_ge_neg_one ?_, round7_le_one ?_⟩ <;> rw [this] <;> linarith [b1.1, b1.2]
  · rw [(C92_seds D C).1 key, Option.some.injEq] at hv
    subst hv
    have : sedsValue h.sum f.sum m.sum n.sum = Real.log (((h.sum : ℝ) + f.sum) / n.sum) / Real.log ((h.sum : ℝ) / n.sum) +
        Real.log (((h.sum : ℝ) + m.sum) / n.sum) / Real.log ((h.sum : ℝ) / n.sum) - 1 := by
      unfold sedsValue
      rw [Real.log_mul (by positivity) (by positivity), add_div]
    refine ⟨round7_ge_neg_one ?_, round7_le_one ?_⟩ <;> rw [this] <;> linarith [b1.1, b1.2, b2.1, b2.2]

/-- C92: without misses EDS is 1; without misses and false alarms SEDS is 1; a forecast that is independent of the
observations (a n = (a+b)(a+c)) has SEDS 0. -/
theorem C92_reference_values (D : CtcData t h f m c n) (C : CtcCounts h f m c n) (h0 : 0 < h.sum) (h1 : h.sum < n.sum) :
    (m.sum = 0 → ctcEds t = some 1) ∧ (m.sum = 0 → f.sum = 0 → ctcSeds t = some 1) ∧
    (h.sum * n.sum = (h.sum + f.sum) * (h.sum + m.sum) → ctcSeds t = some 0) := by
  have k1 : (0 : ℝ) < h.sum := by exact_mod_cast h0
  have k2 : (h.sum : ℝ) < n.sum := by exact_mod_cast h1
  have hN : (0 : ℝ) < n.sum := k1.trans k2
  have hl : Real.log ((h.sum : ℝ) / n.sum) ≠ 0 := (Real.log_neg (by positivity) ((div_lt_one hN).mpr k2)).ne
  refine ⟨fun hm => ?_, fun hm hf => ?_, fun hi => ?_⟩
  · rw [(C92_eds D C).1 ⟨h0, h1⟩, edsValue, hm]
    simp only [Rat.cast_zero, add_zero, mul_div_assoc, div_self hl]
    norm_num
    exact round7_one
  · rw [(C92_seds D C).1 ⟨h0, h1⟩, sedsValue, hm, hf]
    simp only [Rat.cast_zero, add_zero]
    rw [Real.log_mul (by positivity) (by positivity), ← two_mul, mul_div_assoc, div_self hl]
    norm_num
    exact round7_one
  · have hi' : (h.sum : ℝ) * n.sum = (h.sum + f.sum) * (h.sum + m.sum) := by exact_mod_cast hi
    rw [(C92_seds D C).1 ⟨h0, h1⟩, sedsValue]
    have : ((h.sum : ℝ) + f.sum) / n.sum * ((h.sum + m.sum) / n.sum) = h.sum / n.sum := by
      rw [div_mul_div_comm, ← hi']; field_simp
    rw [this, div_self hl, sub_self]
    exact congrArg some round7_zero

example : CtcData exCtc [3, 2] [2, 1] [1, 0] [4, 4] [10, 7] ∧ CtcCounts [3, 2] [2, 1] [1, 0] [4, 4] [10, 7] ∧
    0 < ([3, 2] : List ℚ).sum ∧ ([3, 2] : List ℚ).sum < ([10, 7] : List ℚ).sum :=
  ⟨exCtc_data, exCtc_counts, by norm_num, by norm_num⟩

/-! ### C93 -/

/-- The hit rate used by EDI and SEDI: the ratio rounded to 7 digits. -/
def roundedHitRate (a c : ℚ) : ℚ := roundHalfUp (a / (a + c)) 7

theorem ediSteps (D : CtcData t h f m c n) (hO : h.sum + m.sum ≠ 0) (hF : f.sum + c.sum ≠ 0) :
    podYes t = some (roundedHitRate h.sum m.sum) ∧
    pyDivR ((f.sum : ℚ) : ℝ) ((f.sum : ℚ) + (c.sum : ℚ)) = some (((f.sum / (f.sum + c.sum) : ℚ)) : ℝ) := by
  constructor
  · rw [podYes_eq D]; simp [Ratio.rounded, podyRatio, hO, roundedHitRate]
  · have : ((f.sum : ℚ) : ℝ) + ((c.sum : ℚ) : ℝ) ≠ 0 := by exact_mod_cast hF
    rw [pyDivR_ne this]; push_cast; rfl

theorem hit_rate_unit (D : CtcData t h f m c n) (C : CtcCounts h f m c n) :
    0 ≤ roundedHitRate h.sum m.sum ∧ roundedHitRate h.sum m.sum ≤ 1 := by
  obtain ⟨h1, h2, h3, h4, h5⟩ := C.sums D
  exact ⟨round7_nonneg (by positivity), round7_le_one (div_le_one_of_le₀ (by linarith) (by linarith))⟩

theorem false_rate_unit (D : CtcData t h f m c n) (C : CtcCounts h f m c n) :
    0 ≤ f.sum / (f.sum + c.sum) ∧ f.sum / (f.sum + c.sum) ≤ 1 := by
  obtain ⟨h1, h2, h3, h4, h5⟩ := C.sums D
  exact ⟨by positivity, div_le_one_of_le₀ (by linarith) (by linarith)⟩

/-- C93: EDI is the rounded textbook value of the false alarm rate and the (rounded) hit rate; it is missing exactly when
one of the rates is undefined or zero, or both are 1. -/
theorem C93_edi_partial (D : CtcData t h f m c n) (C : CtcCounts h f m c n) :
    let H := roundedHitRate h.sum m.sum
    let F := f.sum / (f.sum + c.sum)
    (h.sum + m.sum ≠ 0 ∧ 0 < F ∧ 0 < H ∧ ¬ (F = 1 ∧ H = 1) →
      ctcEdi t = some (roundHalfUp (ediValue (F : ℚ) (H : ℚ)) 7)) ∧
    (¬ (h.sum + m.sum ≠ 0 ∧ 0 < F ∧ 0 < H ∧ ¬ (F = 1 ∧ H = 1)) → ctcEdi t = none) := by
  intro H F
  have e : ctcEdi t = (do
      let x ← pyDivR ((f.sum : ℚ) : ℝ) ((f.sum : ℚ) + (c.sum : ℚ))
      let y := ((← podYes t : ℚ) : ℝ)
      let num := (← pyLog x) - (← pyLog y)
      let den := (← pyLog x) + (← pyLog y)
      let q ← pyDivR num den
      some (roundHalfUp q PRECISION)) := by
    simp [ctcEdi, sumR _ _ _ (sum_fy_on D), sumR _ _ _ (sum_fn_on D)]
  rw [e]
  have uH := hit_rate_unit D C
  have uF := false_rate_unit D C
  change 0 ≤ H ∧ H ≤ 1 at uH
  change 0 ≤ F ∧ F ≤ 1 at uF
  by_cases hF0 : f.sum + c.sum = 0
  · have hz : F = 0 := by simp [F, hF0]
    have hz' : ((f.sum : ℚ) : ℝ) + ((c.sum : ℚ) : ℝ) = 0 := by exact_mod_cast hF0
    rw [hz', pyDivR_zero]
    exact ⟨fun hh => absurd hh.2.1 (by rw [hz]; exact lt_irrefl _), fun _ => rfl⟩
  by_cases hO : h.sum + m.sum = 0
  · have : podYes t = none := by rw [podYes_eq D]; simp [Ratio.rounded, podyRatio, hO]
    rw [this]
    refine ⟨fun hh => absurd hO hh.1, fun _ => ?_⟩
    cases pyDivR ((f.sum : ℚ) : ℝ) ((f.sum : ℚ) + (c.sum : ℚ)) <;> rfl
  obtain ⟨e1, e2⟩ := ediSteps D hO hF0
  rw [e1, e2]
  change ((((_ ∧ 0 < F ∧ 0 < H ∧ _) → _) ∧ _))
  simp only [Option.bind_eq_bind, Option.bind_some]
  change ((h.sum + m.sum ≠ 0 ∧ 0 < F ∧ 0 < H ∧ ¬ (F = 1 ∧ H = 1)) →
      ((pyLog (F : ℝ)).bind fun a => (pyLog (H : ℝ)).bind fun b => (pyLog (F : ℝ)).bind fun a' =>
        (pyLog (H : ℝ)).bind fun b' => (pyDivR (a - b) (a' + b')).bind fun q => some (roundHalfUp q PRECISION)) =
        some (roundHalfUp (ediValue (F : ℚ) (H : ℚ)) 7)) ∧
    (¬ (h.sum + m.sum ≠ 0 ∧ 0 < F ∧ 0 < H ∧ ¬ (F = 1 ∧ H = 1)) →
      ((pyLog (F : ℝ)).bind fun a => (pyLog (H : ℝ)).bind fun b => (pyLog (F : ℝ)).bind fun a' =>
        (pyLog (H : ℝ)).bind fun b' => (pyDivR (a - b) (a' + b')).bind fun q => some (roundHalfUp q PRECISION)) = none)
  by_cases hFp : 0 < F
  · have hFp' : (0 : ℝ) < F := by exact_mod_cast hFp
    by_cases hHp : 0 < H
    · have hHp' : (0 : ℝ) < H := by exact_mod_cast hHp
      have lF : Real.log F ≤ 0 := Real.log_nonpos hFp'.le (by exact_mod_cast uF.2)
      have lH : Real.log H ≤ 0 := Real.log_nonpos hHp'.le (by exact_mod_cast uH.2)
      simp only [pyLog_pos hFp', pyLog_pos hHp', Option.bind_some]
      by_cases h1 : F = 1 ∧ H = 1
      · refine ⟨fun hh => absurd h1 hh.2.2.2, fun _ => ?_⟩
        rw [h1.1, h1.2]; simp [pyDivR_zero]
      · refine ⟨fun _ => ?_, fun hh => absurd ⟨hO, hFp, hHp, h1⟩ hh⟩
        have hd : Real.log F + Real.log H ≠ 0 := by
          intro hs
          have z1 : Real.log F = 0 := by linarith
          have z2 : Real.log H = 0 := by linarith
          apply h1
          constructor
          · have := Real.eq_one_of_pos_of_log_eq_zero hFp' z1; exact_mod_cast this
          · have := Real.eq_one_of_pos_of_log_eq_zero hHp' z2; exact_mod_cast this
        rw [pyDivR_ne hd]; rfl
    · refine ⟨fun hh => absurd hh.2.2.1 hHp, fun _ => ?_⟩
      have : (H : ℝ) ≤ 0 := by exact_mod_cast not_lt.mp hHp
      rw [pyLog_nonpos this]
      cases pyLog (F : ℝ) <;> rfl
  · refine ⟨fun hh => absurd hh.2.1 hFp, fun _ => ?_⟩
    have : (F : ℝ) ≤ 0 := by exact_mod_cast not_lt.mp hFp
    rw [pyLog_nonpos this]; rfl

/-- C93: SEDI is the rounded textbook value; it is missing exactly when one of the rates is undefined, 0 or 1. -/
theorem C93_sedi_partial (D : CtcData t h f m c n) (C : CtcCounts h f m c n) :
    let H := roundedHitRate h.sum m.sum
    let F := f.sum / (f.sum + c.sum)
    (h.sum + m.sum ≠ 0 ∧ 0 < F ∧ F < 1 ∧ 0 < H ∧ H < 1 →
      ctcSedi t = some (roundHalfUp (sediValue (F : ℚ) (H : ℚ)) 7)) ∧
    (¬ (h.sum + m.sum ≠ 0 ∧ 0 < F ∧ F < 1 ∧ 0 < H ∧ H < 1) → ctcSedi t = none) := by
  intro H F
  have e : ctcSedi t = (do
      let x ← pyDivR ((f.sum : ℚ) : ℝ) ((f.sum : ℚ) + (c.sum : ℚ))
      let y := ((← podYes t : ℚ) : ℝ)
      let num := (← pyLog x) - (← pyLog y) - (← pyLog (1 - x)) + (← pyLog (1 - y))
      let den := (← pyLog x) + (← pyLog y) + (← pyLog (1 - x)) + (← pyLog (1 - y))
      let q ← pyDivR num den
      some (roundHalfUp q PRECISION)) := by
    simp [ctcSedi, sumR _ _ _ (sum_fy_on D), sumR _ _ _ (sum_fn_on D)]
  rw [e]
  have uH := hit_rate_unit D C
  have uF := false_rate_unit D C
  change 0 ≤ H ∧ H ≤ 1 at uH
  change 0 ≤ F ∧ F ≤ 1 at uF
  by_cases hF0 : f.sum + c.sum = 0
  · have hz : F = 0 := by simp [F, hF0]
    have hz' : ((f.sum : ℚ) : ℝ) + ((c.sum : ℚ) : ℝ) = 0 := by exact_mod_cast hF0
    rw [hz', pyDivR_zero]
    exact ⟨fun hh => absurd hh.2.1 (by rw [hz]; exact lt_irrefl _), fun _ => rfl⟩
  by_cases hO : h.sum + m.sum = 0
  · have : podYes t = none := by rw [podYes_eq D]; simp [Ratio.rounded, podyRatio, hO]
    rw [this]
    refine ⟨fun hh => absurd hO hh.1, fun _ => ?_⟩
    cases pyDivR ((f.sum : ℚ) : ℝ) ((f.sum : ℚ) + (c.sum : ℚ)) <;> rfl
  obtain ⟨e1, e2⟩ := ediSteps D hO hF0
  rw [e1, e2]
  simp only [Option.bind_eq_bind, Option.bind_some]
  generalize hHd : H = H' at *
  generalize hFd : F = F' at *
  rw [show roundedHitRate h.sum m.sum = H' from hHd, show f.sum / (f.sum + c.sum) = F' from hFd]
  by_cases hFp : 0 < F'
  · have hFp' : (0 : ℝ) < F' := by exact_mod_cast hFp
    by_cases hHp : 0 < H'
    · have hHp' : (0 : ℝ) < H' := by exact_mod_cast hHp
      simp only [pyLog_pos hFp', pyLog_pos hHp', Option.bind_some]
      by_cases hF1 : F' < 1
      · have hF1' : (0 : ℝ) < 1 - F' := by have : (F' : ℝ) < 1 := by exact_mod_cast hF1
                                           linarith
        by_cases hH1 : H' < 1
        · have hH1' : (0 : ℝ) < 1 - H' := by have : (H' : ℝ) < 1 := by exact_mod_cast hH1
                                             linarith
          refine ⟨fun _ => ?_, fun hh => absurd ⟨hO, hFp, hF1, hHp, hH1⟩ hh⟩
          simp only [pyLog_pos hF1', pyLog_pos hH1', Option.bind_some]
          have l1 : Real.log F' < 0 := Real.log_neg hFp' (by linarith)
          have l2 : Real.log H' < 0 := Real.log_neg hHp' (by linarith)
          have l3 : Real.log (1 - F') < 0 := Real.log_neg hF1' (by linarith)
          have l4 : Real.log (1 - H') < 0 := Real.log_neg hH1' (by linarith)
          rw [pyDivR_ne (by linarith)]; rfl
        · refine ⟨fun hh => absurd hh.2.2.2.2 hH1, fun _ => ?_⟩
          have : (1 : ℝ) - H' ≤ 0 := by have : (1 : ℝ) ≤ H' := by exact_mod_cast not_lt.mp hH1
                                        linarith
          rw [pyLog_nonpos this]
          cases pyLog (1 - (F' : ℝ)) <;> rfl
      · refine ⟨fun hh => absurd hh.2.2.1 hF1, fun _ => ?_⟩
        have : (1 : ℝ) - F' ≤ 0 := by have : (1 : ℝ) ≤ F' := by exact_mod_cast not_lt.mp hF1
                                      linarith
        rw [pyLog_nonpos this]; rfl
    · refine ⟨fun hh => absurd hh.2.2.2.1 hHp, fun _ => ?_⟩
      have : (H' : ℝ) ≤ 0 := by exact_mod_cast not_lt.mp hHp
      rw [pyLog_nonpos this]
      cases pyLog (F' : ℝ) <;> rfl
  · refine ⟨fun hh => absurd hh.2.1 hFp, fun _ => ?_⟩
    have : (F' : ℝ) ≤ 0 := by exact_mod_cast not_lt.mp hFp
    rw [pyLog_nonpos this]; rfl

theorem ediValue_bounds {x y : ℝ} (hx : 0 < x) (hy : 0 < y) (hx1 : x ≤ 1) (hy1 : y ≤ 1) :
    -1 ≤ ediValue x y ∧ ediValue x y ≤ 1 := by
  have lx := Real.log_nonpos hx.le hx1
  have ly := Real.log_nonpos hy.le hy1
  unfold ediValue
  rcases eq_or_lt_of_le (add_nonpos lx ly) with hz | hz
  · rw [hz, div_zero]; norm_num
  · exact ⟨by rw [le_div_iff_of_neg hz]; linarith, by rw [div_le_one_of_neg hz]; linarith⟩

theorem sediValue_bounds {x y : ℝ} (hx : 0 < x) (hy : 0 < y) (hx1 : x < 1) (hy1 : y < 1) :
    -1 ≤ sediValue x y ∧ sediValue x y ≤ 1 := by
  have l1 := Real.log_neg hx hx1
  have l2 := Real.log_neg hy hy1
  have l3 := Real.log_neg (show 0 < 1 - x by linarith) (by linarith)
  have l4 := Real.log_neg (show 0 < 1 - y by linarith) (by linarith)
  have hz : Real.log x + Real.log y + Real.log (1 - x) + Real.log (1 - y) < 0 := by linarith
  unfold sediValue
  exact ⟨by rw [le_div_iff_of_neg hz]; linarith, by rw [div_le_one_of_neg hz]; linarith⟩

/-- C93: EDI and SEDI lie between -1 and 1. -/
theorem C93_bounds (D : CtcData t h f m c n) (C : CtcCounts h f m c n) (v : ℝ)
    (hv : ctcEdi t = some v ∨ ctcSedi t = some v) : -1 ≤ v ∧ v ≤ 1 := by
  have uH := hit_rate_unit D C
  have uF := false_rate_unit D C
  rcases hv with hv | hv
  · have P := C93_edi_partial D C
    simp only at P
    by_cases hc : h.sum + m.sum ≠ 0 ∧ 0 < f.sum / (f.sum + c.sum) ∧ 0 < roundedHitRate h.sum m.sum ∧
        ¬ (f.sum / (f.sum + c.sum) = 1 ∧ roundedHitRate h.sum m.sum = 1)
    · rw [P.1 hc, Option.some.injEq] at hv
      subst hv
      have b := ediValue_bounds (x := ((f.sum / (f.sum + c.sum) : ℚ) : ℝ)) (y := (roundedHitRate h.sum m.sum : ℝ))
        (by exact_mod_cast hc.2.1) (by exact_mod_cast hc.2.2.1) (by exact_mod_cast uF.2) (by exact_mod_cast uH.2)
      exact ⟨round7_ge_neg_one b.1, round7_le_one b.2⟩
    · rw [P.2 hc] at hv; cases hv
  · have P := C93_sedi_partial D C
    simp only at P
    by_cases hc : h.sum + m.sum ≠ 0 ∧ 0 < f.sum / (f.sum + c.sum) ∧ f.sum / (f.sum + c.sum) < 1 ∧
        0 < roundedHitRate h.sum m.sum ∧ roundedHitRate h.sum m.sum < 1
    · rw [P.1 hc, Option.some.injEq] at hv
      subst hv
      have b := sediValue_bounds (x := ((f.sum / (f.sum + c.sum) : ℚ) : ℝ)) (y := (roundedHitRate h.sum m.sum : ℝ))
        (by exact_mod_cast hc.2.1) (by exact_mod_cast hc.2.2.2.1) (by exact_mod_cast hc.2.2.1)
        (by exact_mod_cast hc.2.2.2.2)
      exact ⟨round7_ge_neg_one b.1, round7_le_one b.2⟩
    · rw [P.2 hc] at hv; cases hv

/-- C93: the textbook values are positive exactly when the hit rate exceeds the false alarm rate. -/
theorem C93_sign {x y : ℝ} (hx : 0 < x) (hy : 0 < y) (hx1 : x < 1) (hy1 : y < 1) :
    (0 < ediValue x y ↔ x < y) ∧ (0 < sediValue x y ↔ x < y) := by
  have l1 := Real.log_neg hx hx1
  have l2 := Real.log_neg hy hy1
  have p3 : 0 < 1 - x := by linarith
  have p4 : 0 < 1 - y := by linarith
  have l3 := Real.log_neg p3 (by linarith)
  have l4 := Real.log_neg p4 (by linarith)
  constructor
  · unfold ediValue
    rw [div_pos_iff]
    have : Real.log x < Real.log y ↔ x < y := Real.log_lt_log_iff hx hy
    constructor
    · rintro (⟨-, hh⟩ | ⟨hh, -⟩)
      · linarith
      · exact this.mp (by linarith)
    · intro hxy
      exact Or.inr ⟨by linarith [this.mpr hxy], by linarith⟩
  · unfold sediValue
    rw [div_pos_iff]
    constructor
    · rintro (⟨-, hh⟩ | ⟨hh, -⟩)
      · linarith
      · by_contra hle
        have hle : y ≤ x := not_lt.mp hle
        have a1 := Real.log_le_log hy hle
        have a2 := Real.log_le_log p3 (show 1 - x ≤ 1 - y by linarith)
        linarith
    · intro hxy
      have a1 := Real.log_lt_log hx hxy
      have a2 := Real.log_lt_log p4 (show 1 - y < 1 - x by linarith)
      exact Or.inr ⟨by linarith, by linarith⟩

/-- One hit in thirty million events: the kind of rare event the scores are made for. -/
def exRare : Table :=
  { cols := ["total", "fy_oy", "fy_on", "fn_oy", "fn_on"]
    rows := [[some 60000000, some 1, some 1, some 29999999, some 29999999]] }

theorem exRare_data : CtcData exRare [1] [1] [29999999] [29999999] [60000000] :=
  ⟨by simp [exRare], ⟨1, rfl, by decide, rfl⟩, ⟨2, rfl, by decide, rfl⟩, ⟨3, rfl, by decide, rfl⟩,
    ⟨4, rfl, by decide, rfl⟩, ⟨0, rfl, by decide, rfl⟩⟩

theorem exRare_counts : CtcCounts [1] [1] [29999999] [29999999] [60000000] :=
  ⟨by simp, by simp, by simp, by simp, by norm_num⟩

/-- C93 is false for the exact hit rate: it is rounded to 7 digits first, so that the scores of rare hits are missing
although both rates are strictly between 0 and 1. -/
theorem C93_rare_event_counterexample :
    CtcData exRare [1] [1] [29999999] [29999999] [60000000] ∧ CtcCounts [1] [1] [29999999] [29999999] [60000000] ∧
    ctcEdi exRare = none ∧ ctcSedi exRare = none := by
  have hz : roundedHitRate (List.sum [1]) (List.sum [29999999]) = 0 := by decide +kernel
  refine ⟨exRare_data, exRare_counts, ?_, ?_⟩
  · refine (C93_edi_partial exRare_data exRare_counts).2 ?_
    rw [hz]; simp
  · refine (C93_sedi_partial exRare_data exRare_counts).2 ?_
    rw [hz]; simp

/-! ### C94 -/

/-- C94: with hits, misses and false alarms, BAGSS is the Gilbert skill score of a forecast of as many areas as observed
whose hits `a'` lie on the same curve hits = O (1 - exp (-β · false alarms)) as the actual forecast, provided `lambertW`
solves w exp w = x for positive x. -/
theorem C94_bagss (lambertW : ℝ → ℝ) (hW : ∀ x, 0 < x → lambertW x * Real.exp (lambertW x) = x)
    (D : CtcData t h f m c n) (C : CtcCounts h f m c n) (hh : 0 < h.sum) (hf : 0 < f.sum) (hm : 0 < m.sum) :
    ∃ β a' : ℝ, let O : ℝ := h.sum + m.sum
      (h.sum : ℝ) = O * (1 - Real.exp (-β * f.sum)) ∧ a' = O * (1 - Real.exp (-β * (O - a'))) ∧
      ctcBagss lambertW t = some (roundHalfUp (gilbert a' O O n.sum) 7) := by
  have e : ctcBagss lambertW t = (if (h.sum : ℝ) = 0 ∨ (m.sum : ℝ) = 0 ∨ (n.sum : ℝ) = 0 then none else do
      let o : ℝ := h.sum + m.sum
      let lf ← pyLog (← pyDivR o (m.sum : ℚ))
      let w := lambertW ((← pyDivR o (f.sum : ℚ)) * lf)
      let ha := o - (← pyDivR (f.sum : ℚ) lf) * w
      let r ← pyDivR (o ^ 2) (n.sum : ℚ)
      let q ← pyDivR (ha - r) (2 * o - ha - r)
      some (roundHalfUp q PRECISION)) := by
    simp [ctcBagss, sumR _ _ _ (sum_fy_oy D), sumR _ _ _ (sum_fy_on D), sumR _ _ _ (sum_fn_oy D),
      sumR _ _ _ (sum_total D)]
  obtain ⟨h1, h2, h3, h4, h5⟩ := real_counts D C
  have ha : (0 : ℝ) < h.sum := by exact_mod_cast hh
  have hb : (0 : ℝ) < f.sum := by exact_mod_cast hf
  have hc : (0 : ℝ) < m.sum := by exact_mod_cast hm
  rw [e]
  clear e
  generalize (h.sum : ℝ) = a at *
  generalize (f.sum : ℝ) = b at *
  generalize (m.sum : ℝ) = cc at *
  generalize (c.sum : ℝ) = d at *
  generalize (n.sum : ℝ) = N at *
  have hN : 0 < N := by linarith
  rw [if_neg (by rintro (x | x | x) <;> linarith)]
  have hl : 0 < Real.log ((a + cc) / cc) := Real.log_pos (by rw [lt_div_iff₀ hc]; linarith)
  simp only [pyDivR_ne hc.ne', Option.bind_eq_bind, Option.bind_some, pyLog_pos (show 0 < (a + cc) / cc by positivity),
    pyDivR_ne hb.ne', pyDivR_ne hl.ne', pyDivR_ne hN.ne']
  set L := Real.log ((a + cc) / cc) with hL
  set W := lambertW ((a + cc) / b * L) with hWd
  have hWe : W * Real.exp W = (a + cc) / b * L := hW _ (by positivity)
  have hWp : 0 < W := by
    have : 0 < W * Real.exp W := by rw [hWe]; positivity
    exact (mul_pos_iff_of_pos_right (Real.exp_pos W)).mp this
  refine ⟨L / b, a + cc - b / L * W, ?_, ?_, ?_⟩
  · have : -(L / b) * b = -L := by field_simp
    rw [this, Real.exp_neg, hL, Real.exp_log (by positivity)]
    field_simp
    ring
  · have e1 : -(L / b) * (a + cc - (a + cc - b / L * W)) = -W := by
      rw [sub_sub_cancel]; field_simp
    rw [e1, Real.exp_neg]
    have hE : Real.exp W ≠ 0 := (Real.exp_pos W).ne'
    have : b / L * W = (a + cc) * (Real.exp W)⁻¹ := by
      rw [eq_mul_inv_iff_mul_eq₀ hE, mul_assoc, hWe]
      field_simp
    rw [this]; ring
  · have hr : (a + cc) ^ 2 / N ≤ a + cc := by
      rw [div_le_iff₀ hN, sq]
      exact mul_le_mul_of_nonneg_left (by linarith) (by linarith)
    have hp : 0 < b / L * W := by positivity
    rw [pyDivR_ne (by linarith), Option.bind_some, gilbert]
    congr 2
    have e2 : (a + cc) * (a + cc) / N = (a + cc) ^ 2 / N := by rw [sq]
    rw [e2]
    congr 1
    ring

/-- C94: BAGSS is missing unless there are hits, misses and false alarms. -/
theorem C94_bagss_missing (lambertW : ℝ → ℝ) (D : CtcData t h f m c n)
    (h0 : h.sum = 0 ∨ f.sum = 0 ∨ m.sum = 0) : ctcBagss lambertW t = none := by
  have e : ctcBagss lambertW t = (if (h.sum : ℝ) = 0 ∨ (m.sum : ℝ) = 0 ∨ (n.sum : ℝ) = 0 then none else do
      let o : ℝ := h.sum + m.sum
      let lf ← pyLog (← pyDivR o (m.sum : ℚ))
      let w := lambertW ((← pyDivR o (f.sum : ℚ)) * lf)
      let ha := o - (← pyDivR (f.sum : ℚ) lf) * w
      let r ← pyDivR (o ^ 2) (n.sum : ℚ)
      let q ← pyDivR (ha - r) (2 * o - ha - r)
      some (roundHalfUp q PRECISION)) := by
    simp [ctcBagss, sumR _ _ _ (sum_fy_oy D), sumR _ _ _ (sum_fy_on D), sumR _ _ _ (sum_fn_oy D),
      sumR _ _ _ (sum_total D)]
  rw [e]
  rcases h0 with h0 | h0 | h0
  · simp [h0]
  · simp only [h0, Rat.cast_zero, pyDivR_zero, Option.bind_eq_bind, Option.bind_none]
    split
    · rfl
    · cases pyDivR ((h.sum : ℝ) + m.sum) m.sum with
      | none => rfl
      | some x => rw [Option.bind_some]; cases pyLog x <;> rfl
  · simp [h0]

/-- A Lambert function and a table meeting the hypotheses of `C94_bagss`. -/
example : ∃ W : ℝ → ℝ, ∀ x, 0 < x → W x * Real.exp (W x) = x := by
  have : ∀ x : ℝ, ∃ w, 0 < x → w * Real.exp w = x := by
    intro x
    by_cases hx : 0 < x
    · have hc : ContinuousOn (fun w : ℝ => w * Real.exp w) (Set.Icc 0 x) := by fun_prop
      have := intermediate_value_Icc hx.le hc
      have hm : x ∈ Set.Icc ((0 : ℝ) * Real.exp 0) (x * Real.exp x) := by
        refine ⟨by simpa using hx.le, ?_⟩
        have := Real.one_le_exp hx.le
        nlinarith
      obtain ⟨w, -, hw⟩ := this hm
      exact ⟨w, fun _ => hw⟩
    · exact ⟨0, fun h => absurd h hx⟩
  choose W hW using this
  exact ⟨W, hW⟩

end Metcalcpy.Props
