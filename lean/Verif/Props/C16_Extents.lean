/-
Exact extents of three properties that do not hold as stated.
C16  When the bias corrected root mean squared error raises.
C57  For which names the postfix is put before the extension only.
C93  For which counts EDI and SEDI are present.
-/
import Verif.Props.C15_Sl1l2
import Verif.Props.C57_Validate
import Verif.Props.C92_ExtremeDependency

namespace Metcalcpy.Props
open Metcalcpy Spec

/-! ### Rounding to seven digits -/

theorem round7_neg_iff (x : ℚ) : roundHalfUp x 7 < 0 ↔ x < -(1 / 2 / 10 ^ 7) := by
  unfold roundHalfUp
  rw [div_lt_iff₀ (by norm_num), zero_mul, show ((0 : ℚ)) = ((0 : ℤ) : ℚ) by norm_num, Int.cast_lt, Int.floor_lt]
  norm_num
  constructor <;> intro h <;> linarith

theorem round7_pos_iff (x : ℚ) : 0 < roundHalfUp x 7 ↔ 1 / 2 / 10 ^ 7 ≤ x := by
  unfold roundHalfUp
  rw [lt_div_iff₀ (by norm_num), zero_mul, show ((0 : ℚ)) = ((0 : ℤ) : ℚ) by norm_num, Int.cast_lt, Int.lt_iff_add_one_le, Int.le_floor]
  norm_num
  constructor <;> intro h <;> linarith

theorem round7_lt_one_iff (x : ℚ) : roundHalfUp x 7 < 1 ↔ x < 1 - 1 / 2 / 10 ^ 7 := by
  unfold roundHalfUp
  rw [div_lt_iff₀ (by norm_num), show ((1 : ℚ) * 10 ^ (7 : ℤ)) = ((10 ^ 7 : ℤ) : ℚ) by norm_num, Int.cast_lt, Int.floor_lt]
  norm_num
  constructor <;> intro h <;> linarith

/-! ### C16 -/

/-- C16, how far it holds: BCMSE is negative, and BCRMSE raises a ValueError, exactly when the rounded MSE is smaller than the square of
the rounded ME by more than half a unit of the seventh digit; otherwise BCRMSE is a number that is not negative. -/
theorem C16_raises_exactly_partial (t : Table) (bs : List (List Pair)) (D : Sl1l2Data t bs) :
    let small := roundHalfUp (meanSquaredError bs.flatten) 7 + 1 / 2 / 10 ^ 7 < roundHalfUp (meanError bs.flatten) 7 ^ 2
    (∃ x, aggregated "bcmse" slBcmse t = .ok (some x) ∧ (x < 0 ↔ small)) ∧
      (small → aggregated "bcrmse" slBcrmse t = .ok (.error .valueError)) ∧
      (¬ small → ∃ y, aggregated "bcrmse" slBcrmse t = .ok (.ok (some y)) ∧ 0 ≤ y) := by
  intro small
  obtain ⟨t', h1, h2, -⟩ := bcmse_value D
  have hiff : roundHalfUp (roundHalfUp (meanSquaredError bs.flatten) 7 - roundHalfUp (meanError bs.flatten) 7 ^ 2) 7 < 0 ↔ small := by
    rw [round7_neg_iff]
    constructor <;> intro h
    · show _ + _ < _
      linarith
    · have : _ + _ < _ := h
      linarith
  have e : fieldsOf "bcrmse" = fieldsOf "bcmse" := rfl
  refine ⟨⟨_, by rw [aggregated_ok h1, h2], hiff⟩, fun hs => ?_, fun hs => ?_⟩
  · rw [aggregated_ok (e ▸ h1)]
    simp only [slBcrmse, h2, lenientSqrt, if_pos (hiff.mpr hs), Except.map]
  · refine ⟨roundHalfUp (Real.sqrt ((roundHalfUp (roundHalfUp (meanSquaredError bs.flatten) 7 -
        roundHalfUp (meanError bs.flatten) 7 ^ 2) 7 : ℚ) : ℝ)) 7, ?_, round7_nonneg (Real.sqrt_nonneg _)⟩
    rw [aggregated_ok (e ▸ h1)]
    simp only [slBcrmse, h2, lenientSqrt, if_neg (fun h => hs (hiff.mp h)), Except.map]
    rfl

example : roundHalfUp (meanSquaredError [((3002 / 3 : ℚ), (0 : ℚ))]) 7 + 1 / 2 / 10 ^ 7 <
    roundHalfUp (meanError [((3002 / 3 : ℚ), (0 : ℚ))]) 7 ^ 2 := by
  decide +kernel

/-! ### C57 -/

theorem replace_length (old post : List Char) :
    (replaceNameChars old post).length = old.length + (old.count '.') * (post.length + 1) := by
  unfold replaceNameChars
  induction old with
  | nil => simp
  | cons c l ih =>
    rw [List.flatMap_cons, List.length_append, ih]
    by_cases hc : c = '.'
    · subst hc
      simp only [if_true, List.count_cons_self, List.length_cons, List.length_append, List.length_nil]
      ring
    · simp only [if_neg hc, List.count_cons_of_ne hc, List.length_cons, List.length_nil]
      ring

/-- C57, how far it holds: the postfix is put before the extension and the rest of the name is unchanged exactly when the part before
the last dot has no dot. -/
theorem C57_exactly_when_partial (stem ext post : List Char) (h : '.' ∉ ext) :
    replaceName (String.ofList (stem ++ '.' :: ext)) (String.ofList post) = String.ofList (stem ++ '_' :: post ++ '.' :: ext) ↔
      '.' ∉ stem := by
  constructor
  · intro e
    have e' := congrArg (fun s => s.toList.length) e
    simp only [replaceName, String.toList_ofList, replace_length] at e'
    rw [List.count_append, List.count_cons_self, List.count_eq_zero_of_not_mem h] at e'
    simp only [List.length_append, List.length_cons] at e'
    have : List.count '.' stem * (post.length + 1) = 0 := by
      have : (List.count '.' stem + (0 + 1)) * (post.length + 1) = List.count '.' stem * (post.length + 1) + (post.length + 1) := by ring
      omega
    rcases Nat.mul_eq_zero.mp this with h0 | h0
    · exact List.count_eq_zero.mp h0
    · omega
  · exact fun hs => C57_one_dot_partial stem ext post hs h

/-! ### C93 -/

section
variable {t : Table} {h f m c n : List ℚ}

theorem false_rate_pos (D : CtcData t h f m c n) (C : CtcCounts h f m c n) : 0 < f.sum / (f.sum + c.sum) ↔ 0 < f.sum := by
  obtain ⟨h1, h2, h3, h4, h5⟩ := C.sums D
  constructor
  · intro hp
    rcases eq_or_lt_of_le h2 with h0 | h0
    · rw [← h0, zero_div] at hp; exact absurd hp (lt_irrefl _)
    · exact h0
  · intro hp
    exact div_pos hp (by linarith)

theorem false_rate_one (D : CtcData t h f m c n) (C : CtcCounts h f m c n) (hf : 0 < f.sum) :
    f.sum / (f.sum + c.sum) = 1 ↔ c.sum = 0 := by
  obtain ⟨h1, h2, h3, h4, h5⟩ := C.sums D
  rw [div_eq_one_iff_eq (by linarith : f.sum + c.sum ≠ 0)]
  constructor <;> intro h <;> linarith

/-- C93, how far it holds: EDI is present exactly when there are false alarms and events, the hit rate is at least half a unit of the
seventh digit, and it is not the case that there is no correct rejection and the hit rate rounds to 1. -/
theorem C93_edi_exactly_partial (D : CtcData t h f m c n) (C : CtcCounts h f m c n) :
    (∃ v, ctcEdi t = some v) ↔ 0 < f.sum ∧ h.sum + m.sum ≠ 0 ∧ 1 / 2 / 10 ^ 7 ≤ h.sum / (h.sum + m.sum) ∧
      ¬ (c.sum = 0 ∧ 1 - 1 / 2 / 10 ^ 7 ≤ h.sum / (h.sum + m.sum)) := by
  have P := C93_edi_partial D C
  simp only at P
  have uH := hit_rate_unit D C
  have h1 : roundedHitRate h.sum m.sum = 1 ↔ 1 - 1 / 2 / 10 ^ 7 ≤ h.sum / (h.sum + m.sum) := by
    rw [← not_lt (b := (1 : ℚ) - 1 / 2 / 10 ^ 7), ← round7_lt_one_iff, not_lt]
    exact ⟨fun e => e.ge, fun e => le_antisymm uH.2 e⟩
  have h0 : 0 < roundedHitRate h.sum m.sum ↔ 1 / 2 / 10 ^ 7 ≤ h.sum / (h.sum + m.sum) := round7_pos_iff _
  rw [h0, h1, false_rate_pos D C] at P
  constructor
  · rintro ⟨v, hv⟩
    by_contra hn
    have : ctcEdi t = none := P.2 (by
      rintro ⟨a1, a2, a3, a4⟩
      exact hn ⟨a2, a1, a3, by rwa [false_rate_one D C a2] at a4⟩)
    rw [this] at hv
    cases hv
  · rintro ⟨a2, a1, a3, a4⟩
    exact ⟨_, P.1 ⟨a1, a2, a3, by rwa [false_rate_one D C a2]⟩⟩

/-- C93, how far it holds: SEDI is present exactly when there are false alarms, correct rejections and events, and the hit rate is at
least half a unit of the seventh digit away from 0 and more than that from 1. -/
theorem C93_sedi_exactly_partial (D : CtcData t h f m c n) (C : CtcCounts h f m c n) :
    (∃ v, ctcSedi t = some v) ↔ 0 < f.sum ∧ 0 < c.sum ∧ h.sum + m.sum ≠ 0 ∧ 1 / 2 / 10 ^ 7 ≤ h.sum / (h.sum + m.sum) ∧
      h.sum / (h.sum + m.sum) < 1 - 1 / 2 / 10 ^ 7 := by
  have P := C93_sedi_partial D C
  simp only at P
  obtain ⟨c1, c2, c3, c4, c5⟩ := C.sums D
  have h1 : roundedHitRate h.sum m.sum < 1 ↔ h.sum / (h.sum + m.sum) < 1 - 1 / 2 / 10 ^ 7 := round7_lt_one_iff _
  have h0 : 0 < roundedHitRate h.sum m.sum ↔ 1 / 2 / 10 ^ 7 ≤ h.sum / (h.sum + m.sum) := round7_pos_iff _
  have hF : 0 < f.sum → (f.sum / (f.sum + c.sum) < 1 ↔ 0 < c.sum) := by
    intro hf
    rw [div_lt_one (by linarith)]
    constructor <;> intro h <;> linarith
  rw [h0, h1, false_rate_pos D C] at P
  constructor
  · rintro ⟨v, hv⟩
    by_contra hn
    have : ctcSedi t = none := P.2 (by
      rintro ⟨a1, a2, a3, a4, a5⟩
      exact hn ⟨a2, (hF a2).mp a3, a1, a4, a5⟩)
    rw [this] at hv
    cases hv
  · rintro ⟨a2, a3, a1, a4, a5⟩
    exact ⟨_, P.1 ⟨a1, a2, (hF a2).mpr a3, a4, a5⟩⟩

end

example : ¬ ∃ v, ctcSedi exRare = some v := by
  rw [C93_sedi_exactly_partial exRare_data exRare_counts]
  norm_num

end Metcalcpy.Props
