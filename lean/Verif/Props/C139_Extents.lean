/-
C139  Which units of the levels are read rightly (exact extent).
C237  Which times survive the writing of a Dataset (exact extent).
-/
import Verif.Props.C137_HeightPressure
import Verif.Props.C236_WriteDataset

namespace Metcalcpy.Props
open Metcalcpy Spec

theorem vInterp_one (c eta : ℚ) (z f : ℕ → ℚ) : vInterp 1 c eta z f = if c * z 0 < eta then some (f 0) else none := by
  unfold vInterp vWeights vDist
  by_cases h : c * z 0 < eta
  · simp [h]
  · simp [h]

/-- C139 (exact extent): levels in units of `lu` meters over surfaces in units of `su` meters give, for all columns and
levels, what both give in meters, exactly when the units are the same. -/
theorem C139_exactly_partial (lu su : ℚ) (hl : 0 < lu) (hs : 0 < su) :
    (∀ surfaces field levels : List ℚ, verticalInterpUnits surfaces field lu su levels =
      verticalInterpUnits (surfaces.map (su * ·)) field 1 1 (levels.map (lu * ·))) ↔ lu = su := by
  constructor
  · intro h
    have h1 := h [1] [7] [1]
    simp only [verticalInterpUnits, verticalInterp, lengthConvert, List.map_cons, List.map_nil, List.length_cons,
      List.length_nil, Nat.zero_add, vInterp_one, List.getD_cons_zero, mul_one, div_one, one_mul, List.cons.injEq,
      and_true] at h1
    rcases lt_trichotomy lu su with hlt | he | hgt
    · rw [if_pos ((div_lt_one hs).mpr hlt), if_neg (not_lt.mpr hlt.le)] at h1
      simp at h1
    · exact he
    · rw [if_neg (not_lt.mpr ((one_le_div hs).mpr hgt.le)), if_pos hgt] at h1
      simp at h1
  · rintro rfl surfaces field levels
    exact C139_same_unit_partial surfaces field lu levels hl

/-- C139 (example): kilometers over kilometers. -/
example : verticalInterpUnits [0, 4, 8, 12] [10, 20, 30, 40] 1000 1000 [6] =
    verticalInterpUnits ([0, 4, 8, 12].map ((1000 : ℚ) * ·)) [10, 20, 30, 40] 1 1 ([6].map ((1000 : ℚ) * ·)) :=
  (C139_exactly_partial 1000 1000 (by norm_num) (by norm_num)).mpr rfl _ _ _

/-- C237 (exact extent): the seconds in the file are the times of the Dataset, counted in nanoseconds since 1970, exactly
when the first of them is the beginning of 1970. -/
theorem C237_exactly_partial (lead : Except PyErr (ℚ × String)) (ds : XrDataset) (coord : String → DsCoord)
    (H : PlainDataset ds coord) (ht : "time" ∈ ds.dims) (hne : (coord "time").values ≠ []) :
    ∃ f v, writeDataset lead false ds = .ok f ∧ v ∈ f.vars ∧ v.name = "time" ∧
      (v.values.map (· * 1000000000) = (coord "time").values ↔ (coord "time").values.head? = some 0) := by
  refine ⟨_, coordVar coord "time", C236_written_partial lead ds coord H, ?_, rfl, ?_⟩
  · exact List.mem_append_left _ (List.mem_map.2 ⟨_, ht, rfl⟩)
  · obtain ⟨x, xs, hx⟩ := List.exists_cons_of_ne_nil hne
    simp only [coordVar, if_true, hx, List.map_cons, List.map_map, List.cons.injEq, List.head?_cons, Option.some.injEq,
      List.head_cons, List.headD_cons, List.getD_cons_zero]
    constructor
    · rintro ⟨h1, -⟩
      simp at h1
      exact h1.symm
    · rintro rfl
      refine ⟨by norm_num, ?_⟩
      conv_rhs => rw [← List.map_id xs]
      apply List.map_congr_left
      intro y _
      simp only [Function.comp, id]
      ring

/-- C237 (example): the times of one and three seconds after the beginning of 1970. -/
example := C237_exactly_partial (.ok (0, "1970-01-01 00:00:00")) smallDataset _ smallDataset_plain (by decide) (by decide)

end Metcalcpy.Props
