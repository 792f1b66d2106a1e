/-
C290: every statistic of objects can be asked for all objects, for the 2d objects and for the 3d objects.
-/
import Verif.Model.ObjectStats

namespace Metcalcpy.Props
open Metcalcpy

theorem lookup_of_distinct {α : Type} {l : List (String × α)} (hl : (l.map Prod.fst).Nodup) {k : String} {v : α}
    (h : (k, v) ∈ l) : l.lookup k = some v := by
  induction l with
  | nil => simp at h
  | cons p l ih =>
    obtain ⟨a, b⟩ := p
    simp only [List.map_cons, List.nodup_cons] at hl
    rcases List.mem_cons.mp h with h' | h'
    · cases h'
      simp [List.lookup]
    · have hne : k ≠ a := by
        rintro rfl
        exact hl.1 (List.mem_map.mpr ⟨(k, v), h', rfl⟩)
      have : (k == a) = false := by simpa using hne
      simp only [List.lookup, this]
      exact ih hl.2 h'

/-- No two functions have the same name, so none hides another (`import *` six times). -/
theorem objectFunctions_distinct : (objectFunctions.map Prod.fst).Nodup := by decide +kernel

theorem objectStat_of_mem {k : String} {g : Frame → Except PyErr (Option ℚ)} (h : (k, g) ∈ objectFunctions) (f : Frame) :
    objectStat k f = g f := by
  simp [objectStat, lookup_of_distinct objectFunctions_distinct h]

/-- Statistics of all objects and of the 2d objects: by its name, each gives its own ratio, on all rows or on the 2d rows. -/
theorem C290_objects_and_2d_partial (f : Frame) :
    (∀ n s, (n, s) ∈ countStats → objectStat n f = modeCount s f ∧ objectStat ("2d_" ++ n) f = modeCountDim "2d" s f) ∧
    (∀ n s, (n, s) ∈ areaStats → objectStat n f = modeArea s f ∧ objectStat ("2d_" ++ n) f = modeArea2d s f) ∧
    (∀ n s, (n, s) ∈ volumeStats → objectStat ("3d_" ++ n) f = modeVolume3d s f) := by
  refine ⟨fun n s h => ⟨?_, ?_⟩, fun n s h => ⟨?_, ?_⟩, fun n s h => ?_⟩ <;>
    refine objectStat_of_mem (g := ?_) ?_ f <;> simp only [objectFunctions, List.mem_append, List.mem_map]
  · exact .inl (.inl (.inl (.inl (.inl ⟨_, h, rfl⟩))))
  · exact .inl (.inl (.inr ⟨_, h, rfl⟩))
  · exact .inl (.inl (.inl (.inl (.inr ⟨_, h, rfl⟩))))
  · exact .inl (.inl (.inl (.inr ⟨_, h, rfl⟩)))
  · exact .inl (.inr ⟨_, h, rfl⟩)

/-- The names of the count ratios without a 3d function. -/
def no3d : List String := ["ratio_oca_aca", "ratio_aca_asa"]

theorem no3d_lookup : ∀ n ∈ no3d, (objectFunctions.lookup ("3d_" ++ n)).isNone = true := by decide +kernel

theorem has3d : ∀ p ∈ countStats, p.1 ∉ no3d → p.1 ∈ count3dNames := by
  have h : ∀ n ∈ countStats.map Prod.fst, n ∉ no3d → n ∈ count3dNames := by decide +kernel
  exact fun p hp hn => h p.1 (List.mem_map.mpr ⟨p, hp, rfl⟩) hn

/-- C290, exact extent: on the 3d objects a count ratio gives its value on the 3d rows, for every name but two; those two give
a KeyError on every frame. -/
theorem C290_3d_exactly_partial (n : String) (s : ModeStat) (h : (n, s) ∈ countStats) :
    (∀ f, objectStat ("3d_" ++ n) f = modeCountDim "3d" s f) ↔ n ≠ "ratio_oca_aca" ∧ n ≠ "ratio_aca_asa" := by
  constructor
  · intro hall
    have hn : n ∉ no3d := by
      intro hmem
      have h0 := hall ⟨[], []⟩
      have hl := no3d_lookup n hmem
      rw [Option.isNone_iff_eq_none] at hl
      simp only [objectStat, hl] at h0
      have h1 : modeCountDim "3d" s ⟨[], []⟩ = .error .attributeError := rfl
      rw [h1] at h0
      cases h0
    simpa [no3d] using hn
  · intro hn f
    refine objectStat_of_mem (g := modeCountDim "3d" s) ?_ f
    simp only [objectFunctions, List.mem_append, List.mem_map]
    refine .inr ⟨(n, s), List.mem_filter.mpr ⟨h, ?_⟩, rfl⟩
    exact decide_eq_true (has3d (n, s) h (by simpa [no3d] using hn))

/-- Three names follow the pattern of the others and have no function: a KeyError whatever the data. -/
theorem C290_missing_counterexample (f : Frame) :
    objectStat "3d_ratio_oca_aca" f = .error .keyError ∧ objectStat "3d_ratio_aca_asa" f = .error .keyError ∧
    objectStat "arearat_fsu_asu" f = .error .keyError ∧ objectStat "2d_arearat_fsu_asu" f = .error .keyError ∧
    objectStat "3d_volrat_fsu_asu" f = .error .keyError := by
  have h : ∀ n ∈ ["3d_ratio_oca_aca", "3d_ratio_aca_asa", "arearat_fsu_asu", "2d_arearat_fsu_asu", "3d_volrat_fsu_asu"],
      (objectFunctions.lookup n).isNone = true := by decide +kernel
  have h' : ∀ n ∈ ["3d_ratio_oca_aca", "3d_ratio_aca_asa", "arearat_fsu_asu", "2d_arearat_fsu_asu", "3d_volrat_fsu_asu"],
      objectStat n f = .error .keyError := by
    intro n hn
    have := h n hn
    rw [Option.isNone_iff_eq_none] at this
    simp [objectStat, this]
  simp only [List.forall_mem_cons] at h'
  exact ⟨h'.1, h'.2.1, h'.2.2.1, h'.2.2.2.1, h'.2.2.2.2.1⟩

/-- Specification: the filter that three letters stand for.  First: all, forecast or observed objects; second: all, simple or
cluster objects; third: all, matched or unmatched objects. -/
def lettersFilter (w : String) : List (String × ℤ) :=
  match w.toList with
  | [a, b, c] =>
    (if a = 'f' then [("fcst_flag", 1)] else if a = 'o' then [("fcst_flag", 0)] else []) ++
    (if b = 's' then [("simple_flag", 1)] else if b = 'c' then [("simple_flag", 0)] else []) ++
    (if c = 'm' then [("matched_flag", 1)] else if c = 'u' then [("matched_flag", 0)] else [])
  | _ => []

/-- Specification: the ratio of two groups of objects, each given by three letters. -/
def lettersRatio (x y : String) : ModeStat := .ratio (lettersFilter x) (lettersFilter y)

/-- The pairs of groups offered. -/
def ratioPairs : List (String × String) :=
  [("asm", "asa"), ("fsa", "asa"), ("osa", "asa"), ("asu", "asa"), ("fsm", "fsa"), ("fsu", "fsa"), ("osm", "osa"),
   ("osu", "osa"), ("fsm", "asm"), ("osm", "asm"), ("fsu", "asu"), ("osu", "asu"), ("fsa", "aaa"), ("osa", "aaa"),
   ("fsa", "faa"), ("fca", "faa"), ("osa", "oaa"), ("oca", "oaa"), ("fca", "aca"), ("oca", "aca"), ("fsa", "osa"),
   ("osa", "fsa"), ("aca", "asa"), ("asa", "aca"), ("fca", "fsa"), ("fsa", "fca"), ("oca", "osa"), ("osa", "oca")]

deriving instance DecidableEq for ModeStat

/-- Pairs whose count function has other filters than the letters say (fsm_fsa, fsu_fsa, fsm_asm, osm_asm: see
`C79_count_deviations`) or the same ones in another order (fsu_asu, osu_asu). -/
def oddCount : List (String × String) :=
  [("fsm", "fsa"), ("fsu", "fsa"), ("fsm", "asm"), ("osm", "asm"), ("fsu", "asu"), ("osu", "asu")]

/-- Pairs whose area function has other filters than the letters say (see `C79_area_deviations`), and fsu_asu, which has none. -/
def oddArea : List (String × String) := [("fsm", "asm"), ("osa", "fsa"), ("fsu", "asu")]

theorem countStats_letters : ∀ p ∈ ratioPairs, p ∉ oddCount →
    ("ratio_" ++ p.1 ++ "_" ++ p.2, lettersRatio p.1 p.2) ∈ countStats := by decide +kernel

theorem areaStats_letters : ∀ p ∈ ratioPairs, p ∉ oddArea →
    ("arearat_" ++ p.1 ++ "_" ++ p.2, lettersRatio p.1 p.2) ∈ areaStats ∧
    ("volrat_" ++ p.1 ++ "_" ++ p.2, lettersRatio p.1 p.2) ∈ volumeStats := by decide +kernel

/-- The other functions, under their names: those with other filters and the scores of `C80`. -/
theorem countStats_others :
    ∀ p ∈ [("ratio_fsm_fsa", ModeRatio.fsm_fsa), ("ratio_fsu_fsa", ModeRatio.fsu_fsa), ("ratio_fsm_asm", ModeRatio.fsm_asm),
      ("ratio_osm_asm", ModeRatio.osm_asm), ("ratio_fsu_asu", ModeRatio.fsu_asu), ("ratio_osu_asu", ModeRatio.osu_asu),
      ("objhits", ModeRatio.objhits), ("objmisses", ModeRatio.objmisses), ("objfas", ModeRatio.objfas),
      ("objcsi", ModeRatio.objcsi), ("objpody", ModeRatio.objpody), ("objfar", ModeRatio.objfar)], p ∈ countStats := by
  decide +kernel

theorem areaStats_others :
    (∀ p ∈ [("arearat_fsm_asm", ModeArea.fsm_asm), ("arearat_osa_fsa", ModeArea.osa_fsa),
      ("objahits", ModeArea.objahits), ("objamisses", ModeArea.objamisses), ("objafas", ModeArea.objafas),
      ("objacsi", ModeArea.objacsi), ("objapody", ModeArea.objapody), ("objafar", ModeArea.objafar)], p ∈ areaStats) ∧
    (∀ p ∈ [("volrat_fsm_asm", ModeArea.fsm_asm), ("volrat_osa_fsa", ModeArea.osa_fsa),
      ("objvhits", ModeArea.objahits), ("objvmisses", ModeArea.objamisses), ("objvfas", ModeArea.objafas),
      ("objvcsi", ModeArea.objacsi), ("objvpody", ModeArea.objapody), ("objvfar", ModeArea.objafar)], p ∈ volumeStats) := by
  decide +kernel

theorem pairs_3d : ∀ p ∈ ratioPairs, p ≠ ("oca", "aca") → p ≠ ("aca", "asa") →
    "ratio_" ++ p.1 ++ "_" ++ p.2 ≠ "ratio_oca_aca" ∧ "ratio_" ++ p.1 ++ "_" ++ p.2 ≠ "ratio_aca_asa" := by decide +kernel

/-- C290: asking for `ratio_xxx_yyy` gives the number of objects of the group xxx over the number of objects of the group yyy, where
the letters of the name say which objects are in a group; `2d_` and `3d_` take the 2d and 3d objects. -/
theorem C290_letters_partial (x y : String) (h : (x, y) ∈ ratioPairs) (ho : (x, y) ∉ oddCount) (f : Frame) :
    objectStat ("ratio_" ++ x ++ "_" ++ y) f = modeCount (lettersRatio x y) f ∧
    objectStat ("2d_" ++ ("ratio_" ++ x ++ "_" ++ y)) f = modeCountDim "2d" (lettersRatio x y) f ∧
    ((x, y) ≠ ("oca", "aca") → (x, y) ≠ ("aca", "asa") →
      objectStat ("3d_" ++ ("ratio_" ++ x ++ "_" ++ y)) f = modeCountDim "3d" (lettersRatio x y) f) := by
  have hm := countStats_letters (x, y) h ho
  obtain ⟨h1, h2⟩ := (C290_objects_and_2d_partial f).1 _ _ hm
  exact ⟨h1, h2, fun n1 n2 => (C290_3d_exactly_partial _ _ hm).mpr (pairs_3d (x, y) h n1 n2) f⟩

/-- The same for `arearat_xxx_yyy` and `volrat_xxx_yyy`, which sum areas instead. -/
theorem C290_area_letters_partial (x y : String) (h : (x, y) ∈ ratioPairs) (ho : (x, y) ∉ oddArea) (f : Frame) :
    objectStat ("arearat_" ++ x ++ "_" ++ y) f = modeArea (lettersRatio x y) f ∧
    objectStat ("2d_" ++ ("arearat_" ++ x ++ "_" ++ y)) f = modeArea2d (lettersRatio x y) f ∧
    objectStat ("3d_" ++ ("volrat_" ++ x ++ "_" ++ y)) f = modeVolume3d (lettersRatio x y) f := by
  obtain ⟨ha, hv⟩ := areaStats_letters (x, y) h ho
  obtain ⟨-, ka, kv⟩ := C290_objects_and_2d_partial f
  exact ⟨(ka _ _ ha).1, (ka _ _ ha).2, kv _ _ hv⟩

/-- The hypothesis holds, e.g. for observed simple matched objects among all observed simple objects: of two one is matched. -/
example : (("osm", "osa") ∈ ratioPairs ∧ ("osm", "osa") ∉ oddCount ∧ ("osm", "osa") ∉ oddArea) ∧
    objectStat "ratio_osm_osa" ⟨["fcst_flag", "simple_flag", "matched_flag"],
      [[.num 0 "0", .num 1 "1", .num 1 "1"], [.num 0 "0", .num 1 "1", .num 0 "0"], [.num 1 "1", .num 1 "1", .num 1 "1"]]⟩ =
      .ok (some (1 / 2)) := by
  decide +kernel

/-- In the aggregation of objects the missing function ends the run of that point, whatever the rows and the cases. -/
theorem C290_value_counterexample (f : Frame) (pool : List String) :
    objValue objectStat "3d_ratio_aca_asa" f pool = .error .keyError := by
  unfold objValue
  cases hk : f.col "case" with
  | error e =>
    unfold Frame.col at hk
    split at hk
    · cases hk
    · cases hk
      rfl
  | ok k =>
    exact (C290_missing_counterexample { f with rows := resampledRows k f.rows pool }).2.1

end Metcalcpy.Props
