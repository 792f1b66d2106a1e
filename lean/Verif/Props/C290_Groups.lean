/-
C290: what the statistics asked for by name are on a table of objects.
-/
import Verif.Props.C290_ObjectStats
import Verif.Props.C44_Mode

namespace Metcalcpy.Props
open Metcalcpy Spec

/-- Specification: the objects that three letters stand for.  First: forecast, observed or any; second: simple, cluster or any;
third: matched, unmatched or any. -/
def inGroup (w : String) (o : ModeObj) : Bool :=
  match w.toList with
  | [a, b, c] =>
    (if a = 'f' then o.fcst else if a = 'o' then !o.fcst else true) &&
    (if b = 's' then o.simple else if b = 'c' then !o.simple else true) &&
    (if c = 'm' then o.matched else if c = 'u' then !o.matched else true)
  | _ => true

theorem objSat_letters (w : String) : objSat (lettersFilter w) = inGroup w := by
  refine objSat_eq _ _ ?_
  intro x y z q
  unfold lettersFilter inGroup
  rcases w.toList with _ | ⟨a, _ | ⟨b, _ | ⟨c, _ | ⟨d, l⟩⟩⟩⟩
  · rfl
  · rfl
  · rfl
  · dsimp only
    split_ifs <;> cases x <;> cases y <;> cases z <;> rfl
  · rfl

theorem lettersFilter_flags (w : String) : ∀ p ∈ lettersFilter w, p.1 ∈ flagNames := by
  unfold lettersFilter
  rcases w.toList with _ | ⟨a, _ | ⟨b, _ | ⟨c, _ | ⟨d, l⟩⟩⟩⟩
  · simp
  · simp
  · simp
  · dsimp only
    split_ifs <;> simp [flagNames]
  · simp

/-- The pairs for which the count function has other filters than its name says. -/
def wrongCount : List (String × String) := [("fsm", "fsa"), ("fsu", "fsa"), ("fsm", "asm"), ("osm", "asm")]

theorem odd_not_wrong : ∀ p ∈ oddCount, p ∉ wrongCount → p = ("fsu", "asu") ∨ p = ("osu", "asu") := by decide +kernel

theorem inGroup_fsu : inGroup "fsu" = FSU := by
  funext o; cases o with | mk a b c x => cases a <;> cases b <;> cases c <;> rfl

theorem inGroup_osu : inGroup "osu" = OSU := by
  funext o; cases o with | mk a b c x => cases a <;> cases b <;> cases c <;> rfl

theorem inGroup_asu : inGroup "asu" = ASU := by
  funext o; cases o with | mk a b c x => cases a <;> cases b <;> cases c <;> rfl

/-- For every pair but the four wrong ones there is a function under its name which counts the two groups. -/
theorem count_groups (x y : String) (h : (x, y) ∈ ratioPairs) (ho : (x, y) ∉ wrongCount) :
    ∃ s, ("ratio_" ++ x ++ "_" ++ y, s) ∈ countStats ∧
      ∀ (f : Frame) (objs : List ModeObj), ModeData f objs → modeCount s f = .ok (numberRatio objs (inGroup x) (inGroup y)) := by
  by_cases hodd : (x, y) ∈ oddCount
  · rcases odd_not_wrong _ hodd ho with e | e <;> cases e
    · refine ⟨ModeRatio.fsu_asu, countStats_others ("ratio_fsu_asu", _) (by simp), fun f objs D => ?_⟩
      rw [inGroup_fsu, inGroup_asu]
      exact (C79_count_partial D).1.2.2.2.2.2.2.1
    · refine ⟨ModeRatio.osu_asu, countStats_others ("ratio_osu_asu", _) (by simp), fun f objs D => ?_⟩
      rw [inGroup_osu, inGroup_asu]
      exact (C79_count_partial D).1.2.2.2.2.2.2.2
  · refine ⟨lettersRatio x y, countStats_letters (x, y) h hodd, fun f objs D => ?_⟩
    rw [← objSat_letters, ← objSat_letters]
    exact count_ratio D _ _ (lettersFilter_flags x) (lettersFilter_flags y)

open Classical in
/-- Specification: the rows whose object type is `d`. -/
noncomputable def ofType (f : Frame) (d : String) : Frame :=
  { f with rows := f.rows.filter (fun r => decide (∃ v, HasCell f r "object_type" v ∧ v.text = d)) }

/-- C290: asking for `ratio_xxx_yyy` on a table of objects gives the number of objects of the group xxx over the number of those of
the group yyy; with `2d_` or `3d_` in front those among the 2d or 3d objects.  Missing: the four ratios of `C79_count_deviations`, and
the two names without a 3d function (`C290_missing_counterexample`). -/
theorem C290_count_of_groups_partial (x y : String) (h : (x, y) ∈ ratioPairs) (ho : (x, y) ∉ wrongCount) :
    (∀ f objs, ModeData f objs → objectStat ("ratio_" ++ x ++ "_" ++ y) f = .ok (numberRatio objs (inGroup x) (inGroup y))) ∧
    (∀ f objs, FrameWF f → "object_type" ∈ f.cols → ModeData (ofType f "2d") objs →
      objectStat ("2d_" ++ ("ratio_" ++ x ++ "_" ++ y)) f = .ok (numberRatio objs (inGroup x) (inGroup y))) ∧
    ((x, y) ≠ ("oca", "aca") → (x, y) ≠ ("aca", "asa") → ∀ f objs,
      FrameWF f → "object_type" ∈ f.cols → ModeData (ofType f "3d") objs →
      objectStat ("3d_" ++ ("ratio_" ++ x ++ "_" ++ y)) f = .ok (numberRatio objs (inGroup x) (inGroup y))) := by
  obtain ⟨s, hs, hv⟩ := count_groups x y h ho
  refine ⟨fun f objs D => ?_, fun f objs wf hc D => ?_, fun n1 n2 f objs wf hc D => ?_⟩
  · rw [((C290_objects_and_2d_partial f).1 _ _ hs).1, hv f objs D]
  · rw [((C290_objects_and_2d_partial f).1 _ _ hs).2, (C81_dimension_partial f wf s hc "2d").1]
    exact hv _ objs D
  · rw [(C290_3d_exactly_partial _ _ hs).mpr (pairs_3d (x, y) h n1 n2) f, (C81_dimension_partial f wf s hc "3d").1]
    exact hv _ objs D

/-- C290: `arearat_xxx_yyy` gives the area of the group xxx over that of the group yyy.  Missing: fsm_asm and osa_fsa
(`C79_area_deviations`) and fsu_asu, which has no function. -/
theorem C290_area_of_groups_partial (x y : String) (h : (x, y) ∈ ratioPairs) (ho : (x, y) ∉ oddArea) :
    (∀ f objs, ModeData f objs → objectStat ("arearat_" ++ x ++ "_" ++ y) f = .ok (areaRatio objs (inGroup x) (inGroup y))) ∧
    (∀ f objs, FrameWF f → "object_type" ∈ f.cols → ModeData (ofType f "2d") objs →
      objectStat ("2d_" ++ ("arearat_" ++ x ++ "_" ++ y)) f = .ok (areaRatio objs (inGroup x) (inGroup y))) := by
  have hv : ∀ f objs, ModeData f objs → modeArea (lettersRatio x y) f = .ok (areaRatio objs (inGroup x) (inGroup y)) := by
    intro f objs D
    rw [← objSat_letters, ← objSat_letters]
    exact area_ratio D _ _ (lettersFilter_flags x) (lettersFilter_flags y)
  refine ⟨fun f objs D => ?_, fun f objs wf hc D => ?_⟩
  · rw [(C290_area_letters_partial x y h ho f).1, hv f objs D]
  · rw [(C290_area_letters_partial x y h ho f).2.1, (C81_dimension_partial f wf _ hc "2d").2]
    exact hv _ objs D

/-- C290: every volume ratio is missing, whatever the data. -/
theorem C290_volume_missing (n : String) (s : ModeStat) (h : (n, s) ∈ volumeStats) (f : Frame) : objectStat ("3d_" ++ n) f = .ok none := by
  rw [(C290_objects_and_2d_partial f).2.2 n s h, C81_volume_missing]

/-- The hypotheses hold for the objects of `exMode`: of seven objects six are simple and three of these observed. -/
example : objectStat "ratio_osa_asa" exMode = .ok (some (1 / 2)) ∧
    objectStat "ratio_osa_asa" exMode = .ok (numberRatio exModeObjs (inGroup "osa") (inGroup "asa")) :=
  ⟨by decide +kernel, (C290_count_of_groups_partial "osa" "asa" (by decide) (by decide)).1 _ _ exMode_data⟩

/-- All objects of `exMode` are 2d objects. -/
example : objectStat "2d_ratio_osa_asa" exMode = .ok (numberRatio exModeObjs (inGroup "osa") (inGroup "asa")) := by
  refine (C290_count_of_groups_partial "osa" "asa" (by decide) (by decide)).2.1 _ _ exMode_data.wf (by decide) ?_
  have h : ofType exMode "2d" = exMode := by
    rw [ofType]
    have hf : exMode.rows.filter (fun r => @decide (∃ v, HasCell exMode r "object_type" v ∧ v.text = "2d")
        (Classical.propDecidable _)) = exMode.rows := by
      rw [List.filter_eq_self]
      intro r hr
      refine @decide_eq_true _ (Classical.propDecidable _) ⟨.str "2d", ⟨0, rfl, by simp, ?_⟩, rfl⟩
      simp only [exMode, List.mem_cons, List.not_mem_nil, or_false] at hr
      rcases hr with rfl | rfl | rfl | rfl | rfl | rfl | rfl <;> rfl
    rw [hf]
  rw [h]
  exact exMode_data

end Metcalcpy.Props
