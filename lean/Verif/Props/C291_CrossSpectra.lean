/-
C291  The script for cross spectra reports different latitudes (partial).
C292  Segments of the cross spectra have the configured length (partial).
C293  The spectra of one run are written to different files.
-/
import Verif.Model.CrossSpectra
import Mathlib.Tactic.Linarith

namespace Metcalcpy.Props
open Metcalcpy

theorem lookup_coordinate (lats : List ℚ) (l v : ℚ) (h : (coordinate lats).lookup l = some v) : v = l := by
  induction lats with
  | nil => simp [coordinate] at h
  | cons a as ih =>
    simp only [coordinate, List.map_cons, List.lookup] at h
    split at h
    · rename_i e
      rw [beq_iff_eq] at e
      simp only [Option.some.injEq] at h
      rw [← h, e]
    · exact ih h

theorem zip_coordinate (a : List ℚ) :
    ((List.zipWith (fun p q : ℚ × ℚ => (p.1, p.2 - q.2)) (coordinate a) (coordinate a)).any fun p => decide (p.2 ≠ 0)) = false := by
  induction a with
  | nil => rfl
  | cons x xs ih => simpa [coordinate] using ih

/-- C291: the message is never printed, whatever the latitudes are. -/
theorem C291_never_partial (latA latB : List ℚ) : latitudeMessage latA latB ≠ .ok true := by
  have hfst : ∀ l : List ℚ, (coordinate l).map Prod.fst = l := fun l => by simp [coordinate, Function.comp_def]
  unfold latitudeMessage alignedDiff
  rw [hfst, hfst]
  split
  · rename_i e
    subst e
    simp only [bind, Except.bind, zip_coordinate]
    simp
  · split
    · simp [bind, Except.bind]
    · simp only [bind, Except.bind, ne_eq, Except.ok.injEq, List.any_eq_true, decide_eq_true_eq, not_exists, not_and, not_not]
      intro p hp
      obtain ⟨q, hq, he⟩ := List.mem_filterMap.mp hp
      obtain ⟨v, hv, rfl⟩ := Option.map_eq_some_iff.mp he
      have h1 := lookup_coordinate _ _ _ hv
      obtain ⟨l, _, rfl⟩ := List.mem_map.mp hq
      simp only at h1 ⊢
      rw [h1, sub_self]

/-- C291, exact extent: for latitudes without repetitions the message is right exactly when the latitudes are the same. -/
theorem C291_exactly_partial (latA latB : List ℚ) (hA : latA.Nodup) (hB : latB.Nodup) :
    latitudeMessage latA latB = .ok (decide (latA ≠ latB)) ↔ latA = latB := by
  have hfst : ∀ l : List ℚ, (coordinate l).map Prod.fst = l := fun l => by simp [coordinate, Function.comp_def]
  constructor
  · intro h
    by_contra hne
    rw [decide_eq_true hne] at h
    exact C291_never_partial latA latB h
  · rintro rfl
    unfold latitudeMessage alignedDiff
    simp [bind, Except.bind, zip_coordinate]

/-- C291 is false: latitudes 2.5 degrees apart and latitudes 1 degree apart are not reported. -/
theorem C291_counterexample : latitudeMessage [-5 / 2, 0, 5 / 2] [-2, -1, 0, 1, 2] = .ok false := by decide +kernel

/-- C292: the spectra with the winds have segments of `nperseg` days, `segOverLap` days apart: the number of values is the number of
days times the number of values a day. -/
theorem C292_winds (model symmetry text : List Char) (spd nperseg segOverLap : ℤ) :
    ∀ r ∈ (crossRuns model symmetry text spd nperseg segOverLap).take 2,
      r.spd = spd ∧ r.nperseg = nperseg * r.spd ∧ r.overlap = segOverLap * r.spd := by
  intro r hr
  simp only [crossRuns, List.take_succ_cons, List.take_zero, List.mem_cons, List.not_mem_nil, or_false] at hr
  rcases hr with rfl | rfl <;> exact ⟨rfl, rfl, rfl⟩

/-- C292, exact extent: all segments have `nperseg` days exactly when two values a day are configured. -/
theorem C292_exactly_partial (model symmetry text : List Char) (spd nperseg segOverLap : ℤ) (hn : nperseg ≠ 0) :
    (∀ r ∈ crossRuns model symmetry text spd nperseg segOverLap, r.nperseg = nperseg * r.spd) ↔ spd = 2 := by
  simp only [crossRuns, List.mem_cons, List.not_mem_nil, or_false, forall_eq_or_imp, forall_eq, true_and]
  exact mul_right_inj' hn

/-- C292 is false: with four values a day and segments of 15 days, the segments of the third spectrum have 60 values at two values a
day, which are 30 days. -/
theorem C292_counterexample (model symmetry text : List Char) :
    ((crossRuns model symmetry text 4 15 (-5)).map fun r => (r.nperseg, r.spd)) = [(60, 4), (60, 4), (60, 2)] := rfl

/-- C293: the three files are different, for all models, symmetries and numbers of values a day. -/
theorem C293_different_files (model symmetry text : List Char) (spd nperseg segOverLap : ℤ) :
    ((crossRuns model symmetry text spd nperseg segOverLap).map CrossRun.file).Nodup := by
  have e12 : "_P_D850_".toList ≠ "_P_D200_".toList := by decide +kernel
  have key : ∀ mid : List Char, mid.length = 8 → (mid.drop 5 ≠ "_P_".toList) →
      "SpaceTimeSpectra_".toList ++ model ++ mid ++ symmetry ++ ['_'] ++ text ++ "spd".toList ≠
      "SpaceTimeSpectra_ERAI_".toList ++ model ++ "_P_".toList ++ symmetry ++ ['_'] ++ "2".toList ++ "spd".toList := by
    intro mid hl hd h
    have l1 : "SpaceTimeSpectra_".toList.length = 17 := by decide +kernel
    have l2 : "SpaceTimeSpectra_ERAI_".toList.length = 22 := by decide +kernel
    have l3 : "_P_".toList.length = 3 := by decide +kernel
    have l4 : "2".toList.length = 1 := by decide +kernel
    have hlen := congrArg List.length h
    simp only [List.length_append, hl, l1, l2, l3, l4, List.length_singleton] at hlen
    have ht : text.length = 1 := by omega
    have h1 := (List.append_inj' h rfl).1
    have h2 := (List.append_inj' h1 (by rw [ht, l4])).1
    have h3 := (List.append_inj' h2 rfl).1
    have h4 := (List.append_inj' h3 rfl).1
    rw [← List.take_append_drop 5 mid, ← List.append_assoc] at h4
    exact hd (List.append_inj' h4 (by rw [List.length_drop, hl, l3])).2
  simp only [crossRuns, List.map_cons, List.map_nil, List.nodup_cons, List.mem_cons, List.not_mem_nil, or_false, not_or,
    not_false_eq_true, List.nodup_nil, and_true]
  refine ⟨⟨fun h => ?_, key _ (by decide +kernel) (by decide +kernel)⟩, key _ (by decide +kernel) (by decide +kernel)⟩
  have h1 := (List.append_inj' h rfl).1
  have h2 := (List.append_inj' h1 rfl).1
  have h3 := (List.append_inj' h2 rfl).1
  have h4 := (List.append_inj' h3 rfl).1
  exact e12 (List.append_inj_right h4 rfl)

/-- The files of a run with four values a day. -/
example : ((crossRuns "GFS".toList "symm".toList "4".toList 4 15 (-5)).map fun r => String.ofList r.file) =
    ["SpaceTimeSpectra_GFS_P_D850_symm_4spd", "SpaceTimeSpectra_GFS_P_D200_symm_4spd", "SpaceTimeSpectra_ERAI_GFS_P_symm_2spd"] := by
  decide +kernel

end Metcalcpy.Props
