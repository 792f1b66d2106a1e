/-
C142  What the removal of the 120 day mean subtracts for times with any spacing, and for exactly which times it is right.
-/
import Verif.Props.C142_Rem120
import Mathlib.Tactic.IntervalCases
import Mathlib.Tactic.NormNum

namespace Metcalcpy.Props
open Metcalcpy

/-- The mean of the values present at the steps up to `i` which satisfy `near`. -/
def meanOfSteps (near : ℕ → Bool) (x : ℕ → Cell) (i : ℕ) : Cell :=
  let vals := ((List.range (i + 1)).filter near).filterMap x
  if vals = [] then none else some (vals.sum / vals.length)

/-- C142 for times of any spacing: subtracted is the mean of the values at those steps back whose number, multiplied by the
first spacing of the times, is at most 120.  The other spacings have no influence. -/
theorem C142_any_spacing_partial (ts : List ℚ) (col : List Cell) (h2 : 2 ≤ ts.length) (hl : ts.length = col.length)
    (hdt : ts.getD 0 0 < ts.getD 1 0) :
    ∃ out, rem120dayMean ts col = .ok out ∧ out.length = col.length ∧
      ∀ i : ℕ, i < col.length → out[i]? = some ((col.getD i none).bind fun x =>
        (meanOfSteps (fun j => decide (((i : ℚ) - j) * (ts.getD 1 0 - ts.getD 0 0) ≤ 120))
          (fun j => col.getD j none) i).map fun m => x - m) := by
  obtain ⟨t0, t1, rest, rfl⟩ : ∃ t0 t1 rest, ts = t0 :: t1 :: rest := by
    match ts, h2 with
    | t0 :: t1 :: rest, _ => exact ⟨t0, t1, rest, rfl⟩
  simp only [List.getD_cons_zero, List.getD_cons_succ] at hdt ⊢
  have hd : 0 < t1 - t0 := sub_pos.mpr hdt
  generalize hdd : t1 - t0 = dt at *
  unfold rem120dayMean
  simp only [hdd]
  rw [if_neg hd.ne', if_neg (by omega)]
  refine ⟨_, rfl, by simp, ?_⟩
  intro i hi
  rw [List.getElem?_mapIdx, List.getElem?_eq_getElem hi, Option.map_some, if_pos (by omega)]
  have hq : (0 : ℚ) ≤ 120 / dt := by positivity
  have hg : col.getD i none = col[i] := by simp [List.getElem?_eq_getElem hi]
  have hm : nanMean (window120 (truncInt (120 / dt)) col i) =
      meanOfSteps (fun j => decide (((i : ℚ) - j) * dt ≤ 120)) (fun j => col.getD j none) i := by
    rw [window120_eq _ (truncInt_nonneg hq) col i hi, nanMean_filterMap]
    unfold meanOfSteps
    have hf : (List.range (i + 1)).filter (fun j : ℕ => decide ((i : ℤ) - j ≤ truncInt (120 / dt))) =
        (List.range (i + 1)).filter (fun j : ℕ => decide (((i : ℚ) - j) * dt ≤ 120)) := by
      apply List.filter_congr
      intro j _
      apply decide_eq_decide.mpr
      rw [le_truncInt hq, le_div_iff₀ hd]
      push_cast
      rfl
    rw [hf, List.filterMap_map]
    rfl
  rw [hm, hg]
  cases col[i] with
  | none => rfl
  | some x =>
    cases meanOfSteps (fun j => decide (((i : ℚ) - j) * dt ≤ 120)) (fun j => col.getD j none) i <;> rfl

/-- Column that is 1 at step `k` and 0 at all others. -/
def spike (n k : ℕ) : List Cell := (List.range n).map fun j => some (if j = k then 1 else 0)

theorem spike_getD {n k j : ℕ} (h : j < n) : (spike n k).getD j none = some (if j = k then 1 else 0) := by
  unfold spike
  simp [h]

theorem mean_spike (near : ℕ → Bool) (n k i : ℕ) (hi : i < n) (hself : near i = true) :
    ∃ m, meanOfSteps near (fun j => (spike n k).getD j none) i = some m ∧
      (m = 0 ↔ ¬ (k ≤ i ∧ near k = true)) := by
  have e : ((List.range (i + 1)).filter near).filterMap (fun j => (spike n k).getD j none) =
      ((List.range (i + 1)).filter near).map fun j => if j = k then (1 : ℚ) else 0 := by
    rw [← List.filterMap_eq_map]
    apply List.filterMap_congr
    intro j hj
    have : j < n := by have := List.mem_range.mp (List.mem_filter.mp hj).1; omega
    rw [spike_getD this]
    rfl
  have hmem : i ∈ (List.range (i + 1)).filter near := List.mem_filter.mpr ⟨by simp, hself⟩
  have hne : ((List.range (i + 1)).filter near) ≠ [] := List.ne_nil_of_mem hmem
  unfold meanOfSteps
  simp only [e]
  rw [if_neg (by simpa using hne)]
  refine ⟨_, rfl, ?_⟩
  have hlen : ((((List.range (i + 1)).filter near).map fun j => if j = k then (1 : ℚ) else 0).length : ℚ) ≠ 0 := by
    rw [List.length_map]
    exact_mod_cast (List.length_pos_iff.mpr hne).ne'
  rw [div_eq_zero_iff, or_iff_left hlen]
  have hn : ((List.range (i + 1)).filter near).Nodup := List.nodup_range.filter _
  have hs : ∀ l : List ℕ, (l.map fun j => if j = k then (1 : ℚ) else 0).sum = l.count k := by
    intro l
    induction l with
    | nil => rfl
    | cons a l ih =>
      rw [List.map_cons, List.sum_cons, ih, List.count_cons]
      by_cases h : a = k <;> simp [h, add_comm]
  rw [hs, Nat.cast_eq_zero, List.count_eq_zero, List.mem_filter, List.mem_range, Nat.lt_succ_iff]

/-- For exactly which times the property holds: the mean of the last 120 days is removed from every column of values if and only
if each step back from each time lies within 120 days just when it would do so at the first spacing. -/
theorem C142_exactly_when_partial (ts : List ℚ) (h2 : 2 ≤ ts.length) (hdt : ts.getD 0 0 < ts.getD 1 0) :
    (∀ col : List Cell, col.length = ts.length → ∃ out, rem120dayMean ts col = .ok out ∧
      ∀ i : ℕ, i < ts.length → out[i]? = some ((col.getD i none).bind fun x =>
        (meanLast120Days (fun j => ts.getD j 0) (fun j => col.getD j none) i).map fun m => x - m)) ↔
    ∀ i j : ℕ, i < ts.length → j ≤ i →
      (ts.getD i 0 - ts.getD j 0 ≤ 120 ↔ ((i : ℚ) - j) * (ts.getD 1 0 - ts.getD 0 0) ≤ 120) := by
  constructor
  · intro H i j hi hj
    obtain ⟨out, e1, e2⟩ := H (spike ts.length j) (by simp [spike])
    obtain ⟨out', e1', -, e2'⟩ := C142_any_spacing_partial ts (spike ts.length j) h2 (by simp [spike]) hdt
    rw [e1] at e1'
    cases e1'
    have a := (e2 i hi).symm.trans (e2' i (by simpa [spike] using hi))
    obtain ⟨m, m1, m2⟩ := mean_spike (fun k => decide (ts.getD i 0 - ts.getD k 0 ≤ 120)) ts.length j i hi (by simp)
    obtain ⟨m', m1', m2'⟩ := mean_spike
      (fun k => decide (((i : ℚ) - k) * (ts.getD 1 0 - ts.getD 0 0) ≤ 120)) ts.length j i hi (by simp)
    have hmd : meanLast120Days (fun j => ts.getD j 0) (fun k => (spike ts.length j).getD k none) i = some m := m1
    rw [hmd, m1', spike_getD hi] at a
    simp only [Option.bind_some, Option.map_some, Option.some.injEq, sub_right_inj] at a
    subst a
    have := m2.symm.trans m2'
    simp only [hj, true_and, decide_eq_true_eq] at this
    exact not_iff_not.mp this
  · intro H col hl
    obtain ⟨out, e1, -, e2⟩ := C142_any_spacing_partial ts col h2 hl.symm hdt
    refine ⟨out, e1, fun i hi => ?_⟩
    rw [e2 i (by omega)]
    have : meanOfSteps (fun j => decide (((i : ℚ) - j) * (ts.getD 1 0 - ts.getD 0 0) ≤ 120)) (fun j => col.getD j none) i =
        meanLast120Days (fun j => ts.getD j 0) (fun j => col.getD j none) i := by
      unfold meanOfSteps meanLast120Days
      have hf : (List.range (i + 1)).filter (fun j : ℕ => decide (((i : ℚ) - j) * (ts.getD 1 0 - ts.getD 0 0) ≤ 120)) =
          (List.range (i + 1)).filter (fun j : ℕ => decide (ts.getD i 0 - ts.getD j 0 ≤ 120)) := by
        apply List.filter_congr
        intro j hj
        exact decide_eq_decide.mpr (H i j hi (by have := List.mem_range.mp hj; omega)).symm
      simp only [hf]
    rw [this]

/-- Times of unequal spacing that are handled correctly, and times that are not. -/
example : (∀ i j : ℕ, i < [(0 : ℚ), 1, 3].length → j ≤ i → ([(0 : ℚ), 1, 3].getD i 0 - [(0 : ℚ), 1, 3].getD j 0 ≤ 120 ↔
      ((i : ℚ) - j) * ([(0 : ℚ), 1, 3].getD 1 0 - [(0 : ℚ), 1, 3].getD 0 0) ≤ 120)) ∧
    ¬ ([(0 : ℚ), 1, 200].getD 2 0 - [(0 : ℚ), 1, 200].getD 1 0 ≤ 120 ↔
      (((2 : ℕ) : ℚ) - (1 : ℕ)) * ([(0 : ℚ), 1, 200].getD 1 0 - [(0 : ℚ), 1, 200].getD 0 0) ≤ 120) := by
  constructor
  · intro i j hi hj
    have hi : i < 3 := hi
    interval_cases i <;> interval_cases j <;> norm_num
  · norm_num

end Metcalcpy.Props
