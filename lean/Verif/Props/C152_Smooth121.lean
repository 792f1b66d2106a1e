/-
C152  The 1-2-1 smoother conserves the sum and stays within the range of the values.
-/
import Verif.Model.Spacetime
import Mathlib.Algebra.BigOperators.Intervals
import Mathlib.Tactic.Linarith
import Mathlib.Tactic.Ring
import Mathlib.Tactic.FieldSimp

namespace Metcalcpy.Props
open Metcalcpy

/-- The smoothed value at position `i` of a series of `n` values: weights 1-2-1, and 3-1 at the ends. -/
def smoothed {K : Type} [Field K] (a : ℕ → K) (n i : ℕ) : K :=
  if i = 0 then (3 * a 0 + a 1) / 4
  else if i = n - 1 then (3 * a i + a (i - 1)) / 4
  else (a (i + 1) + 2 * a i + a (i - 1)) / 4

theorem smoothStep_complete {K : Type} [Field K] (xs : List K) (h2 : 2 ≤ xs.length) (out : List (Option K)) (i : ℕ)
    (hi : i < xs.length) :
    smoothStep (xs.map some) out i = .ok (out.set i (some (smoothed (fun j => xs.getD j 0) xs.length i))) := by
  have hg : ∀ j, j < xs.length → (xs.map some).getD j none = some (xs.getD j 0) := by
    intro j hj
    simp [List.getD, List.getElem?_eq_getElem hj]
  unfold smoothStep
  rw [hg i hi]
  simp only
  by_cases h0 : i = 0
  · subst h0
    rw [if_pos (Or.inl rfl)]
    have : (xs.map some)[0 + 1]? = some (some (xs.getD 1 0)) := by
      simp [List.getD, List.getElem?_eq_getElem (show 1 < xs.length by omega)]
    rw [this]
    simp [smoothed]
  · rw [if_neg (by rw [hg (i - 1) (by omega)]; simp [h0])]
    by_cases hl : i = xs.length - 1
    · rw [if_pos (Or.inl (by simpa using hl)), hg (i - 1) (by omega)]
      simp only [Option.map_some, smoothed, h0, if_false]
      rw [if_pos hl]
    · rw [if_neg (by rw [hg (i + 1) (by omega)]; simp [hl]), hg (i - 1) (by omega), hg (i + 1) (by omega)]
      simp only [Option.map_some, Option.bind_some, smoothed, h0, hl, if_false]

theorem foldlM_set {K : Type} (g : List (Option K) → ℕ → Except PyErr (List (Option K))) (v : ℕ → Option K) (n : ℕ)
    (h : ∀ out i, i < n → g out i = .ok (out.set i (v i))) (init : List (Option K)) (hl : init.length = n) :
    ∀ k, k ≤ n → (List.range k).foldlM g init = .ok ((List.range k).map v ++ init.drop k) := by
  intro k
  induction k with
  | zero => intro _; rfl
  | succ k ih =>
    intro hk
    rw [List.range_succ, List.foldlM_append, ih (by omega)]
    simp only [bind, Except.bind, List.foldlM_cons, List.foldlM_nil, pure, Except.pure]
    rw [h _ k (by omega)]
    simp only [List.map_append, List.map_cons, List.map_nil, List.append_assoc]
    congr 1
    rw [List.set_append_right _ _ (by simp)]
    have hd : init.drop k = init[k]'(by omega) :: init.drop (k + 1) := List.drop_eq_getElem_cons (by omega)
    rw [hd]
    simp only [List.length_map, List.length_range, Nat.sub_self, List.set_cons_zero, List.cons_append, List.nil_append]

theorem smooth121_complete {K : Type} [Field K] (xs : List K) (h2 : 2 ≤ xs.length) :
    smooth121 (xs.map some) =
      .ok (((List.range xs.length).map fun i => smoothed (fun j => xs.getD j 0) xs.length i).map some) := by
  unfold smooth121
  rw [List.length_map, foldlM_set (smoothStep (xs.map some)) (fun i => some (smoothed (fun j => xs.getD j 0) xs.length i)) xs.length
    (fun out i hi => smoothStep_complete xs h2 out i hi) _ (by simp) _ (le_refl _)]
  simp [List.map_map, Function.comp_def]

theorem sum_smoothed {K : Type} [Field K] [CharZero K] (a : ℕ → K) (n k : ℕ) (hk : 1 ≤ k) (hn : k < n) :
    ∑ i ∈ Finset.range k, smoothed a n i = ∑ i ∈ Finset.range k, a i + (a k - a (k - 1)) / 4 := by
  induction k, hk using Nat.le_induction with
  | base => simp [smoothed]; ring
  | succ k hk ih =>
    rw [Finset.sum_range_succ, Finset.sum_range_succ _ k, ih (by omega)]
    unfold smoothed
    rw [if_neg (by omega), if_neg (by omega)]
    simp only [Nat.add_sub_cancel]
    ring

theorem list_sum_getD {K : Type} [AddCommMonoid K] (xs : List K) : xs.sum = ∑ i ∈ Finset.range xs.length, xs.getD i 0 := by
  induction xs with
  | nil => simp
  | cons x xs ih =>
    rw [List.sum_cons, List.length_cons, Finset.sum_range_succ', ih, add_comm]
    simp

/-- C152: for two or more values, none missing, the sum is conserved, every smoothed value lies between bounds of the values, and
a constant series is unchanged (both bounds equal). -/
theorem C152_smooth (xs : List ℚ) (h2 : 2 ≤ xs.length) :
    ∃ ys : List ℚ, smooth121 (xs.map some) = .ok (ys.map some) ∧ ys.length = xs.length ∧ ys.sum = xs.sum ∧
      ∀ lo hi, (∀ x ∈ xs, lo ≤ x ∧ x ≤ hi) → ∀ y ∈ ys, lo ≤ y ∧ y ≤ hi := by
  refine ⟨_, smooth121_complete xs h2, by simp, ?_, ?_⟩
  · obtain ⟨m, hm⟩ : ∃ m, xs.length = m + 2 := ⟨xs.length - 2, by omega⟩
    rw [list_sum_getD, list_sum_getD xs]
    simp only [List.length_map, List.length_range]
    have hg : ∀ i ∈ Finset.range xs.length, ((List.range xs.length).map fun i => smoothed (fun j => xs.getD j 0) xs.length i).getD i 0 =
        smoothed (fun j => xs.getD j 0) xs.length i := by
      intro i hi
      simp [List.getD, List.getElem?_range (Finset.mem_range.mp hi)]
    rw [Finset.sum_congr rfl hg, hm, Finset.sum_range_succ, Finset.sum_range_succ _ (m + 1), ← hm,
      sum_smoothed _ _ (m + 1) (by omega) (by omega)]
    have : smoothed (fun j => xs.getD j 0) xs.length (m + 1) = (3 * xs.getD (m + 1) 0 + xs.getD m 0) / 4 := by
      unfold smoothed
      rw [if_neg (by omega), if_pos (by omega)]
      rfl
    rw [this]
    simp only [Nat.add_sub_cancel]
    ring
  · intro lo hi hb y hy
    obtain ⟨i, hi', rfl⟩ := List.mem_map.mp hy
    have hi' := List.mem_range.mp hi'
    have hx : ∀ j, j < xs.length → lo ≤ xs.getD j 0 ∧ xs.getD j 0 ≤ hi := by
      intro j hj
      have : xs.getD j 0 = xs[j] := by simp [List.getD, List.getElem?_eq_getElem hj]
      rw [this]
      exact hb _ (List.getElem_mem hj)
    unfold smoothed
    split_ifs with h0 h1
    · have a := hx 0 (by omega); have b := hx 1 (by omega)
      constructor <;> linarith [a.1, a.2, b.1, b.2]
    · have a := hx i hi'; have b := hx (i - 1) (by omega)
      constructor <;> linarith [a.1, a.2, b.1, b.2]
    · have a := hx i hi'; have b := hx (i - 1) (by omega); have c := hx (i + 1) (by omega)
      constructor <;> linarith [a.1, a.2, b.1, b.2, c.1, c.2]

/-- C152: a constant series is unchanged. -/
theorem C152_constant (c : ℚ) (n : ℕ) (h2 : 2 ≤ n) : smooth121 (List.replicate n (some c)) = .ok (List.replicate n (some c)) := by
  obtain ⟨ys, h1, h2', -, h4⟩ := C152_smooth (List.replicate n c) (by simpa using h2)
  rw [List.map_replicate] at h1
  rw [h1]
  have hys : ys = List.replicate n c := by
    rw [List.eq_replicate_iff]
    refine ⟨by simpa using h2', fun y hy => ?_⟩
    have := h4 c c (by intro x hx; rw [List.eq_of_mem_replicate hx]; simp) y hy
    linarith [this.1, this.2]
  rw [hys, List.map_replicate]

/-- C152 is false of a single value, which raises. -/
theorem C152_single_counterexample (x : ℚ) : smooth121 [some x] = .error .indexError := rfl

theorem foldlM_inv_set {K : Type} [Field K] (temp : List (Option K)) : ∀ (l : List ℕ) (out out' : List (Option K)),
    (∀ i ∈ l, i ≠ 0) → out[0]? = some none → l.foldlM (smoothStep temp) out = .ok out' → out'[0]? = some none := by
  intro l
  induction l with
  | nil => intro out out' _ h0 h; cases h; exact h0
  | cons i l ih =>
    intro out out' hl h0 h
    rw [List.foldlM_cons] at h
    cases hs : smoothStep temp out i with
    | error e => rw [hs] at h; cases h
    | ok o =>
      rw [hs] at h
      refine ih o out' (fun j hj => hl j (by simp [hj])) ?_ h
      have hi0 : i ≠ 0 := hl i (by simp)
      unfold smoothStep at hs
      split at hs
      · cases hs
        have hl0 : 0 < out.length := (List.getElem?_eq_some_iff.mp h0).1
        simp [hl0]
      · split at hs
        · split at hs
          · cases hs
          · cases hs; rw [List.getElem?_set_ne hi0]; exact h0
        · split at hs
          · cases hs; rw [List.getElem?_set_ne hi0]; exact h0
          · cases hs; rw [List.getElem?_set_ne hi0]; exact h0

/-- C152 is false of a series with a missing value anywhere: whatever its first value, the first smoothed value is missing. -/
theorem C152_missing_counterexample (temp out : List (Option ℚ)) (h : none ∈ temp) (ho : smooth121 temp = .ok out) :
    out[0]? = some none := by
  unfold smooth121 at ho
  obtain ⟨i, hi, he⟩ := List.getElem_of_mem h
  have hsplit : List.range temp.length = List.range i ++ i :: (List.range (temp.length - (i + 1))).map (fun j => i + 1 + j) := by
    have : temp.length = i + 1 + (temp.length - (i + 1)) := by omega
    conv_lhs => rw [this, List.range_add, List.range_succ]
    simp
  rw [hsplit, List.foldlM_append] at ho
  cases h1 : (List.range i).foldlM (smoothStep temp) (temp.map fun x => x.map fun _ => 0) with
  | error e => rw [h1] at ho; cases ho
  | ok o =>
    rw [h1] at ho
    simp only [bind, Except.bind, List.foldlM_cons] at ho
    have hn : temp.getD i none = none := by simp [List.getD, List.getElem?_eq_getElem hi, he]
    have hst : smoothStep temp o i = .ok (o.set 0 none) := by
      unfold smoothStep
      rw [hn]
    rw [hst] at ho
    have hlen : ∀ (l : List ℕ) (a b : List (Option ℚ)), l.foldlM (smoothStep temp) a = .ok b → b.length = a.length := by
      intro l
      induction l with
      | nil => intro a b h; cases h; rfl
      | cons j l ih =>
        intro a b h
        rw [List.foldlM_cons] at h
        cases hs : smoothStep temp a j with
        | error e => rw [hs] at h; cases h
        | ok a' =>
          rw [hs] at h
          rw [ih a' b h]
          unfold smoothStep at hs
          split at hs
          · cases hs; simp
          · split at hs
            · split at hs
              · cases hs
              · cases hs; simp
            · split at hs
              · cases hs; simp
              · cases hs; simp
    have hl := hlen _ _ _ h1
    refine foldlM_inv_set temp _ (o.set 0 none) out ?_ ?_ ho
    · intro j hj
      obtain ⟨k, -, rfl⟩ := List.mem_map.mp hj
      omega
    · have : 0 < o.length := by rw [hl]; simp; omega
      simp [this]

/-- The first value, 4, is lost because the third is missing; the last value raises when its neighbour is missing. -/
example : smooth121 [some (4 : ℚ), some 8, none, some 2, some 6] = .ok [none, some 7, none, some 3, some 5] ∧
    smooth121 [some (4 : ℚ), none, some 8] = .error .indexError ∧
    smooth121 [some (4 : ℚ), some 8, some 0] = .ok [some 5, some 5, some 2] := by decide +kernel

end Metcalcpy.Props
