/-
C294  The phase diagram shows all records from the first to the last date (partial).
-/
import Verif.Model.PhaseRecords
import Mathlib.Tactic.Linarith
import Mathlib.Data.Prod.Lex

namespace Metcalcpy.Props
open Metcalcpy

theorem filter_eq_drop {α : Type} (p : α → Bool) (l : List α) (i : ℕ) (h1 : ∀ x ∈ l.take i, p x = false)
    (h2 : ∀ x ∈ l.drop i, p x = true) : l.filter p = l.drop i := by
  conv_lhs => rw [← List.take_append_drop i l]
  rw [List.filter_append, List.filter_eq_nil_iff.mpr (fun x hx => by simp [h1 x hx]), List.filter_eq_self.mpr h2, List.nil_append]

theorem sorted_at {α : Type} (date : α → ℕ) (data : List α) (hs : data.Pairwise fun r t => date r ≤ date t) (v i : ℕ)
    (h : data.findIdx? (fun r => decide (date r = v)) = some i) :
    (∀ x ∈ data.take i, date x < v) ∧ (∀ x ∈ data.drop i, v ≤ date x) ∧ ∃ r, data.drop i = r :: data.drop (i + 1) ∧ date r = v := by
  rw [List.findIdx?_eq_some_iff_getElem] at h
  obtain ⟨hi, hv, hb⟩ := h
  have hv : date data[i] = v := by simpa using hv
  have hd : data.drop i = data[i] :: data.drop (i + 1) := List.drop_eq_getElem_cons hi
  have hs' := hs
  rw [← List.take_append_drop i data, List.pairwise_append] at hs'
  obtain ⟨-, p2, p3⟩ := hs'
  refine ⟨fun x hx => ?_, fun x hx => ?_, data[i], hd, hv⟩
  · have h1 : date x ≤ v := by rw [← hv]; exact p3 x hx _ (hd ▸ List.mem_cons_self)
    obtain ⟨k, hk, rfl⟩ := List.mem_take_iff_getElem.mp hx
    have h2 := hb k (by omega)
    have h2 : date data[k] ≠ v := by simpa using h2
    omega
  · rw [hd] at hx p2
    rcases List.mem_cons.mp hx with rfl | hx
    · exact hv.ge
    · rw [← hv]; exact (List.pairwise_cons.mp p2).1 x hx

/-- What is shown of records in chronological order: the records from the first date on, up to and including the first record of the
last date. -/
theorem phaseRecords_shown {α : Type} (date : α → ℕ) (first last : ℕ) (data : List α)
    (hs : data.Pairwise fun r t => date r ≤ date t) (i j : ℕ)
    (hi : data.findIdx? (fun r => decide (date r = first)) = some i) (hj : data.findIdx? (fun r => decide (date r = last)) = some j) :
    phaseRecords date first last data = .ok ((data.take (j + 1)).filter fun r => decide (first ≤ date r)) := by
  obtain ⟨a1, a2, -⟩ := sorted_at date data hs first i hi
  unfold phaseRecords
  rw [hi, hj]
  simp only
  congr 1
  symm
  refine filter_eq_drop _ _ i (fun x hx => ?_) (fun x hx => ?_)
  · rw [List.take_take] at hx
    have := a1 x ((List.take_prefix_take_left (min_le_left i (j + 1))).subset hx)
    simpa using this
  · rw [List.drop_take] at hx
    simpa using a2 x (List.mem_of_mem_take hx)

/-- C294, exact extent: for records in chronological order that have both dates, the diagram shows all records from the first to the
last date exactly when the last date has only one record. -/
theorem C294_exactly_partial {α : Type} (date : α → ℕ) (first last : ℕ) (hfl : first ≤ last) (data : List α)
    (hs : data.Pairwise fun r t => date r ≤ date t) (hf : ∃ r ∈ data, date r = first) (hl : ∃ r ∈ data, date r = last) :
    phaseRecords date first last data = .ok (data.filter fun r => decide (first ≤ date r ∧ date r ≤ last)) ↔
      (data.filter fun r => decide (date r = last)).length = 1 := by
  have idx : ∀ v, (∃ r ∈ data, date r = v) → ∃ i, data.findIdx? (fun r => decide (date r = v)) = some i := by
    rintro v ⟨r, hr, hv⟩
    have : (data.findIdx? (fun r => decide (date r = v))).isSome = true := by
      rw [List.findIdx?_isSome, List.any_eq_true]
      exact ⟨r, hr, by simpa using hv⟩
    exact Option.isSome_iff_exists.mp this
  obtain ⟨i, hi⟩ := idx first hf
  obtain ⟨j, hj⟩ := idx last hl
  obtain ⟨b1, b2, r, b3, b4⟩ := sorted_at date data hs last j hj
  have hsplit : data = data.take (j + 1) ++ data.drop (j + 1) := (List.take_append_drop _ _).symm
  have htake : data.take (j + 1) = data.take j ++ [r] := by
    rw [List.take_add, b3]
    simp
  have hle : ∀ x ∈ data.take (j + 1), date x ≤ last := by
    intro x hx
    rw [htake] at hx
    rcases List.mem_append.mp hx with hx | hx
    · exact (b1 x hx).le
    · rw [List.mem_singleton.mp hx, b4]
  have hge : ∀ x ∈ data.drop (j + 1), last ≤ date x := fun x hx => b2 x (by rw [b3]; exact List.mem_cons_of_mem _ hx)
  have e1 : data.filter (fun r => decide (first ≤ date r ∧ date r ≤ last)) =
      (data.take (j + 1)).filter (fun r => decide (first ≤ date r)) ++ (data.drop (j + 1)).filter (fun r => decide (date r = last)) := by
    conv_lhs => rw [hsplit]
    rw [List.filter_append]
    congr 1
    · refine List.filter_congr fun x hx => ?_
      have := hle x hx
      simp [this]
    · refine List.filter_congr fun x hx => ?_
      have := hge x hx
      by_cases h : date x = last
      · simp [h, hfl]
      · have : ¬ date x ≤ last := by omega
        simp [h, this]
  have e2 : data.filter (fun r => decide (date r = last)) = r :: (data.drop (j + 1)).filter (fun r => decide (date r = last)) := by
    conv_lhs => rw [hsplit, htake]
    rw [List.append_assoc, List.filter_append, List.filter_eq_nil_iff.mpr (fun x hx => by
      have := b1 x hx
      simp only [decide_eq_true_eq]
      omega), List.nil_append, List.singleton_append, List.filter_cons_of_pos (by simpa using b4)]
  rw [phaseRecords_shown date first last data hs i j hi hj, e1, e2]
  simp

/-- C294: daily records, in strictly chronological order: all of them are shown. -/
theorem C294_daily_partial {α : Type} (date : α → ℕ) (first last : ℕ) (hfl : first ≤ last) (data : List α)
    (hs : data.Pairwise fun r t => date r < date t) (hf : ∃ r ∈ data, date r = first) (hl : ∃ r ∈ data, date r = last) :
    phaseRecords date first last data = .ok (data.filter fun r => decide (first ≤ date r ∧ date r ≤ last)) := by
  refine (C294_exactly_partial date first last hfl data (hs.imp fun h => h.le) hf hl).mpr ?_
  have h1 : (data.filter fun r => decide (date r = last)).Pairwise fun r t => date r < date t := hs.filter _
  obtain ⟨r, hr, hv⟩ := hl
  have h2 : r ∈ data.filter fun r => decide (date r = last) := List.mem_filter.mpr ⟨hr, by simpa using hv⟩
  match hm : data.filter fun r => decide (date r = last) with
  | [] => rw [hm] at h2; simp at h2
  | [_] => rfl
  | a :: b :: l =>
    have ha : date a = last := by
      have : a ∈ data.filter fun r => decide (date r = last) := by rw [hm]; simp
      simpa using (List.mem_filter.mp this).2
    have hb : date b = last := by
      have : b ∈ data.filter fun r => decide (date r = last) := by rw [hm]; simp
      simpa using (List.mem_filter.mp this).2
    rw [hm] at h1
    have := (List.pairwise_cons.mp h1).1 b (by simp)
    omega

/-- C294: a date without records is an IndexError. -/
theorem C294_missing {α : Type} (date : α → ℕ) (first last : ℕ) (data : List α)
    (h : (∀ r ∈ data, date r ≠ first) ∨ ∀ r ∈ data, date r ≠ last) : phaseRecords date first last data = .error .indexError := by
  have none_of : ∀ v, (∀ r ∈ data, date r ≠ v) → data.findIdx? (fun r => decide (date r = v)) = none := by
    intro v hv
    rw [List.findIdx?_eq_none_iff]
    intro x hx
    simpa using hv x hx
  unfold phaseRecords
  rcases h with h | h
  · rw [none_of first h]
  · rw [none_of last h]
    cases data.findIdx? (fun r => decide (date r = first)) <;> rfl

/-- C294: the numbers of dates are ordered as the dates are. -/
theorem C294_dates (y m d y' m' d' : ℕ) (hm : m < 100) (hd : d < 100) (hm' : m' < 100) (hd' : d' < 100) :
    dateNumber y m d < dateNumber y' m' d' ↔ y < y' ∨ (y = y' ∧ (m < m' ∨ (m = m' ∧ d < d'))) := by
  unfold dateNumber
  omega

/-- C294 is false: of records at 0 and 12 hours, the second one of the last date is not shown. -/
theorem C294_counterexample :
    phaseRecords Prod.fst 20120101 20120102 [(20120101, 0), (20120101, 12), (20120102, 0), (20120102, 12), (20120103, 0)] =
      .ok [(20120101, 0), (20120101, 12), (20120102, 0)] := by decide +kernel

/-- Daily records. -/
example : phaseRecords id 20120101 20120102 [20111231, 20120101, 20120102, 20120103] = .ok [20120101, 20120102] :=
  C294_daily_partial id 20120101 20120102 (by norm_num) [20111231, 20120101, 20120102, 20120103] (by simp) (by simp) (by simp)

end Metcalcpy.Props
