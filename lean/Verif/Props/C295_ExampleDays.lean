/-
C295  The index examples show every day with its own date (partial).
-/
import Verif.Model.ExampleDays
import Mathlib.Tactic.Linarith
import Mathlib.Data.List.Sort

namespace Metcalcpy.Props
open Metcalcpy

theorem mem_dayRange (a b x : ℤ) : x ∈ dayRange a b ↔ a ≤ x ∧ x < b := by
  unfold dayRange
  rw [List.mem_map]
  constructor
  · rintro ⟨k, hk, rfl⟩
    rw [List.mem_range] at hk
    omega
  · rintro ⟨h1, h2⟩
    exact ⟨(x - a).toNat, List.mem_range.mpr (by omega), by omega⟩

theorem dayRange_sorted (a b : ℤ) : (dayRange a b).Pairwise (· < ·) := by
  unfold dayRange
  rw [List.pairwise_map]
  exact List.pairwise_lt_range.imp fun h => by omega

theorem length_dayRange (a b : ℤ) : (dayRange a b).length = (b - a).toNat := by simp [dayRange]

theorem sorted_ext {l m : List ℤ} (hl : l.Pairwise (· < ·)) (hm : m.Pairwise (· < ·)) (h : ∀ x, x ∈ l ↔ x ∈ m) : l = m := by
  have hp : l.Perm m := (List.perm_ext_iff_of_nodup (hl.imp fun h => h.ne) (hm.imp fun h => h.ne)).mpr h
  exact hp.eq_of_pairwise (fun a b _ _ h1 h2 => absurd h1 (not_lt.mpr h2.le)) hl hm

theorem dayRange_succ (a b : ℤ) (h : a ≤ b) : dayRange a (b + 1) = dayRange a b ++ [b] := by
  unfold dayRange
  have : (b + 1 - a).toNat = (b - a).toNat + 1 := by omega
  rw [this, List.range_succ, List.map_append, List.map_singleton]
  congr 2
  omega

/-- C295, what holds: an index with a value for every day (in order) gives points labelled with their own days, the days from the first
one to the one before the last one. -/
theorem C295_daily_partial {α : Type} (pcs : List (ℤ × α)) (first last : ℤ) (h : first ≤ last)
    (hs : (pcs.map Prod.fst).Pairwise (· < ·)) (hall : ∀ d, first ≤ d → d ≤ last → d ∈ pcs.map Prod.fst) :
    (examplePoints pcs first last).map (fun p => (p.1.1, p.2)) = (dayRange first last).map (fun d => (d, d)) ∧
    (∀ p ∈ examplePoints pcs first last, p.1 ∈ pcs) := by
  have hc : (pcs.filter fun p => decide (first ≤ p.1 ∧ p.1 ≤ last)).map Prod.fst = dayRange first last ++ [last] := by
    rw [← dayRange_succ first last h]
    refine sorted_ext ?_ (dayRange_sorted _ _) fun x => ?_
    · rw [List.pairwise_map] at hs ⊢
      exact hs.filter _
    · rw [mem_dayRange, List.mem_map]
      constructor
      · rintro ⟨p, hp, rfl⟩
        have := (List.mem_filter.mp hp).2
        simp only [decide_eq_true_eq] at this
        omega
      · rintro ⟨h1, h2⟩
        obtain ⟨p, hp, rfl⟩ := List.mem_map.mp (hall x h1 (by omega))
        exact ⟨p, List.mem_filter.mpr ⟨hp, by simp only [decide_eq_true_eq]; omega⟩, rfl⟩
  constructor
  · unfold examplePoints
    simp only
    have e : ∀ (l : List (ℤ × α)) (t : List ℤ), (l.zip t).map (fun p => (p.1.1, p.2)) = (l.map Prod.fst).zip t := by
      intro l t
      rw [List.zip_map_left]
      rfl
    rw [e, List.map_take, hc, List.take_left']
    · generalize dayRange first last = t
      induction t with
      | nil => rfl
      | cons x t ih => simp [ih]
    · rfl
  · intro p hp
    have := (List.of_mem_zip (a := p.1) (b := p.2) hp).1
    exact List.mem_of_mem_filter (List.mem_of_mem_take this)

/-- C295 is false for every index: no point is labelled with the last day. -/
theorem C295_last_day_counterexample {α : Type} (pcs : List (ℤ × α)) (first last : ℤ) : ∀ p ∈ examplePoints pcs first last, p.2 ≠ last := by
  intro p hp e
  have := (List.of_mem_zip (a := p.1) (b := p.2) hp).2
  rw [mem_dayRange] at this
  omega

/-- C295, the first label: the first value of the index within the dates is labelled with the first day, whichever day it is of; so the
label is right exactly when the index has the first day. -/
theorem C295_first_label_partial {α : Type} (p : ℤ × α) (pcs : List (ℤ × α)) (first last : ℤ) (h : first < last)
    (hp : first ≤ p.1 ∧ p.1 ≤ last) :
    (examplePoints (p :: pcs) first last).head? = some (p, first) := by
  obtain ⟨k, hk⟩ : ∃ k, (last - first).toNat = k + 1 := ⟨(last - first).toNat - 1, by omega⟩
  unfold examplePoints dayRange
  simp [hk, List.range_succ_eq_map, hp.1, hp.2]

/-- An index without the day 2: its value of day 3 is labelled as day 2. -/
theorem C295_gap_counterexample :
    examplePoints [((1 : ℤ), "a"), (3, "b"), (4, "c"), (5, "d")] 1 5 = [((1, "a"), 1), ((3, "b"), 2), ((4, "c"), 3), ((5, "d"), 4)] := by
  decide +kernel

/-- A complete index of four days. -/
example : (examplePoints [((1 : ℤ), "a"), (2, "b"), (3, "c"), (4, "d")] 1 4).map (fun p => (p.1.1, p.2)) = [(1, 1), (2, 2), (3, 3)] := by
  rw [(C295_daily_partial [((1 : ℤ), "a"), (2, "b"), (3, "c"), (4, "d")] 1 4 (by norm_num) (by simp)
    (by intro d h1 h2; simp; omega)).1]
  decide +kernel

end Metcalcpy.Props
