/-
C141 Exactly when lonFlip keeps the data at their places.
-/
import Verif.Props.C141_LonFlip
import Mathlib.Data.List.Nodup

namespace Metcalcpy.Props
open Metcalcpy

/-- Rolling by the length of the first part exchanges the parts exactly when they are equally long or one of them is empty. -/
theorem roll_exchanges_iff {α : Type} (rA rB : List α) (hd : (rA ++ rB).Nodup) :
    npRoll rA.length (rA ++ rB) = rB ++ rA ↔ rA = [] ∨ rB = [] ∨ rA.length = rB.length := by
  constructor
  · intro h
    by_contra hn
    push Not at hn
    obtain ⟨h1, h2, h3⟩ := hn
    have la : 0 < rA.length := List.length_pos_iff.mpr h1
    have lb : 0 < rB.length := List.length_pos_iff.mpr h2
    have hm : rA.length % (rA ++ rB).length = rA.length := Nat.mod_eq_of_lt (by simp; omega)
    unfold npRoll at h
    rw [hm, show (rA ++ rB).length - rA.length = rB.length by simp] at h
    have h4 : (rA ++ rB)[rB.length]? = (rA ++ rB)[rA.length]? := by
      have e1 : (List.drop rB.length (rA ++ rB) ++ List.take rB.length (rA ++ rB))[0]? = (rA ++ rB)[rB.length]? := by
        rw [List.getElem?_append_left (by simp; omega), List.getElem?_drop, Nat.add_zero]
      have e2 : (rB ++ rA)[0]? = (rA ++ rB)[rA.length]? := by
        rw [List.getElem?_append_left lb, List.getElem?_append_right le_rfl, Nat.sub_self]
      rw [← e1, h, e2]
    have l1 : rB.length < (rA ++ rB).length := by simp; omega
    have l2 : rA.length < (rA ++ rB).length := by simp; omega
    rw [List.getElem?_eq_getElem l1, List.getElem?_eq_getElem l2, Option.some.injEq] at h4
    exact h3 ((hd.getElem_inj_iff).mp h4).symm
  · intro h
    by_cases h1 : rA = []
    · subst h1
      simp [npRoll]
    · have la : 0 < rA.length := List.length_pos_iff.mpr h1
      rcases h.resolve_left h1 with h2 | h2
      · subst h2
        simp [npRoll]
      · rw [h2, npRoll_append _ _ la]

/-- C141, first direction, with `lon.values` a copy: negative longitudes `A` before the others `B`.  Different values are kept at their
longitudes exactly when there are as many negative longitudes as others, or no others. -/
theorem C141_to360_exactly_partial {α : Type} (A B : List ℚ) (rA rB : List α) (hA : ∀ x ∈ A, x < 0) (hB : ∀ x ∈ B, 0 ≤ x)
    (hne : A ≠ []) (hrA : rA.length = A.length) (hrB : rB.length = B.length) (hd : (rA ++ rB).Nodup) :
    lonFlip false (A ++ B) (rA ++ rB) = .ok (B ++ A.map (· + 360), rB ++ rA) ↔ B = [] ∨ A.length = B.length := by
  rw [lonFlip_to360 false A B _ hA hB hne (by simp [hrA, hrB]), if_neg (by simp), valuesAt_first, ← hrA]
  simp only [Except.ok.injEq, Prod.mk.injEq, true_and]
  rw [roll_exchanges_iff rA rB hd, hrA, hrB]
  have h1 : rA ≠ [] := by rintro rfl; exact hne (List.length_eq_zero_iff.mp hrA.symm)
  have h2 : rB = [] ↔ B = [] := by rw [← List.length_eq_zero_iff, hrB, List.length_eq_zero_iff]
  rw [h2]
  exact ⟨fun h => h.resolve_left h1, Or.inr⟩

/-- C141, second direction: longitudes below 180 (`A`) before the others (`B`).  Different values are kept at their longitudes exactly
when there are as many longitudes below 180 as others, or only one kind. -/
theorem C141_to180_exactly_partial {α : Type} (A B : List ℚ) (rA rB : List α) (hA : ∀ x ∈ A, 0 ≤ x ∧ x < 180)
    (hB : ∀ x ∈ B, 180 ≤ x) (hne : A ++ B ≠ []) (hrA : rA.length = A.length) (hrB : rB.length = B.length) (hd : (rA ++ rB).Nodup) :
    lonFlip false (A ++ B) (rA ++ rB) = .ok (B.map (· - 360) ++ A, rB ++ rA) ↔ A = [] ∨ B = [] ∨ A.length = B.length := by
  rw [lonFlip_to180 false A B _ hA hB hne (by simp [hrA, hrB]), if_neg (by simp), valuesAt_first, ← hrA]
  simp only [Except.ok.injEq, Prod.mk.injEq, true_and]
  rw [roll_exchanges_iff rA rB hd, hrA, hrB]
  have h1 : rA = [] ↔ A = [] := by rw [← List.length_eq_zero_iff, hrA, List.length_eq_zero_iff]
  have h2 : rB = [] ↔ B = [] := by rw [← List.length_eq_zero_iff, hrB, List.length_eq_zero_iff]
  rw [h1, h2]

/-- A regional grid from 10 W to 20 E: the values are displaced. -/
example : lonFlip false ([-10] ++ [0, 10, 20]) (["10W"] ++ ["0", "10E", "20E"]) ≠
    .ok ([0, 10, 20] ++ [-10].map (· + 360), ["0", "10E", "20E"] ++ ["10W"]) := by
  intro h
  have := (C141_to360_exactly_partial [-10] [0, 10, 20] ["10W"] ["0", "10E", "20E"] (by norm_num) (by norm_num) (by simp) rfl rfl
    (by decide)).mp h
  simp at this

end Metcalcpy.Props
