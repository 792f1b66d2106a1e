/-
C145 What is left of the check of the grids: the number of points.
-/
import Verif.Props.C142_Rem120

namespace Metcalcpy.Props
open Metcalcpy

theorem mapM_only_error {α β : Type} {g : α → Except PyErr β} {e : PyErr} : ∀ {l : List α}, (∀ a ∈ l, ∀ e', g a = .error e' → e' = e) →
    (∃ a ∈ l, g a = .error e) → l.mapM g = .error e := by
  intro l
  induction l with
  | nil => rintro _ ⟨a, ha, _⟩; simp at ha
  | cons x l ih =>
    rintro h ⟨a, ha, hae⟩
    rw [List.mapM_cons]
    cases hx : g x with
    | error e' => rw [h x (by simp) e' hx]; rfl
    | ok b =>
      have : ∃ a ∈ l, g a = .error e := by
        rcases List.mem_cons.mp ha with rfl | ha
        · rw [hx] at hae; simp at hae
        · exact ⟨a, ha, hae⟩
      simp only [bind, Except.bind]
      rw [ih (fun a ha => h a (by simp [ha])) this]

/-- C145, what holds: with EOFs for every day of the data, all EOFs of one size, the projection of the daily fields ends with a
ValueError exactly if the field of some day has another number of points than the EOFs; it never raises anything else.  Fields with
the right number of points on any other grid are accepted: `C145_counterexample`, `C145_reversed_counterexample`. -/
theorem C145_sizes_partial (data : List (ℕ × List ℚ)) (eof1 eof2 : List (List ℚ)) (n : ℕ)
    (hd : ∀ d ∈ data, 1 ≤ d.1 ∧ d.1 ≤ eof1.length ∧ d.1 ≤ eof2.length)
    (h1 : ∀ e ∈ eof1, e.length = n) (h2 : ∀ e ∈ eof2, e.length = n) :
    ((∃ d ∈ data, d.2.length ≠ n) → regressDaily data eof1 eof2 = .error .valueError) ∧
    ((∀ d ∈ data, d.2.length = n) → ∃ out, regressDaily data eof1 eof2 = .ok out ∧ out.length = data.length) := by
  have hday : ∀ d ∈ data, (d.2.length ≠ n → regressDay eof1 eof2 d = .error .valueError) ∧
      (d.2.length = n → ∃ r, regressDay eof1 eof2 d = .ok r) := by
    intro d hdm
    obtain ⟨a, b, c⟩ := hd d hdm
    have l1 : d.1 - 1 < eof1.length := by omega
    have l2 : d.1 - 1 < eof2.length := by omega
    have n1 := h1 _ (List.getElem_mem l1)
    have n2 := h2 _ (List.getElem_mem l2)
    unfold regressDay
    rw [List.getElem?_eq_getElem l1, List.getElem?_eq_getElem l2]
    simp only
    unfold regressOntoEofs
    refine ⟨fun hne => if_pos (Or.inr (by rw [n1]; exact hne)), fun he => ?_⟩
    rw [if_neg (by rw [n1, n2, he]; simp)]
    dsimp only
    split
    · exact ⟨_, rfl⟩
    · exact ⟨_, rfl⟩
  constructor
  · rintro ⟨d, hdm, hne⟩
    refine mapM_only_error (fun a ha e' he' => ?_) ⟨d, hdm, (hday d hdm).1 hne⟩
    by_cases hn : a.2.length = n
    · obtain ⟨r, hr⟩ := (hday a ha).2 hn
      rw [hr] at he'; simp at he'
    · rw [(hday a ha).1 hn] at he'
      exact (Except.error.inj he').symm
  · intro hall
    unfold regressDaily
    have : ∀ l : List (ℕ × List ℚ), (∀ d ∈ l, ∃ r, regressDay eof1 eof2 d = .ok r) →
        ∃ out, l.mapM (regressDay eof1 eof2) = .ok out ∧ out.length = l.length := by
      intro l
      induction l with
      | nil => intro _; exact ⟨[], rfl, rfl⟩
      | cons d l ih =>
        intro h
        obtain ⟨r, hr⟩ := h d (by simp)
        obtain ⟨out, ho, hl⟩ := ih (fun d hd => h d (by simp [hd]))
        refine ⟨r :: out, ?_, by simp [hl]⟩
        rw [List.mapM_cons, hr, ho]
        rfl
    exact this data (fun d hd => (hday d hd).2 (hall d hd))

/-- Three days, one with two points instead of three. -/
example : regressDaily [(1, [1, 2, 3]), (2, [1, 2]), (1, [0, 0, 1])] [[1, 0, 0], [0, 1, 0]] [[0, 1, 0], [0, 0, 1]] =
    .error .valueError :=
  (C145_sizes_partial _ _ _ 3 (by decide) (by decide) (by decide)).1 ⟨(2, [1, 2]), by decide, by decide⟩

end Metcalcpy.Props
