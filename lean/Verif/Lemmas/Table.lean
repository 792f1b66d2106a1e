import Verif.Spec.Table
import Mathlib.Tactic.Linarith
import Mathlib.Algebra.BigOperators.Group.List.Basic
import Mathlib.Algebra.Order.BigOperators.Group.List

namespace Metcalcpy
open Spec

theorem mapM_eq_some_iff {α β : Type*} (f : α → Option β) (l : List α) (l' : List β) :
    l.mapM f = some l' ↔ l.map f = l'.map some := by
  induction l generalizing l' with
  | nil => cases l' <;> simp
  | cons a l ih =>
    cases l' with
    | nil => cases h : f a <;> cases h2 : List.mapM f l <;> simp [h, h2]
    | cons b l' =>
      cases h : f a with
      | none => simp [h]
      | some c =>
        simp only [List.mapM_cons, h, List.map_cons, List.cons.injEq, Option.some.injEq]
        rw [← ih]
        cases h2 : List.mapM f l <;> simp

theorem colIdx?_eq_some {t : Table} {name : String} {i : ℕ} :
    t.colIdx? name = some i ↔ t.cols[i]? = some name ∧ ∀ j < i, t.cols[j]? ≠ some name := by
  unfold Table.colIdx?
  rw [List.findIdx?_eq_some_iff_getElem]
  constructor
  · rintro ⟨h, h1, h2⟩
    refine ⟨by simpa [List.getElem?_eq_getElem h] using h1, fun j hj => ?_⟩
    rw [List.getElem?_eq_getElem (by omega)]
    simpa using h2 j hj
  · rintro ⟨h1, h2⟩
    obtain ⟨h, e⟩ := List.getElem?_eq_some_iff.mp h1
    refine ⟨h, by simp [e], fun j hj => ?_⟩
    have := h2 j hj
    rw [List.getElem?_eq_getElem (by omega)] at this
    simpa using this

theorem colIdx?_eq_none {t : Table} {name : String} :
    t.colIdx? name = none ↔ name ∉ t.cols := by
  unfold Table.colIdx?
  rw [List.findIdx?_eq_none_iff]
  constructor
  · intro h hm; simpa using h _ hm
  · intro h x hx; simp; rintro rfl; exact h hx

theorem columnData_eq_some_iff {t : Table} {name : String} {cells : List Cell} :
    columnData t name = some cells ↔ IsColumn t name cells := by
  unfold columnData IsColumn
  constructor
  · intro h
    cases hi : t.colIdx? name with
    | none => simp [hi] at h
    | some i =>
      simp only [hi] at h
      obtain ⟨h1, h2⟩ := colIdx?_eq_some.mp hi
      exact ⟨i, h1, h2, (mapM_eq_some_iff _ _ _).mp h⟩
  · rintro ⟨i, h1, h2, h3⟩
    rw [colIdx?_eq_some.mpr ⟨h1, h2⟩]
    exact (mapM_eq_some_iff _ _ _).mpr h3

theorem columnData_exists {t : Table} {name : String} (wf : WellFormed t) (h : name ∈ t.cols) :
    ∃ cells, columnData t name = some cells ∧ cells.length = t.rows.length := by
  cases hi : t.colIdx? name with
  | none => exact absurd h (colIdx?_eq_none.mp hi)
  | some i =>
    obtain ⟨h1, h2⟩ := colIdx?_eq_some.mp hi
    obtain ⟨hlt, e⟩ := List.getElem?_eq_some_iff.mp h1
    refine ⟨t.rows.map (fun r => (r[i]?).getD none), ?_, by simp⟩
    rw [columnData_eq_some_iff]
    refine ⟨i, h1, h2, ?_⟩
    rw [List.map_map]
    apply List.map_congr_left
    intro r hr
    have : i < r.length := by rw [wf r hr]; exact hlt
    simp [List.getElem?_eq_getElem this]

theorem IsColumn.length {t : Table} {name : String} {cells : List Cell} (h : IsColumn t name cells) :
    cells.length = t.rows.length := by
  obtain ⟨i, _, _, h3⟩ := h
  have := congrArg List.length h3
  simpa using this.symm

theorem sumColumn_complete {t : Table} {name : String} {vals : List ℚ}
    (hr : t.rows ≠ []) (h : CompleteColumn t name vals) (b : Bool) :
    sumColumn t name b = some vals.sum := by
  have hl := IsColumn.length h
  have hv : vals ≠ [] := by
    rintro rfl; apply hr; exact List.eq_nil_of_length_eq_zero (by simpa using hl.symm)
  unfold sumColumn
  rw [columnData_eq_some_iff.mpr h]
  cases vals with
  | nil => exact absurd rfl hv
  | cons v vs =>
    have e : (List.map some (v :: vs)).filterMap id = v :: vs := by simp [List.filterMap_map]
    simp only [e]
    cases b <;> simp

theorem rawSum_complete {t : Table} {name : String} {vals : List ℚ}
    (h : CompleteColumn t name vals) : t.colIdx? name ≠ none ∧
      columnData t name = some (vals.map some) := by
  have := columnData_eq_some_iff.mpr h
  refine ⟨?_, this⟩
  intro hn; simp [columnData, hn] at this

end Metcalcpy
