/-
C07  Column sums: missing data is reported, never silently ignored.
-/
import Verif.Lemmas.Table

namespace Metcalcpy.Props
open Metcalcpy Spec

/-- C07: no value for an unknown column. -/
theorem C07_unknown_column (t : Table) (name : String) (rm : Bool) (h : name ∉ t.cols) :
    sumColumn t name rm = none := by
  simp [sumColumn, columnData, colIdx?_eq_none.mpr h]

/-- C07: the complete case distinction for an existing column with content `cells`. -/
theorem C07_column_sum (t : Table) (name : String) (cells : List Cell) (rm : Bool)
    (h : IsColumn t name cells) :
    ((∀ c ∈ cells, c = none) → sumColumn t name rm = none) ∧
    (rm = false → none ∈ cells → sumColumn t name rm = none) ∧
    ((∃ v, some v ∈ cells) → (rm = true ∨ none ∉ cells) →
        sumColumn t name rm = some (cells.map (fun c => c.getD 0)).sum) := by
  have hc := columnData_eq_some_iff.mpr h
  have hs : (cells.filterMap id).sum = (cells.map (fun c => c.getD 0)).sum := by
    clear h hc
    induction cells with
    | nil => rfl
    | cons c cs ih => cases c <;> simpa using ih
  have hall : cells.all Option.isNone = true ↔ ∀ c ∈ cells, c = none := by simp
  have hany : cells.any Option.isNone = true ↔ none ∈ cells := by
    simp
  unfold sumColumn
  rw [hc]
  refine ⟨fun h1 => ?_, fun h1 h2 => ?_, fun h1 h2 => ?_⟩
  · simp [hall.mpr h1]
  · subst h1; simp only [hany.mpr h2]; simp
  · have hne : ¬ cells.all Option.isNone = true := by
      rw [hall]; intro hn; obtain ⟨v, hv⟩ := h1; simpa using hn _ hv
    rcases h2 with rfl | h2
    · simp only [hne, hs]; simp
    · have hna : ¬ cells.any Option.isNone = true := by rw [hany]; exact h2
      simp only [hne, hna, hs]; cases rm <;> simp

/-- C07: for a rectangular array every listed column has a content, so `C07_unknown_column` and
`C07_column_sum` cover every call. -/
theorem C07_total (t : Table) (name : String) (wf : WellFormed t) (h : name ∈ t.cols) :
    ∃ cells, IsColumn t name cells := by
  obtain ⟨cells, hc, _⟩ := columnData_exists wf h
  exact ⟨cells, columnData_eq_some_iff.mp hc⟩

/-- C07, in the other direction: a returned sum means that the column exists, has a value, and (with
`rm_none=False`) has no missing cell. -/
theorem C07_sum_sound (t : Table) (name : String) (rm : Bool) (v : ℚ)
    (h : sumColumn t name rm = some v) :
    ∃ cells, IsColumn t name cells ∧ (∃ w, some w ∈ cells) ∧ (rm = false → none ∉ cells) ∧
      v = (cells.map (fun c => c.getD 0)).sum := by
  cases hc : columnData t name with
  | none => simp [sumColumn, hc] at h
  | some cells =>
    have hcol := columnData_eq_some_iff.mp hc
    obtain ⟨p1, p2, p3⟩ := C07_column_sum t name cells rm hcol
    have hex : ∃ w, some w ∈ cells := by
      by_contra hn
      push Not at hn
      have := p1 (fun c hc' => by cases c with
        | none => rfl
        | some w => exact absurd hc' (hn w))
      rw [this] at h; simp at h
    have hnone : rm = false → none ∉ cells := by
      intro hr hm; rw [p2 hr hm] at h; simp at h
    refine ⟨cells, hcol, hex, hnone, ?_⟩
    have := p3 hex (by cases rm <;> simp_all)
    rw [this] at h; simpa using h.symm

/-- A table with a duplicated column name and missing cells. -/
def exTable : Table :=
  { cols := ["total", "a", "a"], rows := [[some 2, some 3, some 100], [some 4, none, some 7]] }

example : IsColumn exTable "a" [some 3, none] := ⟨1, rfl, by decide, rfl⟩
example : sumColumn exTable "a" true = some 3 ∧ sumColumn exTable "a" false = none ∧
    sumColumn exTable "b" true = none := by
  refine ⟨?_, ?_, ?_⟩ <;> simp [sumColumn, columnData, Table.colIdx?, exTable, List.findIdx?_cons]

end Metcalcpy.Props
