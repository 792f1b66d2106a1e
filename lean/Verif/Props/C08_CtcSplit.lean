/-
C08  Contingency-table scores do not depend on how the counts are split over rows.
-/
import Verif.Lemmas.CtcSplit

namespace Metcalcpy.Props
open Metcalcpy Spec

/-- C08, main statement: every CTC score and count of a table equals that of the one-row table that
holds the column sums (any number of rows, any pattern of missing cells). -/
theorem C08_scores_of_column_sums (t : Table) (wf : WellFormed t) :
    (∀ f ∈ ctcScores, f t = f (collapse t)) ∧
    (∀ W, ∀ f ∈ ctcLogScores W, f t = f (collapse t)) ∧
    (∀ f ∈ ctcCounts, f t = f (collapse t)) :=
  scores_congr (sumColumn_collapse t wf)

/-- C08: permuting the rows changes no score. -/
theorem C08_row_permutation (t t' : Table) (hc : t.cols = t'.cols) (hp : t.rows.Perm t'.rows) :
    (∀ f ∈ ctcScores, f t = f t') ∧ (∀ W, ∀ f ∈ ctcLogScores W, f t = f t') ∧
    (∀ f ∈ ctcCounts, f t = f t') := by
  refine scores_congr (fun name => ?_)
  rw [sumColumn_eq_fold, sumColumn_eq_fold]
  rcases columnData_perm hc hp name with ⟨e1, e2⟩ | ⟨l, l', e1, e2, hll⟩
  · rw [e1, e2]
  · rw [e1, e2]; exact foldr_addCell_perm hll

/-- C08: replacing two rows (anywhere in the table) by their cell-wise sum changes no score. -/
theorem C08_merge_two_rows (t t' : Table) (r s : List Cell) (pre mid post : List (List Cell))
    (hc : t.cols = t'.cols) (wf : WellFormed t)
    (h1 : t.rows = pre ++ r :: mid ++ s :: post)
    (h2 : t'.rows = pre ++ addRow r s :: mid ++ post) :
    (∀ f ∈ ctcScores, f t = f t') ∧ (∀ W, ∀ f ∈ ctcLogScores W, f t = f t') ∧
    (∀ f ∈ ctcCounts, f t = f t') := by
  have hr : r.length = t.cols.length := wf r (by simp [h1])
  have hs : s.length = t.cols.length := wf s (by simp [h1])
  have hrs : (addRow r s).length = t.cols.length := by simp [addRow, hr, hs]
  have wf' : WellFormed t' := by
    intro q hq
    rw [← hc]
    rw [h2] at hq
    simp only [List.append_assoc, List.cons_append, List.mem_append, List.mem_cons] at hq
    rcases hq with h | rfl | h | h
    · exact wf q (by simp [h1, h])
    · exact hrs
    · exact wf q (by simp [h1, h])
    · exact wf q (by simp [h1, h])
  have hassoc : ∀ x y z : List Cell, addRow (addRow x y) z = addRow x (addRow y z) := by
    intro x y z
    unfold addRow
    induction x generalizing y z with
    | nil => simp
    | cons a x ih =>
      cases y with
      | nil => simp
      | cons b y =>
        cases z with
        | nil => simp
        | cons c z => simp [addCell_assoc, ih]
  have hcomm : ∀ x y : List Cell, addRow x y = addRow y x := by
    intro x y
    unfold addRow
    rw [List.zipWith_comm]; congr 1; funext a b; exact addCell_comm b a
  have hfold : ∀ (base : List Cell) (l : List (List Cell)),
      l.foldr addRow (addRow s base) = addRow s (l.foldr addRow base) := by
    intro base l
    induction l with
    | nil => rfl
    | cons x l ih => rw [List.foldr_cons, ih, List.foldr_cons, ← hassoc, hcomm x s, hassoc]
  have hcol : collapse t = collapse t' := by
    unfold collapse
    have : collapseRows t.cols.length t.rows = collapseRows t'.cols.length t'.rows := by
      unfold collapseRows
      rw [h1, h2, hc]
      simp only [List.append_assoc, List.cons_append, List.foldr_append, List.foldr_cons]
      rw [hfold, ← hassoc]
    rw [this, hc]
  refine scores_congr (fun name => ?_)
  rw [sumColumn_collapse t wf, sumColumn_collapse t' wf', hcol]

/-- A two-row table with a missing cell. -/
def exCtc2 : Table :=
  { cols := ["total", "fy_oy", "fy_on", "fn_oy", "fn_on"]
    rows := [[some 10, some 3, some 2, some 1, some 4], [some 7, some 2, some 1, none, some 4]] }

example : WellFormed exCtc2 := by
  intro r hr; simp [exCtc2] at hr; rcases hr with rfl | rfl <;> rfl
example : collapse exCtc2 = { exCtc2 with rows := [[some 17, some 5, some 3, some 1, some 8]] } := by
  simp [collapse, collapseRows, exCtc2, addRow, addCell]; norm_num
example : ctcPody exCtc2 = some (8333333 / 10000000) := by
  have : (⌊(5 / 6 : ℚ) * 10 ^ 7 + 1 / 2⌋) = 8333333 := by norm_num [Int.floor_eq_iff]
  simp [ctcPody, sumColumn, columnData, Table.colIdx?, exCtc2, List.findIdx?_cons, pyDiv, roundHalfUp,
    PRECISION]
  norm_num [Int.floor_eq_iff]

end Metcalcpy.Props
