import Verif.Model.Ensemble
import Verif.Spec.Weighted
import Verif.Lemmas.Prepare
import Mathlib.Tactic.Ring
import Mathlib.Tactic.FieldSimp

namespace Metcalcpy
open Spec

theorem getCol_complete {t : Table} {c : String} {x : List ℚ} (h : CompleteColumn t c x) :
    getCol t c = .ok (x.map some) := by
  unfold getCol
  rw [columnData_eq_some_iff.mpr h]

theorem mulCols_some (a b : List ℚ) :
    mulCols (a.map some) (b.map some) = (List.zipWith (· * ·) a b).map some := by
  unfold mulCols
  induction a generalizing b with
  | nil => simp
  | cons x a ih =>
    cases b with
    | nil => simp
    | cons y b => simp [ih, mulCell]

theorem isColumn_idx {t : Table} {c : String} {x : List Cell} (h : IsColumn t c x) :
    ∃ i, t.colIdx? c = some i ∧ t.rows.map (fun r => r[i]?) = x.map some := by
  obtain ⟨i, h1, h2, h3⟩ := h
  exact ⟨i, colIdx?_eq_some.mpr ⟨h1, h2⟩, h3⟩

theorem isColumn_of_idx {t : Table} {c : String} {x : List Cell} {i : ℕ}
    (h : t.colIdx? c = some i) (h3 : t.rows.map (fun r => r[i]?) = x.map some) : IsColumn t c x := by
  obtain ⟨h1, h2⟩ := colIdx?_eq_some.mp h
  exact ⟨i, h1, h2, h3⟩

theorem colIdx?_append {t : Table} {c d : String} {i : ℕ} (h : t.colIdx? c = some i) (rows) :
    (Table.mk (t.cols ++ [d]) rows).colIdx? c = some i := by
  obtain ⟨h1, h2⟩ := colIdx?_eq_some.mp h
  obtain ⟨hlt, _⟩ := List.getElem?_eq_some_iff.mp h1
  refine colIdx?_eq_some.mpr ⟨?_, fun j hj => ?_⟩
  · simp only; rw [List.getElem?_append_left hlt]; exact h1
  · simp only; rw [List.getElem?_append_left (by omega)]; exact h2 j hj

theorem colIdx?_append_self {t : Table} {c : String} (h : t.colIdx? c = none) (rows) :
    (Table.mk (t.cols ++ [c]) rows).colIdx? c = some t.cols.length := by
  have hn := colIdx?_eq_none.mp h
  refine colIdx?_eq_some.mpr ⟨by simp, fun j hj => ?_⟩
  simp only; rw [List.getElem?_append_left hj]
  intro e
  exact hn (List.mem_of_getElem? e)

theorem zip_col_new (rows : List (List Cell)) (vals : List Cell) (k : ℕ)
    (hl : vals.length = rows.length) (g : List Cell → Cell → List Cell)
    (hg : ∀ r ∈ rows, ∀ v, (g r v)[k]? = some v) :
    (List.zipWith g rows vals).map (fun r => r[k]?) = vals.map some := by
  induction rows generalizing vals with
  | nil => cases vals <;> simp at *
  | cons r rows ih =>
    cases vals with
    | nil => simp at hl
    | cons v vals =>
      simp only [List.zipWith_cons_cons, List.map_cons, List.cons.injEq]
      exact ⟨hg r (by simp) v, ih vals (by simpa using hl) (fun r' h' => hg r' (by simp [h']))⟩

theorem zip_col_old (rows : List (List Cell)) (vals x : List Cell) (k : ℕ)
    (hl : vals.length = rows.length) (g : List Cell → Cell → List Cell)
    (hx : rows.map (fun r => r[k]?) = x.map some)
    (hg : ∀ r ∈ rows, ∀ v, r[k]?.isSome → (g r v)[k]? = r[k]?) :
    (List.zipWith g rows vals).map (fun r => r[k]?) = x.map some := by
  induction rows generalizing vals x with
  | nil => cases vals <;> simp at *; exact hx
  | cons r rows ih =>
    cases vals with
    | nil => simp at hl
    | cons v vals =>
      cases x with
      | nil => simp at hx
      | cons y x =>
        simp only [List.map_cons, List.cons.injEq] at hx
        simp only [List.zipWith_cons_cons, List.map_cons, List.cons.injEq]
        refine ⟨?_, ih vals x (by simpa using hl) hx.2 (fun r' h' => hg r' (by simp [h']))⟩
        rw [hg r (by simp) v (by simp [hx.1]), hx.1]

/-- Effect of a column assignment on a rectangular table. -/
theorem setCol_ok {t : Table} (wf : WellFormed t) (name : String) (vals : List Cell)
    (hl : vals.length = t.rows.length) :
    WellFormed (setCol t name vals) ∧ (setCol t name vals).rows.length = t.rows.length ∧
    IsColumn (setCol t name vals) name vals ∧
    ∀ d y, d ≠ name → IsColumn t d y → IsColumn (setCol t name vals) d y := by
  unfold setCol
  cases hi : t.colIdx? name with
  | some i =>
    obtain ⟨h1, h2⟩ := colIdx?_eq_some.mp hi
    obtain ⟨hlt, _⟩ := List.getElem?_eq_some_iff.mp h1
    refine ⟨?_, by simp [hl], ?_, ?_⟩
    · intro r hr
      simp only at hr
      obtain ⟨k, hk, e⟩ := List.getElem_of_mem hr
      rw [List.getElem_zipWith] at e
      rw [← e, List.length_set]
      exact wf _ (List.getElem_mem _)
    · refine isColumn_of_idx (t := Table.mk _ _) (i := i) hi ?_
      refine zip_col_new _ _ _ hl _ (fun r hr v => ?_)
      exact List.getElem?_set_self (by rw [wf r hr]; exact hlt)
    · intro d y hd hy
      obtain ⟨k, hk, ek⟩ := isColumn_idx hy
      have hki : i ≠ k := by rintro rfl; exact hd (colIdx?_inj hk hi)
      refine isColumn_of_idx (t := Table.mk _ _) (i := k) hk ?_
      exact zip_col_old _ _ _ _ hl _ ek (fun r _ v _ => List.getElem?_set_ne hki)
  | none =>
    refine ⟨?_, by simp [hl], ?_, ?_⟩
    · intro r hr
      simp only at hr
      obtain ⟨k, hk, e⟩ := List.getElem_of_mem hr
      rw [List.getElem_zipWith] at e
      rw [← e]
      simp [wf _ (List.getElem_mem _)]
    · refine isColumn_of_idx (t := Table.mk _ _) (colIdx?_append_self hi _) ?_
      refine zip_col_new _ _ _ hl _ (fun r hr v => ?_)
      rw [← wf r hr]; simp
    · intro d y hd hy
      obtain ⟨k, hk, ek⟩ := isColumn_idx hy
      refine isColumn_of_idx (t := Table.mk _ _) (colIdx?_append hk _) ?_
      refine zip_col_old _ _ _ _ hl _ ek (fun r _ v hs => ?_)
      obtain ⟨x, hx⟩ := Option.isSome_iff_exists.mp hs
      obtain ⟨hlt, _⟩ := List.getElem?_eq_some_iff.mp hx
      exact List.getElem?_append_left hlt

theorem sum_zip_comm (a b : List ℚ) :
    List.zipWith (· * ·) a b = List.zipWith (· * ·) b a := by
  rw [List.zipWith_comm]; congr 1; funext x y; ring

theorem colMean_of {t : Table} {c : String} {n x : List ℚ} (hr : t.rows ≠ [])
    (hn : CompleteColumn t "total" n) (hp : 0 < n.sum) (hc : CompleteColumn t c x) :
    colMean c t true = some (x.sum / n.sum) := by
  simp [colMean, getTotalValues, sumColumn_of_complete hr hn, sumColumn_of_complete hr hc, pyDiv, hp.ne']

theorem colMean_scaled {t : Table} {c : String} {n x : List ℚ} (hr : t.rows ≠ [])
    (hn : CompleteColumn t "total" n) (hp : 0 < n.sum)
    (hc : CompleteColumn t c (List.zipWith (· * ·) n x)) :
    colMean c t true = some (wmean n x) := colMean_of hr hn hp hc

theorem colMean_scaled' {t : Table} {c : String} {n x : List ℚ} (hr : t.rows ≠ [])
    (hn : CompleteColumn t "total" n) (hp : 0 < n.sum)
    (hc : CompleteColumn t c (List.zipWith (· * ·) x n)) :
    colMean c t true = some (wmean n x) := by
  rw [sum_zip_comm] at hc; exact colMean_of hr hn hp hc

end Metcalcpy
