import Verif.Lemmas.Ctc
import Verif.Spec.CtcScores

namespace Metcalcpy
open Spec

theorem scores_congr {t t' : Table} (h : ∀ name, sumColumn t name = sumColumn t' name) :
    (∀ f ∈ ctcScores, f t = f t') ∧ (∀ W, ∀ f ∈ ctcLogScores W, f t = f t') ∧
      (∀ f ∈ ctcCounts, f t = f t') := by
  have hR : ∀ name, sumColumnR t name = sumColumnR t' name := fun name => by simp [sumColumnR, h]
  have hy : podYes t = podYes t' := by simp only [podYes, h]
  refine ⟨?_, ?_, ?_⟩
  · simp only [ctcScores, List.forall_mem_cons, ctcAcc, ctcFbias, ctcFmean, ctcPody, ctcPofd, ctcPodn,
      ctcFar, ctcCsi, ctcGss, ctcHk, ctcHss, ctcOdds, podYes, podNo, ctcOdds1, ctcOrss, h]
    simp
  · intro W
    simp only [ctcLogScores, List.forall_mem_cons, ctcLodds, ctcBagss, ctcSedi, ctcSeds, ctcEdi,
      ctcEds, hR, hy]
    simp
  · simp only [ctcCounts, List.forall_mem_cons, ctcCount, ctcCount2, ctcOy, ctcOn, ctcFy, ctcFn, h]
    simp

theorem addCell_assoc (a b c : Cell) : addCell (addCell a b) c = addCell a (addCell b c) := by
  cases a <;> cases b <;> cases c <;> simp [addCell, add_assoc]
theorem addCell_comm (a b : Cell) : addCell a b = addCell b a := by
  cases a <;> cases b <;> simp [addCell, add_comm]

theorem cells_fold (cells : List Cell) :
    (if cells.all Option.isNone then none else some (cells.filterMap id).sum)
      = cells.foldr addCell none := by
  induction cells with
  | nil => rfl
  | cons c cs ih =>
    rw [List.foldr_cons, ← ih]
    cases c with
    | none =>
      by_cases hh : cs.all Option.isNone = true
      · simp [hh, addCell]
      · simp only [List.all_cons, Option.isNone_none, Bool.true_and, hh, addCell]; simp
    | some v =>
      by_cases hh : cs.all Option.isNone = true
      · have : cs.filterMap id = [] := by
          rw [List.filterMap_eq_nil_iff]; intro a ha
          have := List.all_eq_true.mp hh a ha
          simpa using this
        simp [hh, addCell]
        exact this ▸ rfl
      · simp [hh, addCell]

theorem sumColumn_eq_fold (t : Table) (name : String) :
    sumColumn t name = (columnData t name).bind (fun cells => cells.foldr addCell none) := by
  unfold sumColumn
  cases h : columnData t name with
  | none => rfl
  | some cells => simp only [if_true, Option.bind_some, ← cells_fold]

theorem collapseRows_spec (w : ℕ) (rows : List (List Cell)) (wf : ∀ r ∈ rows, r.length = w) :
    (collapseRows w rows).length = w ∧ ∀ i < w, ∀ cells : List Cell,
      rows.map (fun r => r[i]?) = cells.map some →
        (collapseRows w rows)[i]? = some (cells.foldr addCell none) := by
  induction rows with
  | nil => simp +contextual [collapseRows]
  | cons r rs ih =>
    obtain ⟨h1, h2⟩ := ih (fun r hr => wf r (by simp [hr]))
    have hr : r.length = w := wf r (by simp)
    have hcons : collapseRows w (r :: rs) = addRow r (collapseRows w rs) := rfl
    refine ⟨by rw [hcons, addRow, List.length_zipWith, hr, h1, min_self], ?_⟩
    intro i hi cells hc
    cases cells with
    | nil => simp at hc
    | cons c cs =>
      simp only [List.map_cons, List.cons.injEq] at hc
      have := h2 i hi cs hc.2
      rw [hcons, addRow, List.getElem?_zipWith, hc.1, this]
      rfl

theorem sumColumn_collapse (t : Table) (wf : WellFormed t) (name : String) :
    sumColumn t name = sumColumn (collapse t) name := by
  rw [sumColumn_eq_fold, sumColumn_eq_fold]
  by_cases hn : name ∈ t.cols
  · obtain ⟨cells, hc, -⟩ := columnData_exists wf hn
    obtain ⟨i, h1, h2, h3⟩ := columnData_eq_some_iff.mp hc
    obtain ⟨hlt, -⟩ := List.getElem?_eq_some_iff.mp h1
    have hcol : IsColumn (collapse t) name [cells.foldr addCell none] := by
      refine ⟨i, h1, h2, ?_⟩
      simpa [collapse] using (collapseRows_spec _ _ wf).2 i hlt cells h3
    rw [hc, columnData_eq_some_iff.mpr hcol]
    simp only [Option.bind_some, List.foldr_cons, List.foldr_nil]
    cases cells.foldr addCell none <;> rfl
  · have e1 : columnData t name = none := by simp [columnData, colIdx?_eq_none.mpr hn]
    have e2 : columnData (collapse t) name = none := by
      have : name ∉ (collapse t).cols := hn
      simp [columnData, colIdx?_eq_none.mpr this]
    rw [e1, e2]

theorem columnData_perm {t t' : Table} (hc : t.cols = t'.cols) (hp : t.rows.Perm t'.rows)
    (name : String) : (columnData t name = none ∧ columnData t' name = none) ∨
      ∃ l l', columnData t name = some l ∧ columnData t' name = some l' ∧ l.Perm l' := by
  unfold columnData
  have hidx : t'.colIdx? name = t.colIdx? name := by unfold Table.colIdx?; rw [hc]
  rw [hidx]
  cases t.colIdx? name with
  | none => left; simp
  | some i =>
    simp only
    have key : ∀ {l l' : List (List Cell)}, l.Perm l' →
        (l.mapM (fun r => r[i]?) = none ∧ l'.mapM (fun r => r[i]?) = none) ∨
        ∃ x y, l.mapM (fun r => r[i]?) = some x ∧ l'.mapM (fun r => r[i]?) = some y ∧ x.Perm y := by
      intro l l' hp
      have hm := hp.map (fun r => r[i]?)
      cases hx : l.mapM (fun r : List Cell => r[i]?) with
      | none =>
        left; refine ⟨rfl, ?_⟩
        cases hy : l'.mapM (fun r : List Cell => r[i]?) with
        | none => rfl
        | some y =>
          exfalso
          have e := (mapM_eq_some_iff _ _ _).mp hy
          have : ∀ o ∈ l.map (fun r => r[i]?), o ≠ none := by
            intro o ho
            have := hm.mem_iff.mp ho
            rw [e] at this
            rintro rfl; simp at this
          have e' : l.map (fun r : List Cell => r[i]?) =
              (l.map (fun r : List Cell => (r[i]?).getD none)).map some := by
            rw [List.map_map]
            apply List.map_congr_left
            intro r hr
            have := this (r[i]?) (List.mem_map_of_mem hr)
            cases hri : r[i]? with
            | none => exact absurd hri this
            | some c => simp [hri]
          rw [(mapM_eq_some_iff _ _ _).mpr e'] at hx
          simp at hx
      | some x =>
        right
        have e := (mapM_eq_some_iff _ _ _).mp hx
        rw [e] at hm
        obtain ⟨y, hy1, hy2⟩ : ∃ y, x.Perm y ∧ y.map some = l'.map (fun r => r[i]?) := by
          have hall : ∀ o ∈ l'.map (fun r => r[i]?), o ≠ none := by
            intro o ho
            have := hm.mem_iff.mpr ho
            rintro rfl; simp at this
          refine ⟨(l'.map (fun r => r[i]?)).filterMap id, ?_, ?_⟩
          · have := hm.filterMap id
            simpa [List.filterMap_map] using this
          · clear hm e hx hp
            induction l' with
            | nil => rfl
            | cons r rs ih =>
              have h0 := hall (r[i]?) (by simp)
              cases hri : r[i]? with
              | none => exact absurd hri h0
              | some c =>
                have := ih (fun o ho => hall o (by simp at ho ⊢; right; exact ho))
                simpa [hri] using this
        exact ⟨x, y, rfl, (mapM_eq_some_iff _ _ _).mpr hy2.symm, hy1⟩
    exact key hp

theorem foldr_addCell_perm {l l' : List Cell} (h : l.Perm l') :
    l.foldr addCell none = l'.foldr addCell none := by
  induction h with
  | nil => rfl
  | cons x _ ih => simp [ih]
  | swap x y l =>
    simp only [List.foldr_cons]
    rw [← addCell_assoc, addCell_comm y x, addCell_assoc]
  | trans _ _ ih1 ih2 => exact ih1.trans ih2

end Metcalcpy
