import Verif.Model.Prepare
import Verif.Lemmas.Table
import Verif.Spec.Pairs

namespace Metcalcpy
open Spec

theorem completeColumn_idx {t : Table} {c : String} {x : List ℚ} (h : CompleteColumn t c x) :
    ∃ i, t.colIdx? c = some i ∧ t.rows.map (fun r => r[i]?) = x.map (fun v => some (some v)) := by
  obtain ⟨i, h1, h2, h3⟩ := h
  refine ⟨i, colIdx?_eq_some.mpr ⟨h1, h2⟩, ?_⟩
  rw [List.map_map] at h3
  exact h3

theorem completeColumn_of_idx {t : Table} {c : String} {x : List ℚ} {i : ℕ}
    (h : t.colIdx? c = some i) (h3 : t.rows.map (fun r => r[i]?) = x.map (fun v => some (some v))) :
    CompleteColumn t c x := by
  obtain ⟨h1, h2⟩ := colIdx?_eq_some.mp h
  exact ⟨i, h1, h2, by rw [List.map_map]; exact h3⟩

theorem colIdx?_inj {t : Table} {a b : String} {i : ℕ} (ha : t.colIdx? a = some i)
    (hb : t.colIdx? b = some i) : a = b := by
  have h1 := (colIdx?_eq_some.mp ha).1
  have h2 := (colIdx?_eq_some.mp hb).1
  rw [h1] at h2; simpa using h2

/-- Effect of one column multiplication. -/
theorem mulColumn_ok {t : Table} {w c : String} {n x : List ℚ} (hw : CompleteColumn t w n)
    (hc : CompleteColumn t c x) :
    ∃ t', mulColumn w t c = .ok t' ∧ t'.cols = t.cols ∧ t'.rows.length = t.rows.length ∧
      CompleteColumn t' c (List.zipWith (· * ·) x n) ∧
      ∀ d y, d ≠ c → CompleteColumn t d y → CompleteColumn t' d y := by
  obtain ⟨i, hi, ei⟩ := completeColumn_idx hc
  obtain ⟨j, hj, ej⟩ := completeColumn_idx hw
  refine ⟨{ t with rows := t.rows.map (fun r =>
      r.set i (mulCell ((r[i]?).getD none) ((r[j]?).getD none))) }, ?_, rfl, by simp, ?_, ?_⟩
  · simp [mulColumn, hi, hj]
  · refine completeColumn_of_idx (i := i) (t := Table.mk _ _) hi ?_
    simp only [List.map_map]
    have key : ∀ (rows : List (List Cell)) (x n : List ℚ),
        rows.map (fun r => r[i]?) = x.map (fun v => some (some v)) →
        rows.map (fun r => r[j]?) = n.map (fun v => some (some v)) →
        rows.map ((fun r => r[i]?) ∘ fun r =>
          r.set i (mulCell ((r[i]?).getD none) ((r[j]?).getD none))) =
          (List.zipWith (· * ·) x n).map (fun v => some (some v)) := by
      intro rows
      induction rows with
      | nil => intro x n hx hn; cases x <;> simp at *
      | cons r rows ih =>
        intro x n hx hn
        cases x with
        | nil => simp at hx
        | cons a x =>
          cases n with
          | nil => simp at hn
          | cons b n =>
            simp only [List.map_cons, List.cons.injEq] at hx hn
            simp only [List.map_cons, List.zipWith_cons_cons, List.cons.injEq]
            refine ⟨?_, ih x n hx.2 hn.2⟩
            obtain ⟨hlt, -⟩ := List.getElem?_eq_some_iff.mp hx.1
            simp only [Function.comp, hx.1, hn.1]
            rw [List.getElem?_set_self hlt]
            simp [mulCell]
    exact key _ _ _ ei ej
  · intro d y hd hy
    obtain ⟨k, hk, ek⟩ := completeColumn_idx hy
    refine completeColumn_of_idx (i := k) (t := Table.mk _ _) hk ?_
    have hki : k ≠ i := by
      rintro rfl; exact hd (colIdx?_inj hk hi)
    rw [← ek]
    simp only [List.map_map]
    apply List.map_congr_left
    intro r _
    simp [Function.comp, List.getElem?_set_ne hki.symm]

/-- Effect of preparing several fields. -/
theorem mulColumns_ok {w : String} {n : List ℚ} (col : String → List ℚ) (fields : List String) :
    ∀ {t : Table}, CompleteColumn t w n → fields.Nodup → w ∉ fields →
      (∀ c ∈ fields, CompleteColumn t c (col c)) →
      ∃ t', fields.foldlM (mulColumn w) t = .ok t' ∧ t'.rows.length = t.rows.length ∧
        (∀ c ∈ fields, CompleteColumn t' c (List.zipWith (· * ·) (col c) n)) ∧
        ∀ d y, d ∉ fields → CompleteColumn t d y → CompleteColumn t' d y := by
  induction fields with
  | nil => intro t hw _ _ _; exact ⟨t, rfl, rfl, by simp, fun d y _ h => h⟩
  | cons c fs ih =>
    intro t hw hnd hwn hcol
    obtain ⟨hc, hnd'⟩ := List.nodup_cons.mp hnd
    have hwc : w ≠ c := fun e => hwn (by simp [e])
    obtain ⟨t1, e1, -, l1, c1, o1⟩ := mulColumn_ok hw (hcol c (by simp))
    obtain ⟨t2, e2, l2, c2, o2⟩ := ih (o1 w n hwc hw) hnd' (fun hm => hwn (by simp [hm]))
      (fun d hd => o1 d _ (fun e => hc (e ▸ hd)) (hcol d (by simp [hd])))
    refine ⟨t2, ?_, by omega, ?_, ?_⟩
    · simp [List.foldlM_cons, e1, bind, Except.bind, e2]
    · intro d hd
      rcases List.mem_cons.mp hd with rfl | hd
      · exact o2 d _ hc c1
      · exact c2 d hd
    · intro d y hd hy
      have : d ≠ c := fun e => hd (by simp [e])
      exact o2 d y (fun hm => hd (by simp [hm])) (o1 d y this hy)

/-- Weighted means multiplied by the totals add up to the pooled sum. -/
theorem sum_weighted {α : Type*} (g : α → ℚ) (bs : List (List α)) (hne : ∀ b ∈ bs, b ≠ []) :
    (List.zipWith (· * ·) (bs.map (avg g)) (bs.map (fun b => (b.length : ℚ)))).sum =
      (bs.flatten.map g).sum := by
  induction bs with
  | nil => simp
  | cons b bs ih =>
    simp only [List.map_cons, List.zipWith_cons_cons, List.sum_cons, List.flatten_cons,
      List.map_append, List.sum_append]
    rw [ih (fun b' hb' => hne b' (by simp [hb']))]
    congr 1
    have : (b.length : ℚ) ≠ 0 := by
      have := hne b (by simp)
      exact_mod_cast (List.length_pos_iff.mpr this).ne'
    rw [avg, div_mul_cancel₀ _ this]

theorem sum_lengths {α : Type*} (bs : List (List α)) :
    (bs.map (fun b => (b.length : ℚ))).sum = (bs.flatten.length : ℚ) := by
  induction bs with
  | nil => simp
  | cons b bs ih => simp only [List.map_cons, List.sum_cons, List.flatten_cons, List.length_append,
      Nat.cast_add, ih]

theorem flatten_pos {α : Type*} {bs : List (List α)} (h : bs ≠ []) (hne : ∀ b ∈ bs, b ≠ []) :
    0 < (bs.flatten.length : ℚ) := by
  cases bs with
  | nil => exact absurd rfl h
  | cons b bs =>
    have : 0 < b.length := List.length_pos_iff.mpr (hne b (by simp))
    have h2 : 0 < (b :: bs).flatten.length := by simp; omega
    exact_mod_cast h2

theorem sumColumn_of_complete {t : Table} {c : String} {x : List ℚ} (hr : t.rows ≠ [])
    (h : CompleteColumn t c x) : sumColumn t c = some x.sum := sumColumn_complete hr h true

end Metcalcpy
