import Verif.Spec.Frame
import Verif.Lemmas.IntText
import Verif.Model.EventEqualize
import Mathlib.Tactic.Linarith
import Mathlib.Tactic.Push

namespace Metcalcpy
open Spec

theorem Frame.idx?_eq_some {f : Frame} {name : String} {i : ℕ} :
    f.idx? name = some i ↔ f.cols[i]? = some name ∧ ∀ j < i, f.cols[j]? ≠ some name := by
  unfold Frame.idx?
  rw [List.findIdx?_eq_some_iff_getElem]
  constructor
  · rintro ⟨h, h1, h2⟩
    refine ⟨by simpa [List.getElem?_eq_getElem h] using h1, fun j hj => ?_⟩
    rw [List.getElem?_eq_getElem (by omega)]
    simpa using h2 j hj
  · rintro ⟨h1, h2⟩
    obtain ⟨h, e⟩ := List.getElem?_eq_some_iff.mp h1
    refine ⟨h, by simp [e], fun j hj => ?_⟩
    have := h2 j hj
    rw [List.getElem?_eq_getElem (by omega)] at this
    simpa using this

theorem Frame.idx?_eq_none {f : Frame} {name : String} : f.idx? name = none ↔ name ∉ f.cols := by
  unfold Frame.idx?
  rw [List.findIdx?_eq_none_iff]
  constructor
  · intro h hm; simpa using h _ hm
  · intro h x hx; simp; rintro rfl; exact h hx

theorem Frame.idx?_of_mem {f : Frame} {name : String} (h : name ∈ f.cols) :
    ∃ i, f.idx? name = some i := by
  cases hi : f.idx? name with
  | none => exact absurd h (Frame.idx?_eq_none.mp hi)
  | some i => exact ⟨i, rfl⟩

theorem Frame.idx?_lt {f : Frame} {name : String} {i : ℕ} (h : f.idx? name = some i) :
    i < f.cols.length := by
  obtain ⟨h1, -⟩ := Frame.idx?_eq_some.mp h
  exact (List.getElem?_eq_some_iff.mp h1).1

theorem Frame.idx?_append {cols rest : List String} {rows rows' : List (List Val)} {name : String}
    (h : name ∈ cols) :
    (Frame.mk (cols ++ rest) rows').idx? name = (Frame.mk cols rows).idx? name := by
  obtain ⟨i, hi⟩ := Frame.idx?_of_mem (f := Frame.mk cols rows) h
  rw [hi, Frame.idx?_eq_some]
  have hlt := Frame.idx?_lt hi
  obtain ⟨h1, h2⟩ := Frame.idx?_eq_some.mp hi
  simp only at hlt h1 h2 ⊢
  refine ⟨by rw [List.getElem?_append_left hlt]; exact h1, fun j hj => ?_⟩
  rw [List.getElem?_append_left (by omega)]; exact h2 j hj

theorem Frame.idx?_last {cols : List String} {rows : List (List Val)} {name : String}
    (h : name ∉ cols) : (Frame.mk (cols ++ [name]) rows).idx? name = some cols.length := by
  rw [Frame.idx?_eq_some]
  refine ⟨by simp, fun j hj => ?_⟩
  simp only
  rw [List.getElem?_append_left hj]
  intro e
  exact h (List.mem_of_getElem? e)

theorem hasCell_iff {f : Frame} {r : List Val} {name : String} {i : ℕ} (hi : f.idx? name = some i)
    (v : Val) : HasCell f r name v ↔ r[i]? = some v := by
  obtain ⟨h1, h2⟩ := Frame.idx?_eq_some.mp hi
  constructor
  · rintro ⟨j, g1, g2, g3⟩
    have : f.idx? name = some j := Frame.idx?_eq_some.mpr ⟨g1, g2⟩
    rw [hi] at this
    obtain rfl : i = j := by simpa using this
    exact g3
  · intro h; exact ⟨i, h1, h2, h⟩

theorem hasCell_cellAt {f : Frame} {r : List Val} {name : String} {i : ℕ} (hi : f.idx? name = some i)
    (hr : r.length = f.cols.length) : HasCell f r name (cellAt r i) := by
  rw [hasCell_iff hi]
  have := Frame.idx?_lt hi
  have h : i < r.length := by omega
  simp [cellAt, List.getElem?_eq_getElem h]

theorem hasCell_unique {f : Frame} {r : List Val} {name : String} {i : ℕ} (hi : f.idx? name = some i)
    {v : Val} (h : HasCell f r name v) : cellAt r i = v := by
  rw [hasCell_iff hi] at h
  simp [cellAt, h]

theorem cellMatches_iff (v : Val) (p : String) : cellMatches v p = true ↔ ValueIs v p := by
  unfold cellMatches ValueIs
  simp only [← pyInt?_iff, ← pyInt?_none_iff]
  cases h : pyInt? p with
  | some z =>
    cases v <;> simp
  | none =>
    by_cases hp : p = "NA" <;> simp [hp]

/-- Boolean form of `InSeries`. -/
def selB (g : Frame) (p : List (String × String)) (r : List Val) : Bool :=
  p.all (fun q => match g.idx? q.1 with
    | some i => cellMatches (cellAt r i) q.2
    | none => false)

theorem selB_iff {g : Frame} {p : List (String × String)} {r : List Val}
    (hr : r.length = g.cols.length) (hp : ∀ q ∈ p, q.1 ∈ g.cols) :
    selB g p r = true ↔ InSeries g p r := by
  unfold selB InSeries
  rw [List.all_eq_true]
  refine forall₂_congr (fun q hq => ?_)
  obtain ⟨i, hi⟩ := Frame.idx?_of_mem (hp q hq)
  simp only [hi]
  rw [cellMatches_iff]
  constructor
  · intro h; exact ⟨_, hasCell_cellAt hi hr, h⟩
  · rintro ⟨v, hv, h⟩; rw [hasCell_unique hi hv]; exact h

theorem selectPermutation_ok {g : Frame} {p : List (String × String)} (hp : ∀ q ∈ p, q.1 ∈ g.cols)
    (rows : List (List Val)) : selectPermutation g p rows = .ok (rows.filter (selB g p)) := by
  induction p generalizing rows with
  | nil =>
    simp only [selectPermutation]
    congr 1
    rw [List.filter_eq_self.mpr]
    intro a _; simp [selB]
  | cons q p ih =>
    obtain ⟨var, val⟩ := q
    obtain ⟨i, hi⟩ := Frame.idx?_of_mem (hp (var, val) (by simp))
    simp only [selectPermutation, hi]
    rw [ih (fun q hq => hp q (by simp [hq])), List.filter_filter]
    congr 2
    funext r
    simp only [selB, List.all_cons, hi, Bool.and_comm]

theorem mem_product {α : Type*} {ls : List (List α)} {p : List α} :
    p ∈ product ls ↔ List.Forall₂ (fun x l => x ∈ l) p ls := by
  induction ls generalizing p with
  | nil => simp [product]
  | cons l ls ih =>
    simp only [product, List.mem_flatMap, List.mem_map]
    constructor
    · rintro ⟨a, ha, q, hq, rfl⟩
      exact List.Forall₂.cons ha (ih.mp hq)
    · intro h
      cases h with
      | cons ha hq => exact ⟨_, ha, _, ih.mpr hq, rfl⟩

theorem product_eq_nil {α : Type*} {ls : List (List α)} : product ls = [] ↔ [] ∈ ls := by
  induction ls with
  | nil => simp [product]
  | cons l ls ih =>
    simp only [product, List.flatMap_eq_nil_iff, List.map_eq_nil_iff, List.mem_cons]
    rw [ih]
    constructor
    · intro h
      cases l with
      | nil => left; rfl
      | cons a l => right; exact h a (by simp)
    · rintro (h | h)
      · subst h; simp
      · intro _ _; exact h

theorem length_of_mem_product {α : Type*} {ls : List (List α)} {p : List α} (h : p ∈ product ls) :
    p.length = ls.length := (mem_product.mp h).length_eq

theorem zip_fst_mem {vars : List String} {p : List String} {q : String × String}
    (h : q ∈ vars.zip p) : q.1 ∈ vars := (List.of_mem_zip h).1

theorem equalizationCases_ok {g : Frame} (k : ℕ) {vars : List String} (hv : ∀ v ∈ vars, v ∈ g.cols)
    (perms : List (List String)) :
    ∃ cases, equalizationCases g k vars perms = .ok cases ∧
      ∀ c, c ∈ cases ↔ perms ≠ [] ∧ ∀ p ∈ perms, ∃ r ∈ g.rows, selB g (vars.zip p) r = true ∧
        (cellAt r k).text = c := by
  have hsel : ∀ p : List String, selectPermutation g (vars.zip p) g.rows =
      .ok (g.rows.filter (selB g (vars.zip p))) :=
    fun p => selectPermutation_ok (fun q hq => hv _ (zip_fst_mem hq)) _
  cases perms with
  | nil => exact ⟨[], rfl, by simp⟩
  | cons p ps =>
    have hfold : ∀ (ps : List (List String)) (init : List String), ∃ cases,
        ps.foldlM (fun (cases : List String) q => do
          let rows ← selectPermutation g (vars.zip q) g.rows
          let keys := rows.map (fun r => (cellAt r k).text)
          return cases.filter (fun c => decide (c ∈ keys))) init = (.ok cases : Except PyErr _) ∧
        ∀ c, c ∈ cases ↔ c ∈ init ∧ ∀ q ∈ ps, ∃ r ∈ g.rows, selB g (vars.zip q) r = true ∧
          (cellAt r k).text = c := by
      intro ps
      induction ps with
      | nil => intro init; exact ⟨init, rfl, by simp⟩
      | cons q ps ih =>
        intro init
        obtain ⟨cases, h1, h2⟩ := ih (init.filter (fun c => decide (c ∈
          (g.rows.filter (selB g (vars.zip q))).map (fun r => (cellAt r k).text))))
        refine ⟨cases, ?_, ?_⟩
        · rw [List.foldlM_cons, hsel q]
          exact h1
        · intro c
          rw [h2]
          simp only [List.mem_filter, List.mem_map, decide_eq_true_eq, List.mem_cons]
          constructor
          · rintro ⟨⟨h3, r, ⟨h4, h5⟩, h6⟩, h7⟩
            refine ⟨h3, ?_⟩
            rintro q' (rfl | hq')
            · exact ⟨r, h4, h5, h6⟩
            · exact h7 q' hq'
          · rintro ⟨h3, h4⟩
            obtain ⟨r, h5, h6, h7⟩ := h4 q (Or.inl rfl)
            exact ⟨⟨h3, r, ⟨h5, h6⟩, h7⟩, fun q' hq' => h4 q' (Or.inr hq')⟩
    obtain ⟨cases, h1, h2⟩ := hfold ps ((g.rows.filter (selB g (vars.zip p))).map
      (fun r => (cellAt r k).text))
    refine ⟨cases, ?_, ?_⟩
    · simp only [equalizationCases, hsel p]
      exact h1
    · intro c
      rw [h2]
      simp only [List.mem_map, List.mem_filter, List.mem_cons, ne_eq, reduceCtorEq, not_false_eq_true,
        true_and]
      constructor
      · rintro ⟨⟨r, ⟨h3, h4⟩, h5⟩, h6⟩
        rintro q (rfl | hq)
        · exact ⟨r, h3, h4, h5⟩
        · exact h6 q hq
      · intro h3
        obtain ⟨r, h4, h5, h6⟩ := h3 p (Or.inl rfl)
        exact ⟨⟨r, ⟨h4, h5⟩, h6⟩, fun q hq => h3 q (Or.inr hq)⟩

/-- Choices are the zipped permutations. -/
theorem choice_iff {vars : List (String × List String)} {p : List (String × String)} :
    Choice vars p ↔ ∃ q ∈ product (vars.map Prod.snd), p = (vars.map Prod.fst).zip q := by
  induction vars generalizing p with
  | nil => simp [Choice, product]
  | cons x vars ih =>
    constructor
    · intro h
      cases h with
      | @cons _ y _ ps h1 h2 =>
        obtain ⟨q, hq, rfl⟩ := ih.mp h2
        refine ⟨y.2 :: q, ?_, ?_⟩
        · simp only [List.map_cons, product, List.mem_flatMap, List.mem_map]
          exact ⟨y.2, h1.2, q, hq, rfl⟩
        · obtain ⟨y1, y2⟩ := y
          simp only at h1
          simp [h1.1]
    · rintro ⟨q, hq, rfl⟩
      simp only [List.map_cons, product, List.mem_flatMap, List.mem_map] at hq
      obtain ⟨a, ha, q', hq', rfl⟩ := hq
      exact List.Forall₂.cons ⟨rfl, ha⟩ (ih.mpr ⟨q', hq', rfl⟩)

end Metcalcpy
