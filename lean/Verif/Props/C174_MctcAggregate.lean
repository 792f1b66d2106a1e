/-
C174  Aggregating MCTC lines: lines with different or missing expected-correct values are refused.
C175  The aggregated multi-category HSS does not depend on the order of the lines.
-/
import Verif.Model.MctcAgg
import Verif.Props.C60_Mcts
import Verif.Lemmas.CtcSplit

namespace Metcalcpy.Props
open Metcalcpy Spec

theorem ecCheck_ok_iff (t : Table) (c : Cell) (cs : List Cell) (h : columnData t "ec_value" = some (c :: cs)) :
    ecCheck t = .ok () ↔ ∃ ec : ℚ, ∀ x ∈ c :: cs, x = some ec := by
  unfold ecCheck
  rw [h]
  simp only
  constructor
  · intro hk
    by_cases ha : (c :: cs).all (fun x => ecEq x c) = true
    · rw [List.all_eq_true] at ha
      have hc := ha c (by simp)
      cases c with
      | none => simp [ecEq] at hc
      | some q =>
        refine ⟨q, fun x hx => ?_⟩
        have := ha x hx
        cases x with
        | none => simp [ecEq] at this
        | some y => simp [ecEq] at this; rw [this]
    · rw [if_neg ha] at hk; exact absurd hk (by simp)
  · rintro ⟨ec, he⟩
    rw [if_pos]
    rw [List.all_eq_true]
    intro x hx
    rw [he x hx, he c (by simp)]
    simp [ecEq]

theorem columnData_of_isColumn {t : Table} {name : String} {cells : List Cell} (h : IsColumn t name cells) :
    columnData t name = some cells := by
  obtain ⟨i, h1, h2, h3⟩ := h
  unfold columnData
  have : t.colIdx? name = some i := by
    unfold Table.colIdx?
    rw [List.findIdx?_eq_some_iff_getElem]
    have hi : i < t.cols.length := (List.getElem?_eq_some_iff.mp h1).1
    refine ⟨hi, by simpa using (List.getElem?_eq_some_iff.mp h1).2, fun j hj => ?_⟩
    have := h2 j hj
    intro he
    apply this
    rw [List.getElem?_eq_getElem (by omega)]
    simpa using he
  rw [this]
  exact (mapM_eq_some_iff _ _ _).mpr h3

/-- C174: lines whose expected-correct values are not all present and equal are refused with a ValueError. -/
theorem C174_refused (t : Table) (cells : List Cell) (hne : cells ≠ []) (h : IsColumn t "ec_value" cells)
    (hd : ¬ ∃ ec : ℚ, ∀ x ∈ cells, x = some ec) : mctcAggregate t = .error .valueError := by
  cases cells with
  | nil => exact absurd rfl hne
  | cons c cs =>
    have hcol := columnData_of_isColumn h
    have hk := ecCheck_ok_iff t c cs hcol
    have : ecCheck t = .error .valueError := by
      unfold ecCheck at hk ⊢
      rw [hcol] at hk ⊢
      simp only at hk ⊢
      by_cases ha : (c :: cs).all (fun x => ecEq x c) = true
      · rw [if_pos ha] at hk
        exact absurd (hk.mp rfl) hd
      · rw [if_neg ha]
    unfold mctcAggregate
    rw [this]; rfl

/-- C174: lines that agree on their expected-correct value get the textbook score for that common value. -/
theorem C174_value (t : Table) (n : ℕ) (ec : ℚ) (cells : List CatCell) (D : MctcData t n ec cells)
    (he : ∃ m : ℕ, IsColumn t "ec_value" (List.replicate m (some ec))) :
    mctcAggregate t = .ok (if grandTotal cells - ec * grandTotal cells = 0 then none
      else some (roundHalfUp ((correctTotal cells - ec * grandTotal cells) /
        (grandTotal cells - ec * grandTotal cells)) 7)) := by
  obtain ⟨m, hm⟩ := he
  have hcol := columnData_of_isColumn hm
  have hm0 : m ≠ 0 := by
    rintro rfl
    obtain ⟨i, _, _, h3⟩ := hm
    exact D.rows_ne (by simpa using h3)
  obtain ⟨k, rfl⟩ := Nat.exists_eq_succ_of_ne_zero hm0
  have : ecCheck t = .ok () := by
    rw [List.replicate_succ] at hcol
    rw [ecCheck_ok_iff t _ _ hcol]
    refine ⟨ec, fun x hx => ?_⟩
    rw [← List.replicate_succ] at hx
    exact List.eq_of_mem_replicate hx
  unfold mctcAggregate
  rw [this]
  show mctsHssEc t = _
  exact C60_hss_ec t n ec cells D

/-- All lines have the same cell in the column called `name`. -/
def SameInAllLines (t : Table) (name : String) : Prop :=
  ∀ i : ℕ, t.cols[i]? = some name → ∀ r ∈ t.rows, ∀ s ∈ t.rows, r[i]? = s[i]?

theorem firstCell_perm {t t' : Table} (hc : t.cols = t'.cols) (hp : t.rows.Perm t'.rows) (name : String)
    (hs : SameInAllLines t name) : firstCell t name = firstCell t' name := by
  unfold firstCell
  have hidx : t'.colIdx? name = t.colIdx? name := by unfold Table.colIdx?; rw [hc]
  rw [hidx]
  cases hi : t.colIdx? name with
  | none => cases t.rows <;> cases t'.rows <;> rfl
  | some i =>
    have hcol : t.cols[i]? = some name := by
      unfold Table.colIdx? at hi
      rw [List.findIdx?_eq_some_iff_getElem] at hi
      obtain ⟨h1, h2, _⟩ := hi
      rw [List.getElem?_eq_getElem h1]
      simpa using h2
    cases h : t.rows with
    | nil =>
      have : t'.rows = [] := by rw [h] at hp; exact List.nil_perm.mp hp
      rw [this]
    | cons r rs =>
      cases h' : t'.rows with
      | nil =>
        rw [h, h'] at hp
        have := hp.length_eq
        simp at this
      | cons s ss =>
        have hr : r ∈ t.rows := by rw [h]; simp
        have hss : s ∈ t.rows := hp.mem_iff.mpr (by rw [h']; simp)
        simp only
        rw [hs i hcol r hr s hss]

theorem sumColumn_perm' {t t' : Table} (hc : t.cols = t'.cols) (hp : t.rows.Perm t'.rows) (name : String) :
    sumColumn t name = sumColumn t' name := by
  unfold sumColumn
  rcases columnData_perm hc hp name with ⟨h1, h2⟩ | ⟨l, l', h1, h2, hl⟩
  · rw [h1, h2]
  · rw [h1, h2]
    simp only
    have ha : l.all Option.isNone = l'.all Option.isNone := by
      rw [Bool.eq_iff_iff, List.all_eq_true, List.all_eq_true]
      exact ⟨fun H x hx => H x (hl.mem_iff.mpr hx), fun H x hx => H x (hl.mem_iff.mp hx)⟩
    rw [ha, (hl.filterMap id).sum_eq]
    simp

theorem fiojSum_perm {t t' : Table} (hc : t.cols = t'.cols) (hp : t.rows.Perm t'.rows) (wf : WellFormed t)
    (k : ℕ) : fiojSum t k = fiojSum t' k := by
  unfold fiojSum
  rw [sumColumn_perm' hc hp]
  generalize hname : "fi_oj_" ++ toString k = name
  have hidx : t'.colIdx? name = t.colIdx? name := by unfold Table.colIdx?; rw [hc]
  have : (∃ c, firstCell t name = .ok c) ∧ (∃ c, firstCell t' name = .ok c) ∨
      firstCell t name = .error .indexError ∧ firstCell t' name = .error .indexError := by
    unfold firstCell
    rw [hidx]
    cases h : t.rows with
    | nil =>
      have : t'.rows = [] := by rw [h] at hp; exact List.nil_perm.mp hp
      rw [this]; right; simp
    | cons r rs =>
      cases h' : t'.rows with
      | nil =>
        rw [h, h'] at hp
        have := hp.length_eq
        simp at this
      | cons s ss =>
        cases hi : t.colIdx? name with
        | none => right; simp
        | some i =>
          have hlt : i < t.cols.length := by
            unfold Table.colIdx? at hi
            rw [List.findIdx?_eq_some_iff_getElem] at hi
            exact hi.1
          have hr : r.length = t.cols.length := wf r (by rw [h]; simp)
          have hs : s.length = t.cols.length := wf s (hp.mem_iff.mpr (by rw [h']; simp))
          left
          simp only
          rw [List.getElem?_eq_getElem (by omega : i < r.length), List.getElem?_eq_getElem (by omega : i < s.length)]
          exact ⟨⟨_, rfl⟩, ⟨_, rfl⟩⟩
  rcases this with ⟨⟨c, h1⟩, ⟨c', h2⟩⟩ | ⟨h1, h2⟩
  · rw [h1, h2]; rfl
  · rw [h1, h2]

/-- C175: when all lines agree on the number of categories, on the expected-correct value and on which pair
of categories each count column describes, the aggregated score is the same for every order of the lines. -/
theorem C175_order_partial (t t' : Table) (hc : t.cols = t'.cols) (hp : t.rows.Perm t'.rows) (wf : WellFormed t)
    (hn : SameInAllLines t "n_cat") (he : SameInAllLines t "ec_value")
    (hi : ∀ k : ℕ, SameInAllLines t ("i_value_" ++ toString k))
    (hj : ∀ k : ℕ, SameInAllLines t ("j_value_" ++ toString k)) : mctcAggregate t = mctcAggregate t' := by
  have e1 : ecCheck t = ecCheck t' := by
    rcases columnData_perm hc hp "ec_value" with ⟨h1, h2⟩ | ⟨l, l', h1, h2, hl⟩
    · unfold ecCheck; rw [h1, h2]
    · cases l with
      | nil =>
        have : l' = [] := List.nil_perm.mp hl
        unfold ecCheck; rw [h1, h2, this]
      | cons c cs =>
        cases l' with
        | nil => have := hl.length_eq; simp at this
        | cons d ds =>
          have k1 := ecCheck_ok_iff t c cs h1
          have k2 := ecCheck_ok_iff t' d ds h2
          have k : ecCheck t = .ok () ↔ ecCheck t' = .ok () := by
            rw [k1, k2]
            exact ⟨fun ⟨ec, H⟩ => ⟨ec, fun x hx => H x (hl.mem_iff.mpr hx)⟩,
              fun ⟨ec, H⟩ => ⟨ec, fun x hx => H x (hl.mem_iff.mp hx)⟩⟩
          unfold ecCheck at k ⊢
          rw [h1, h2] at k ⊢
          simp only at k ⊢
          by_cases a1 : (c :: cs).all (fun x => ecEq x c) = true
          · by_cases a2 : (d :: ds).all (fun x => ecEq x d) = true
            · rw [if_pos a1, if_pos a2]
            · rw [if_pos a1, if_neg a2] at k; simp at k
          · by_cases a2 : (d :: ds).all (fun x => ecEq x d) = true
            · rw [if_neg a1, if_pos a2] at k; simp at k
            · rw [if_neg a1, if_neg a2]
  have e2 : fiojSum t = fiojSum t' := funext (fiojSum_perm hc hp wf)
  have e3 : fillCell t = fillCell t' := by
    funext n sums tbl k
    unfold fillCell
    rw [firstCell_perm hc hp _ (hi k), firstCell_perm hc hp _ (hj k)]
  have e4 : mctsHssEc t = mctsHssEc t' := by
    unfold mctsHssEc
    rw [firstCell_perm hc hp _ hn, firstCell_perm hc hp _ he, e2, e3]
  unfold mctcAggregate
  rw [e1, e4]

/-- Columns of a table that can hold three categories. -/
def mctcCols3 : List String :=
  ["n_cat", "ec_value", "i_value_0", "j_value_0", "fi_oj_0", "i_value_1", "j_value_1", "fi_oj_1",
   "i_value_2", "j_value_2", "fi_oj_2", "i_value_3", "j_value_3", "fi_oj_3",
   "i_value_4", "j_value_4", "fi_oj_4", "i_value_5", "j_value_5", "fi_oj_5",
   "i_value_6", "j_value_6", "fi_oj_6", "i_value_7", "j_value_7", "fi_oj_7",
   "i_value_8", "j_value_8", "fi_oj_8"]

/-- Two categories, perfect forecast: 5 and 5 on the diagonal. -/
def mctcLine2 : List Cell :=
  [some 2, some (1 / 2), some 1, some 1, some 5, some 1, some 2, some 0, some 2, some 1, some 0,
   some 2, some 2, some 5] ++ List.replicate 15 none

/-- Three categories, perfect forecast: 4, 3 and 3 on the diagonal. -/
def mctcLine3 : List Cell :=
  [some 3, some (1 / 2), some 1, some 1, some 4, some 1, some 2, some 0, some 1, some 3, some 0,
   some 2, some 1, some 0, some 2, some 2, some 3, some 2, some 3, some 0, some 3, some 1, some 0,
   some 3, some 2, some 0, some 3, some 3, some 3]

/-- C175 fails when the numbers of categories differ: two lines, both of a perfect forecast, are pooled
without complaint; with the two-category line first the score is 1, in the other order it is 1/2, because
the counts of one line are added to those of other pairs of categories in the other. -/
theorem C175_categories_counterexample :
    mctcAggregate ⟨mctcCols3, [mctcLine2, mctcLine3]⟩ = .ok (some 1) ∧
    mctcAggregate ⟨mctcCols3, [mctcLine3, mctcLine2]⟩ = .ok (some (1 / 2)) := by
  constructor <;> decide +kernel

/- Non-vacuity. -/
example : mctcAggregate mctcTable = .ok (some (roundHalfUp (11 / 17) 7)) := by
  rw [C174_value _ _ _ _ mctc_data ⟨2, 1, by decide, by decide, by decide +kernel⟩]; decide +kernel

theorem mctcTable_same (name : String) (h : ∀ k ∈ ["fi_oj_0", "fi_oj_2", "fi_oj_3"], k ≠ name) :
    SameInAllLines mctcTable name := by
  intro i hi r hr s hs
  have hlt : i < 14 := (List.getElem?_eq_some_iff.mp hi).1
  have key : ∀ i < 14, (∃ k ∈ ["fi_oj_0", "fi_oj_2", "fi_oj_3"], mctcTable.cols[i]? = some k) ∨
      ∀ r ∈ mctcTable.rows, ∀ s ∈ mctcTable.rows, r[i]? = s[i]? := by decide +kernel
  rcases key i hlt with ⟨k, hk, he⟩ | H
  · rw [he] at hi
    exact absurd (Option.some.inj hi) (h k hk)
  · exact H r hr s hs

theorem fioj_ne (p s : String) (h : p.toList.head? = some 'i' ∨ p.toList.head? = some 'j') :
    ∀ k ∈ ["fi_oj_0", "fi_oj_2", "fi_oj_3"], k ≠ p ++ s := by
  intro k hk he
  have h1 : k.toList.head? = some 'f' := by
    simp only [List.mem_cons, List.not_mem_nil, or_false] at hk
    rcases hk with rfl | rfl | rfl <;> decide +kernel
  rw [he, String.toList_append, List.head?_append] at h1
  rcases h with h | h <;> rw [h] at h1 <;> simp at h1

example : mctcAggregate mctcTable = mctcAggregate { mctcTable with rows := mctcTable.rows.reverse } :=
  C175_order_partial _ _ rfl (List.reverse_perm _).symm
    (by unfold WellFormed; decide) (mctcTable_same _ (by decide)) (mctcTable_same _ (by decide))
    (fun _ => mctcTable_same _ (fioj_ne _ _ (Or.inl (by decide +kernel))))
    (fun _ => mctcTable_same _ (fioj_ne _ _ (Or.inr (by decide +kernel))))

/-- Two lines, the second without expected-correct value; and two lines both without. -/
example : mctcAggregate ⟨["ec_value"], [[some (1 / 2)], [none]]⟩ = .error .valueError ∧
    mctcAggregate ⟨["ec_value"], [[none], [none]]⟩ = .error .valueError := by decide +kernel

end Metcalcpy.Props
