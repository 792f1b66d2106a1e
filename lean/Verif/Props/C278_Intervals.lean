/-
C278  Which exception a call with unusable input raises: confidence intervals and checks of derived curves.
-/
import Verif.Props.C278_Errors
import Verif.Props.C105_DerivedBoot
import Verif.Model.DerivedValidate

namespace Metcalcpy.Props
open Metcalcpy

/-! ### Percentiles and intervals -/

/-- A percentile: a fraction outside of [0, 1] is a ValueError, otherwise no values are an IndexError, and nothing else is refused. -/
theorem percentile_error (xs : List ℚ) (q : ℚ) (e : PyErr) :
    percentile xs q = .error e ↔ (e = .valueError ∧ (q < 0 ∨ 1 < q)) ∨ (e = .indexError ∧ 0 ≤ q ∧ q ≤ 1 ∧ xs = []) := by
  by_cases hq : q < 0 ∨ 1 < q
  · unfold percentile
    rw [if_pos hq]
    constructor
    · intro h
      exact Or.inl ⟨(Except.error.inj h).symm, hq⟩
    · rintro (⟨rfl, -⟩ | ⟨-, h0, h1, -⟩)
      · rfl
      · rcases hq with h | h <;> linarith
  · have h0 : 0 ≤ q := by
      by_contra h
      exact hq (Or.inl (by linarith))
    have h1 : q ≤ 1 := by
      by_contra h
      exact hq (Or.inr (by linarith))
    by_cases hx : xs = []
    · subst hx
      unfold percentile
      rw [if_neg hq]
      simp [h0, h1, hq, eq_comm]
    · obtain ⟨_, _, _, _, -, -, -, -, -, -, hv⟩ := percentile_spec xs hx q h0 h1
      rw [hv]
      simp [hq, hx]

/-- C278: the pivotal interval of a bootstrap: a failed replicate is a TypeError; otherwise a level outside of [0, 2] is a ValueError,
and otherwise no replicates at all are an IndexError.  Nothing else is refused. -/
theorem C278_pivotal (dist : List Cell) (v alpha : ℚ) (e : PyErr) :
    confidenceInterval dist (some v) alpha .pivotal = .error e ↔
      (e = .typeError ∧ none ∈ dist) ∨ (e = .valueError ∧ none ∉ dist ∧ (alpha < 0 ∨ 2 < alpha)) ∨
      (e = .indexError ∧ 0 ≤ alpha ∧ alpha ≤ 2 ∧ dist = []) := by
  unfold confidenceInterval percentileCells
  dsimp only
  by_cases hn : none ∈ dist
  · have : dist.any Option.isNone = true := by
      rw [List.any_eq_true]
      exact ⟨none, hn, rfl⟩
    have hd : dist ≠ [] := by rintro rfl; simp at hn
    simp only [this, if_true, bind, Except.bind]
    simp [hn, hd, eq_comm]
  · have : dist.any Option.isNone = false := by
      rw [Bool.eq_false_iff, Ne, List.any_eq_true]
      rintro ⟨c, hc, h⟩
      cases c with
      | none => exact hn hc
      | some _ => simp at h
    have hnil : dist.filterMap id = [] ↔ dist = [] := by
      constructor
      · intro h
        cases dist with
        | nil => rfl
        | cons c cs =>
          cases c with
          | none => simp at hn
          | some q => simp at h
      · rintro rfl
        rfl
    simp only [this, Bool.false_eq_true, if_false]
    have hhi := percentile_error (dist.filterMap id) (1 - alpha / 2)
    have hlo := percentile_error (dist.filterMap id) (alpha / 2)
    rw [hnil] at hhi hlo
    cases h1 : percentile (dist.filterMap id) (1 - alpha / 2) with
    | error e1 =>
      have hh := (hhi e1).mp h1
      simp only [bind, Except.bind]
      constructor
      · intro h
        obtain rfl := Except.error.inj h
        rcases hh with ⟨h, h'⟩ | ⟨h, a, b, c⟩
        · exact Or.inr (Or.inl ⟨h, hn, by rcases h' with h' | h' <;> [right; left] <;> linarith⟩)
        · exact Or.inr (Or.inr ⟨h, by linarith, by linarith, c⟩)
      · rintro (⟨-, h⟩ | ⟨rfl, -, h⟩ | ⟨rfl, a, b, c⟩)
        · exact absurd h hn
        · rcases hh with ⟨h', -⟩ | ⟨-, a, b, -⟩
          · rw [h']
          · rcases h with h | h <;> linarith
        · rcases hh with ⟨-, h'⟩ | ⟨h', -⟩
          · rcases h' with h' | h' <;> linarith
          · rw [h']
    | ok hi =>
      have hno : ∀ e, ¬ ((e = PyErr.valueError ∧ (1 - alpha / 2 < 0 ∨ 1 < 1 - alpha / 2)) ∨
          (e = .indexError ∧ 0 ≤ 1 - alpha / 2 ∧ 1 - alpha / 2 ≤ 1 ∧ dist = [])) := by
        intro e h
        rw [← hhi e, h1] at h
        simp at h
      have hr : ¬ (alpha < 0 ∨ 2 < alpha) := by
        intro h
        exact hno .valueError (Or.inl ⟨rfl, by rcases h with h | h <;> [right; left] <;> linarith⟩)
      push Not at hr
      have hd : dist ≠ [] := fun h => hno .indexError (Or.inr ⟨rfl, by linarith, by linarith, h⟩)
      cases h2 : percentile (dist.filterMap id) (alpha / 2) with
      | error e2 =>
        rcases (hlo e2).mp h2 with ⟨-, h⟩ | ⟨-, -, -, h⟩
        · rcases h with h | h <;> linarith
        · exact absurd h hd
      | ok lo =>
        simp only [bind, Except.bind, reduceCtorEq, false_iff]
        rintro (⟨-, h⟩ | ⟨-, -, h⟩ | ⟨-, -, -, h⟩)
        · exact hn h
        · rcases h with h | h <;> linarith
        · exact hd h

/-- The draws of a resample: a number not below the number of values is an IndexError, and nothing else is refused. -/
theorem C278_resample {α : Type} (values : List α) (row : List ℕ) (e : PyErr) :
    takeIdx values row = .error e ↔ e = .indexError ∧ ∃ i ∈ row, values.length ≤ i := by
  unfold takeIdx
  induction row with
  | nil => simp [pure, Except.pure]
  | cons i is ih =>
    rw [List.mapM_cons]
    cases hi : values[i]? with
    | none =>
      have := List.getElem?_eq_none_iff.mp hi
      simp only [bind, Except.bind]
      constructor
      · intro h
        exact ⟨(Except.error.inj h).symm, i, by simp, this⟩
      · rintro ⟨rfl, -⟩
        rfl
    | some v =>
      have hlt := (List.getElem?_eq_some_iff.mp hi).1
      simp only [bind, Except.bind]
      generalize hg : List.mapM (fun i => match values[i]? with
        | some v => (Except.ok v : Except PyErr α)
        | none => .error .indexError) is = r at ih ⊢
      have : (∃ j ∈ i :: is, values.length ≤ j) ↔ ∃ j ∈ is, values.length ≤ j := by
        simp only [List.mem_cons, exists_eq_or_imp]
        constructor
        · rintro (h | h)
          · omega
          · exact h
        · exact Or.inr
      rw [this, ← ih]
      cases r <;> simp [pure, Except.pure]

/-- The values of the replicates at one cost/loss ratio: no replicates, or one with fewer values, is an IndexError, and nothing else is
refused. -/
theorem C278_eclv_column (bd : List (List Cell)) (i : ℕ) (e : PyErr) :
    eclvColumn bd i = .error e ↔ e = .indexError ∧ (bd = [] ∨ ∃ r ∈ bd, r.length ≤ i) := by
  cases bd with
  | nil => simp [eclvColumn, eq_comm]
  | cons b bs =>
    unfold eclvColumn
    dsimp only
    have hm : ∀ l : List (List Cell), l.mapM (fun r => r[i]?) = none ↔ ∃ r ∈ l, r.length ≤ i := by
      intro l
      induction l with
      | nil => simp
      | cons r rs ih =>
        rw [List.mapM_cons]
        cases hr : r[i]? with
        | none =>
          have := List.getElem?_eq_none_iff.mp hr
          simp [this]
        | some c =>
          have hlt := (List.getElem?_eq_some_iff.mp hr).1
          have h' : ¬ r.length ≤ i := by omega
          cases hrs : rs.mapM (fun r => r[i]?) with
          | none => simp [hrs, ← ih]
          | some cs =>
            rw [hrs] at ih
            simp only [reduceCtorEq, false_iff] at ih
            simp [h', ih]
    cases h : (b :: bs).mapM (fun r => r[i]?) with
    | none =>
      simp only [(hm _).mp h, or_true, and_true]
      exact ⟨fun h => (Except.error.inj h).symm, fun h => by rw [h]⟩
    | some column =>
      have : ¬ ∃ r ∈ b :: bs, r.length ≤ i := by
        rw [← hm, h]
        simp
      simp only [reduceCtorEq, false_iff]
      rintro ⟨-, h | h⟩
      · cases h
      · exact this h

/-- The autocovariance at lag 0 without any value is a ZeroDivisionError; otherwise there is a value. -/
theorem C278_autocovariance (x : List Cell) (lag : ℕ) (m : ℚ) (e : PyErr) :
    autocovariance x lag m = .error e ↔ e = .zeroDivisionError ∧ lag = 0 ∧ ∀ c ∈ x, c = none := by
  unfold autocovariance
  dsimp only
  have key : ((List.range (x.length - 0)).filterMap (acfTerm x 0 m)).length = 0 ↔ ∀ c ∈ x, c = none := by
    rw [List.length_eq_zero_iff, List.filterMap_eq_nil_iff]
    constructor
    · intro h c hc
      obtain ⟨i, hi, rfl⟩ := List.getElem_of_mem hc
      have := h i (List.mem_range.mpr (by omega))
      cases hx : x[i] with
      | none => rfl
      | some q => simp [acfTerm, cellGet, List.getElem?_eq_getElem hi, hx] at this
    · intro h i hi
      have hi' : i < x.length := by simpa using hi
      have := h x[i] (List.getElem_mem hi')
      simp [acfTerm, cellGet, List.getElem?_eq_getElem hi', this]
  by_cases hl : lag = 0
  · subst hl
    simp only [Nat.add_zero]
    by_cases hx : ∀ c ∈ x, c = none
    · rw [if_pos (key.mpr hx)]
      exact ⟨fun h => ⟨(Except.error.inj h).symm, trivial, hx⟩, fun h => by rw [h.1]⟩
    · rw [if_neg fun h => hx (key.mp h)]
      simp only [reduceCtorEq, false_iff]
      exact fun h => hx h.2.2
  · rw [if_neg (by omega)]
    simp [hl]

/-- The check of the cases of a derived curve: a table without the columns of lead, statistic or time is an IndexError, otherwise the only
refusal is the NameError for cases that are not unique. -/
theorem C278_derived (cols : List String) (rows : List (List Val)) (n : ℕ) (e : PyErr) (h : validateSeries cols rows n = .error e) :
    (e = .indexError ∧ ("fcst_lead" ∉ cols ∨ "stat_name" ∉ cols ∨ validColumn cols ∉ cols)) ∨
      (e = .nameError ∧ "fcst_lead" ∈ cols ∧ "stat_name" ∈ cols ∧ validColumn cols ∈ cols) := by
  have hc : ∀ name, (∃ i, columnIndex cols name = .ok i ∧ name ∈ cols) ∨ (columnIndex cols name = .error .indexError ∧ name ∉ cols) := by
    intro name
    unfold columnIndex
    cases hf : cols.findIdx? (· == name) with
    | none =>
      rw [List.findIdx?_eq_none_iff] at hf
      refine Or.inr ⟨rfl, fun hm => ?_⟩
      have := hf name hm
      simp at this
    | some i =>
      rw [List.findIdx?_eq_some_iff_getElem] at hf
      obtain ⟨hi, hb, -⟩ := hf
      refine Or.inl ⟨i, rfl, ?_⟩
      rw [← eq_of_beq hb]
      exact List.getElem_mem hi
  unfold validateSeries at h
  rcases hc "fcst_lead" with ⟨l, hl, hl'⟩ | ⟨hl, hl'⟩
  · rcases hc "stat_name" with ⟨s, hs, hs'⟩ | ⟨hs, hs'⟩
    · rcases hc (validColumn cols) with ⟨v, hv, hv'⟩ | ⟨hv, hv'⟩
      · simp only [hl, hs, hv, bind, Except.bind] at h
        split at h
        · exact Or.inr ⟨(Except.error.inj h).symm, hl', hs', hv'⟩
        · simp at h
      · simp only [hl, hs, hv, bind, Except.bind] at h
        exact Or.inl ⟨(Except.error.inj h).symm, Or.inr (Or.inr hv')⟩
    · simp only [hl, hs, bind, Except.bind] at h
      exact Or.inl ⟨(Except.error.inj h).symm, Or.inr (Or.inl hs')⟩
  · simp only [hl, bind, Except.bind] at h
    exact Or.inl ⟨(Except.error.inj h).symm, Or.inl hl'⟩

/-- A derived value without any rows is an IndexError. -/
theorem C278_derived_rows (statOf : String → List (List Val) → Except PyErr PyNum) (etb : List PyNum → List PyNum → PyNum) (f : Frame) :
    calcStatsDerived statOf etb f [] = .error .indexError := by
  unfold calcStatsDerived
  have h : rowStat f [] = .error .indexError := by
    unfold rowStat
    cases f.idx? "stat_name" <;> rfl
  simp only [List.map_nil, h, bind, Except.bind]

/-- One failed replicate; a level given in percent; a draw beyond the values; a table without leads. -/
example : confidenceInterval [some 1, none] (some 1) (1 / 20) .pivotal = .error .typeError ∧
    confidenceInterval [some 1, some 2] (some 1) 5 .pivotal = .error .valueError ∧
    takeIdx [1, 2] [0, 2] = .error .indexError ∧ eclvColumn [[some 1, none], [some 2]] 1 = .error .indexError ∧
    autocovariance [none, none] 0 0 = .error .zeroDivisionError ∧ validateSeries ["stat_name"] [] 1 = .error .indexError := by
  refine ⟨?_, ?_, by decide, by decide, ?_, by decide⟩
  · rw [C278_pivotal]
    simp
  · rw [C278_pivotal]
    exact Or.inr (Or.inl ⟨rfl, by simp, by norm_num⟩)
  · rw [C278_autocovariance]
    simp

end Metcalcpy.Props
