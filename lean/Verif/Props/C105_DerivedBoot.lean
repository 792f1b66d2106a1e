/-
C105  The bootstrap of a derived curve resamples both series at the same cases (partial).
C106  Confidence limits are those for the requested alpha (false for plain series).
-/
import Verif.Model.AggBoot
import Verif.Spec.AggBoot
import Verif.Spec.Derived
import Verif.Props.C27_Bootstrap
import Verif.Props.C30_Interval
import Verif.Props.C102_DerivedPoints

namespace Metcalcpy.Props
open Metcalcpy Spec

/-! ### Sorting -/

/-- The key of a value. -/
def keyOfValue : Option (ℚ ⊕ String) → ℕ ×ₗ ℚ ×ₗ String
  | some (.inl q) => toLex (0, toLex (q, ""))
  | some (.inr s) => toLex (1, toLex (0, s))
  | none => toLex (2, toLex (0, ""))

theorem valKey_eq (v : Val) : valKey v = keyOfValue (cellValue v) := by cases v <;> rfl

theorem keyOfValue_inj : Function.Injective keyOfValue := by
  intro a b h
  rcases a with _ | (a | a) <;> rcases b with _ | (b | b) <;> simp [keyOfValue] at h ⊢ <;> exact h

/-- The key of a case. -/
def keyOfCase (c : Option (ℚ ⊕ String) × Option (ℚ ⊕ String)) :
    (ℕ ×ₗ ℚ ×ₗ String) ×ₗ (ℕ ×ₗ ℚ ×ₗ String) := toLex (keyOfValue c.1, keyOfValue c.2)

theorem keyOfCase_inj : Function.Injective keyOfCase := by
  rintro ⟨a, b⟩ ⟨c, d⟩ h
  simp only [keyOfCase, EmbeddingLike.apply_eq_iff_eq, Prod.mk.injEq] at h
  rw [keyOfValue_inj h.1, keyOfValue_inj h.2]

theorem idx?_eq_idxOf {f : Frame} {name : String} {i : ℕ} (h : f.idx? name = some i) :
    i = f.cols.idxOf name ∧ name ∈ f.cols := by
  unfold Frame.idx? at h
  rw [List.findIdx?_eq_some_iff_getElem] at h
  obtain ⟨hi, h1, h2⟩ := h
  have hname : f.cols[i] = name := by simpa using h1
  refine ⟨?_, hname ▸ List.getElem_mem hi⟩
  unfold List.idxOf
  symm
  rw [List.findIdx_eq hi]
  exact ⟨h1, fun j hj => by simpa using h2 j hj⟩

theorem col_ok {f : Frame} {name : String} {i : ℕ} (h : f.col name = .ok i) : f.idx? name = some i := by
  unfold Frame.col at h
  cases hi : f.idx? name with
  | none => rw [hi] at h; simp at h
  | some j => rw [hi] at h; simpa using h

theorem sortTime_eq (f : Frame) : sortTime f.cols = timeColumn f := by
  unfold sortTime timeColumn
  simp only [List.find?_cons, List.find?_nil]
  by_cases h1 : "fcst_valid_beg" ∈ f.cols
  · simp [h1]
  · by_cases h2 : "fcst_valid" ∈ f.cols
    · simp [h1, h2]
    · by_cases h3 : "fcst_init_beg" ∈ f.cols
      · simp [h1, h2, h3]
      · simp [h1, h2, h3]

/-- Sorting permutes the rows and sorts the cases. -/
theorem sortData_spec {f : Frame} {rows data : List (List Val)} (h : sortData f rows = .ok data) :
    data.Perm rows ∧ (data.map (fun r => keyOfCase (caseOf f r))).Pairwise (· ≤ ·) := by
  unfold sortData at h
  simp only [bind, Except.bind] at h
  cases hi : f.col (sortTime f.cols) with
  | error e => rw [hi] at h; simp at h
  | ok i =>
    rw [hi] at h
    cases hj : f.col "fcst_lead" with
    | error e => rw [hj] at h; simp at h
    | ok j =>
      rw [hj] at h
      simp only [Except.ok.injEq] at h
      obtain ⟨ei, -⟩ := idx?_eq_idxOf (col_ok hi)
      obtain ⟨ej, -⟩ := idx?_eq_idxOf (col_ok hj)
      rw [sortTime_eq] at ei
      subst h
      refine ⟨List.perm_insertionSort _ _, ?_⟩
      rw [List.pairwise_map]
      have hs := List.pairwise_insertionSort (r := fun a b : List Val =>
        sortKey i j (f.idx? "stat_name") a ≤ sortKey i j (f.idx? "stat_name") b) rows
      refine hs.imp ?_
      intro a b hab
      unfold sortKey at hab
      unfold keyOfCase caseOf
      simp only
      rw [← ei, ← ej, ← valKey_eq, ← valKey_eq, ← valKey_eq, ← valKey_eq]
      rw [Prod.Lex.toLex_le_toLex] at hab ⊢
      rcases hab with h | ⟨h1, h2⟩
      · exact Or.inl h
      · refine Or.inr ⟨h1, ?_⟩
        rw [Prod.Lex.toLex_le_toLex] at h2
        rcases h2 with h | ⟨h, -⟩
        · exact h.le
        · exact h.le

theorem sorted_cases {f : Frame} {rows₁ rows₂ a₁ a₂ : List (List Val)} (h₁ : sortData f rows₁ = .ok a₁)
    (h₂ : sortData f rows₂ = .ok a₂) (hp : (rows₁.map (caseOf f)).Perm (rows₂.map (caseOf f))) :
    a₁.map (caseOf f) = a₂.map (caseOf f) := by
  obtain ⟨p₁, s₁⟩ := sortData_spec h₁
  obtain ⟨p₂, s₂⟩ := sortData_spec h₂
  apply List.map_injective_iff.mpr keyOfCase_inj
  rw [List.map_map, List.map_map]
  have hp' : (a₁.map (keyOfCase ∘ caseOf f)).Perm (a₂.map (keyOfCase ∘ caseOf f)) := by
    rw [← List.map_map, ← List.map_map]
    exact ((p₁.map (caseOf f)).trans (hp.trans (p₂.map (caseOf f)).symm)).map _
  exact hp'.eq_of_pairwise' s₁ s₂

/-! ### Joined rows -/

theorem half_of_join {a b : List Val} {op : Val} (h : a.length = b.length) :
    firstHalf (a ++ b ++ [op]) = a ∧ secondHalf (a ++ b ++ [op]) = b := by
  have e : ((a ++ b ++ [op]).length - 1) / 2 = a.length := by simp; omega
  have e' : (a ++ b ++ [op]).length - 1 = (a ++ b).length := by simp
  unfold firstHalf secondHalf
  constructor
  · rw [e, List.append_assoc, List.take_left']; rfl
  · rw [e, e', List.take_left' rfl, List.drop_left' rfl]

theorem join_halves {op : String} {w : ℕ} {a₁ a₂ both : List (List Val)} (h : joinSeries op a₁ a₂ = .ok both)
    (h₁ : ∀ r ∈ a₁, r.length = w) (h₂ : ∀ r ∈ a₂, r.length = w) :
    a₁.length = a₂.length ∧ both.map firstHalf = a₁ ∧ both.map secondHalf = a₂ ∧
      ∀ r ∈ both, r.getLast? = some (.str op) := by
  unfold joinSeries at h
  split at h
  · next hl =>
    simp only [Except.ok.injEq] at h
    subst h
    refine ⟨hl, ?_⟩
    induction a₁ generalizing a₂ with
    | nil => cases a₂ with
      | nil => simp
      | cons b a₂ => simp at hl
    | cons a a₁ ih => cases a₂ with
      | nil => simp at hl
      | cons b a₂ =>
        obtain ⟨i1, i2, i3⟩ := ih (a₂ := a₂) (fun r hr => h₁ r (by simp [hr])) (fun r hr => h₂ r (by simp [hr]))
          (by simpa using hl)
        have hab : a.length = b.length := by rw [h₁ a (by simp), h₂ b (by simp)]
        obtain ⟨e1, e2⟩ := half_of_join (op := .str op) hab
        simp only [List.zipWith_cons_cons, List.map_cons, e1, e2, i1, i2, true_and]
        intro r hr
        rcases List.mem_cons.mp hr with rfl | hr
        · simp
        · exact i3 r hr
  · simp at h

theorem pick_map {α β : Type} (g : α → β) (a : List α) (K : List ℕ) : (pick a K).map g = pick (a.map g) K := by
  unfold pick
  rw [List.map_filterMap]
  congr 1
  funext i
  simp

theorem pick_mem {α : Type} {a : List α} {K : List ℕ} {x : α} (h : x ∈ pick a K) : x ∈ a := by
  unfold pick at h
  obtain ⟨i, -, hi⟩ := List.mem_filterMap.mp h
  exact List.mem_of_getElem? hi

theorem takeIdx_pick {α : Type} (a : List α) (K : List ℕ) (h : ∀ i ∈ K, i < a.length) :
    takeIdx a K = .ok (pick a K) := by
  unfold takeIdx pick
  induction K with
  | nil => rfl
  | cons i K ih =>
    have hi := h i (by simp)
    rw [List.mapM_cons, ih (fun j hj => h j (by simp [hj]))]
    simp [List.getElem?_eq_getElem hi]
    rfl

theorem generate_pick {α : Type} (a : List α) (L k : ℕ) (ids : List (List ℕ)) (h : IndexMatrix a.length k ids) :
    generateDistributions a L ids = .ok (ids.map (fun row => pick a (positionsUsed L row))) := by
  unfold generateDistributions
  by_cases hL : 1 < L
  · rw [if_pos hL]
    have e : ids.map (fun row => pick a (positionsUsed L row)) = (ids.map (applyCbb L)).map (pick a) := by
      rw [List.map_map]
      apply List.map_congr_left
      intro row hrow
      obtain ⟨h1, h2⟩ := h.2 row hrow
      have h2' : ∀ x ∈ row, x < row.length := by rw [h1]; exact h2
      obtain ⟨l, g⟩ := C27_indices row L (by omega) h2'
      have : applyCbb L row = (List.range row.length).map (blockIndex row L) := by
        apply List.ext_getElem?
        intro i
        by_cases hi : i < row.length
        · rw [g i hi]; simp [hi]
        · rw [List.getElem?_eq_none (by omega), List.getElem?_eq_none (by simp; omega)]
      simp [positionsUsed, hL, this]
    rw [e]
    apply mapM_except_ok
    intro row hrow
    obtain ⟨r, hr, rfl⟩ := List.mem_map.mp hrow
    obtain ⟨h1, h2⟩ := h.2 r hr
    have h2' : ∀ x ∈ r, x < r.length := by rw [h1]; exact h2
    apply takeIdx_pick
    rw [← h1]
    exact (C27_consecutive r L (by omega) h2').1
  · rw [if_neg hL]
    have e : ids.map (fun row => pick a (positionsUsed L row)) = ids.map (pick a) := by simp [positionsUsed, hL]
    rw [e]
    apply mapM_except_ok
    intro row hrow
    exact takeIdx_pick a row (h.2 row hrow).2

/-- The operations of a derived curve that are computed from the statistics of both series. -/
def ValueOperation (op : String) : Prop := op = "DIFF" ∨ op = "DIFF_SIG" ∨ op = "RATIO" ∨ op = "SS" ∨ op = "SINGLE"

theorem derived_single (etb : List PyNum → List PyNum → PyNum) (op : String) (hop : ValueOperation op) (x y : PyNum) :
    ∀ z, z = (match calcDerivedCurveValue etb (some [x]) (some [y]) op with
      | some (.inl (x :: _)) => x
      | some (.inr x) => x
      | _ => PyNum.none) →
    (∀ a b, x = .num a → y = .num b → z.cell = derivedOf (if op = "DIFF_SIG" then "DIFF" else op) a b) ∧
      (x = .none ∨ y = .none → z.cell = none) := by
  intro z hz
  constructor
  · rintro a b rfl rfl
    subst hz
    rcases hop with rfl | rfl | rfl | rfl | rfl
    · simp [calcDerivedCurveValue, derivedOf, PyNum.arith, PyNum.cell]
    · simp [calcDerivedCurveValue, derivedOf, PyNum.arith, PyNum.cell]
    · by_cases hb : b = 0
      · subst hb; simp [calcDerivedCurveValue, derivedOf, PyNum.cell]
      · have : (PyNum.num 0 == PyNum.num b) = false := by simpa using fun h => hb h.symm
        simp [calcDerivedCurveValue, derivedOf, PyNum.arith, PyNum.cell, hb, this, Ne.symm hb]
    · by_cases ha : a = 0
      · subst ha; simp [calcDerivedCurveValue, derivedOf, PyNum.cell]
      · simp [calcDerivedCurveValue, derivedOf, PyNum.arith, PyNum.cell, ha, Ne.symm ha]
    · simp [calcDerivedCurveValue, derivedOf, PyNum.cell]
  · intro h
    subst hz
    rcases h with rfl | rfl <;> simp [calcDerivedCurveValue, PyNum.cell]

theorem rowStat_ok {f : Frame} {rows : List (List Val)} {s : String} (hc : "stat_name" ∈ f.cols) (hne : rows ≠ [])
    (h : ∀ r ∈ rows, cellAt r (f.cols.idxOf "stat_name") = .str s) : rowStat f rows = .ok (lower s) := by
  unfold rowStat
  have : ∃ i, f.idx? "stat_name" = some i := by
    unfold Frame.idx?
    cases hi : f.cols.findIdx? (· == "stat_name") with
    | none => rw [List.findIdx?_eq_none_iff] at hi; simpa using hi _ hc
    | some i => exact ⟨i, rfl⟩
  obtain ⟨i, hi⟩ := this
  rw [hi]
  cases rows with
  | nil => exact absurd rfl hne
  | cons r rows =>
    simp only
    rw [(idx?_eq_idxOf hi).1, h r (by simp)]

/-- One evaluation of the derived statistic. -/
theorem calcStatsDerived_eq {statOf : String → List (List Val) → Except PyErr PyNum}
    {etb : List PyNum → List PyNum → PyNum} {f : Frame} {op s₁ s₂ : String} {rows xs ys : List (List Val)}
    (hop : ValueOperation op) (hc : "stat_name" ∈ f.cols) (hne : rows ≠ []) (hx : rows.map firstHalf = xs)
    (hy : rows.map secondHalf = ys) (hl : ∀ r ∈ rows, r.getLast? = some (.str op))
    (h₁ : ∀ r ∈ xs, cellAt r (f.cols.idxOf "stat_name") = .str s₁)
    (h₂ : ∀ r ∈ ys, cellAt r (f.cols.idxOf "stat_name") = .str s₂) :
    (∀ z, calcStatsDerived statOf etb f rows = .ok z → IsDerived statOf op (lower s₁) (lower s₂) xs ys z.cell) ∧
    (∀ e, calcStatsDerived statOf etb f rows = .error e →
      statOf (lower s₁) xs = .error e ∨ statOf (lower s₂) ys = .error e) := by
  have e1 := rowStat_ok hc (by rw [← hx]; simpa using hne) h₁
  have e2 := rowStat_ok hc (by rw [← hy]; simpa using hne) h₂
  unfold calcStatsDerived
  rw [hx, hy]
  simp only [e1, e2, bind, Except.bind]
  cases hs1 : statOf (lower s₁) xs with
  | error e => exact ⟨fun z h => (by simp at h), fun e' h => Or.inl (by simp at h; rw [h])⟩
  | ok x =>
    simp only
    cases hs2 : statOf (lower s₂) ys with
    | error e => exact ⟨fun z h => (by simp at h), fun e' h => Or.inr (by simp at h; rw [h])⟩
    | ok y =>
      simp only
      cases rows with
      | nil => exact absurd rfl hne
      | cons r rows =>
        simp only [hl r (by simp)]
        refine ⟨fun z h => ?_, fun e h => (by simp at h)⟩
        simp only [Except.ok.injEq] at h
        exact ⟨x, y, hs1, hs2, derived_single etb op hop x y z h.symm⟩

theorem mapM_error {α β : Type} (g : α → Except PyErr β) {e : PyErr} : ∀ {l : List α}, l.mapM g = .error e →
    ∃ x ∈ l, g x = .error e
  | [], h => by cases h
  | x :: l, h => by
    rw [List.mapM_cons] at h
    simp only [bind, Except.bind, pure, Except.pure] at h
    cases hx : g x with
    | error e' => rw [hx] at h; simp at h; exact ⟨x, by simp, by rw [hx, h]⟩
    | ok y =>
      rw [hx] at h
      cases hl : l.mapM g with
      | error e' =>
        rw [hl] at h
        simp at h
        obtain ⟨z, hz, e⟩ := mapM_error g (hl.trans (by rw [h]))
        exact ⟨z, by simp [hz], e⟩
      | ok ys => rw [hl] at h; simp at h

theorem mapM_forall₂ {α β : Type} (g : α → Except PyErr β) : ∀ {l : List α} {r : List β}, l.mapM g = .ok r →
    List.Forall₂ (fun x y => g x = .ok y) l r
  | [], r, h => by cases h; exact .nil
  | x :: l, r, h => by
    rw [List.mapM_cons] at h
    simp only [bind, Except.bind, pure, Except.pure] at h
    cases hx : g x with
    | error e' => rw [hx] at h; simp at h
    | ok y =>
      rw [hx] at h
      cases hl : l.mapM g with
      | error e' => rw [hl] at h; simp at h
      | ok ys =>
        rw [hl] at h
        simp at h
        subst h
        exact .cons hx (mapM_forall₂ g hl)

theorem forall₂_imp_left {α β : Type*} {R S : α → β → Prop} {l : List α} {l' : List β} (h : List.Forall₂ R l l')
    (hi : ∀ a b, a ∈ l → R a b → S a b) : List.Forall₂ S l l' := by
  induction h with
  | nil => exact .nil
  | cons hr _ ih => exact .cons (hi _ _ (by simp) hr) (ih (fun a b ha => hi a b (by simp [ha])))

theorem percentile_not_keyError (xs : List ℚ) (q : ℚ) : percentile xs q ≠ .error .keyError := by
  unfold percentile
  split
  · simp
  · simp only
    split <;> simp

theorem ci_not_keyError (dist : List Cell) (v : Option ℚ) (alpha : ℚ) (m : CiMethod) :
    confidenceInterval dist v alpha m ≠ .error .keyError := by
  have hc : ∀ q, percentileCells dist q ≠ .error .keyError := by
    intro q
    unfold percentileCells
    split
    · simp
    · exact percentile_not_keyError _ _
  intro h
  unfold confidenceInterval at h
  cases v with
  | none => simp at h
  | some v =>
    cases m with
    | other => simp at h
    | pivotal =>
      simp only [bind, Except.bind] at h
      cases h1 : percentileCells dist (1 - alpha / 2) with
      | error e => rw [h1] at h; simp at h; exact hc _ (h1.trans (by rw [h]))
      | ok hi =>
        rw [h1] at h
        cases h2 : percentileCells dist (alpha / 2) with
        | error e => rw [h2] at h; simp at h; exact hc _ (h2.trans (by rw [h]))
        | ok lo => rw [h2] at h; simp at h
    | perc =>
      simp only [bind, Except.bind] at h
      split at h
      · simp at h
      · cases h1 : percentile (dist.filterMap id) (alpha / 2) with
        | error e => rw [h1] at h; simp at h; exact percentile_not_keyError _ _ (h1.trans (by rw [h]))
        | ok lo =>
          rw [h1] at h
          cases h2 : percentile (dist.filterMap id) (1 - alpha / 2) with
          | error e => rw [h2] at h; simp at h; exact percentile_not_keyError _ _ (h2.trans (by rw [h]))
          | ok hi => rw [h2] at h; simp at h

theorem sortData_len {f : Frame} {rows data : List (List Val)} (h : sortData f rows = .ok data) :
    data.length = rows.length := (sortData_spec h).1.length_eq

theorem positions_length {L : ℕ} {row : List ℕ} : (positionsUsed L row).length = row.length := by
  unfold positionsUsed; split <;> simp

theorem positions_lt {L n : ℕ} {row : List ℕ} (h : row.length = n) (h' : ∀ i ∈ row, i < n) :
    ∀ i ∈ positionsUsed L row, i < n := by
  intro i hi
  unfold positionsUsed at hi
  split at hi
  · obtain ⟨j, hj, rfl⟩ := List.mem_map.mp hi
    rw [List.mem_range] at hj
    unfold blockIndex
    rw [← h]
    exact Nat.mod_lt _ (by omega)
  · exact h' i hi

/-- C105 (partial): when both series have the same cases, in every replicate of the bootstrap of a derived curve both
series are evaluated at the same positions of row lists that agree case by case; the value and every replicate are the
derived value of the two statistics, and the interval is that of the requested method for the requested alpha. -/
theorem C105_same_cases_partial (statOf : String → List (List Val) → Except PyErr PyNum)
    (etb : List PyNum → List PyNum → PyNum) (s : BootSettings) (f : Frame) (op : String)
    (rows₁ rows₂ : List (List Val)) (ids : List (List ℕ)) (s₁ s₂ : String) (k : ℕ) (res : BootResult)
    (hop : ValueOperation op) (hc : "stat_name" ∈ f.cols) (hne : rows₁ ≠ [])
    (hw : ∀ r ∈ rows₁ ++ rows₂, r.length = f.cols.length)
    (hs₁ : ∀ r ∈ rows₁, cellAt r (f.cols.idxOf "stat_name") = .str s₁)
    (hs₂ : ∀ r ∈ rows₂, cellAt r (f.cols.idxOf "stat_name") = .str s₂)
    (hcases : (rows₁.map (caseOf f)).Perm (rows₂.map (caseOf f)))
    (hids : IndexMatrix rows₁.length k ids)
    (hkey₁ : ∀ zs, zs ≠ [] → (∀ r ∈ zs, r ∈ rows₁) → statOf (lower s₁) zs ≠ .error .keyError)
    (hkey₂ : ∀ zs, zs ≠ [] → (∀ r ∈ zs, r ∈ rows₂) → statOf (lower s₂) zs ≠ .error .keyError)
    (h : derivedBoot statOf etb s f op rows₁ rows₂ ids = .ok res) :
    ∃ a₁ a₂, a₁.Perm rows₁ ∧ a₂.Perm rows₂ ∧ a₁.map (caseOf f) = a₂.map (caseOf f) ∧
      ∃ v dist, IsDerived statOf op (lower s₁) (lower s₂) a₁ a₂ v ∧
        List.Forall₂ (fun row z => ∃ K, K = positionsUsed (if s.cbb then Nat.sqrt rows₁.length else 1) row ∧
          K.length = rows₁.length ∧ (∀ i ∈ K, i < rows₁.length) ∧
          IsDerived statOf op (lower s₁) (lower s₂) (pick a₁ K) (pick a₂ K) z) ids dist ∧
        confidenceInterval dist v s.alpha s.method = .ok res := by
  unfold derivedBoot at h
  simp only [bind, Except.bind] at h
  cases h1 : sortData f rows₁ with
  | error e => rw [h1] at h; simp at h
  | ok a₁ =>
    rw [h1] at h
    cases h2 : sortData f rows₂ with
    | error e => rw [h2] at h; simp at h
    | ok a₂ =>
      rw [h2] at h
      simp only at h
      cases h3 : joinSeries op a₁ a₂ with
      | error e => rw [h3] at h; simp at h
      | ok both =>
        rw [h3] at h
        simp only at h
        have p₁ := (sortData_spec h1).1
        have p₂ := (sortData_spec h2).1
        refine ⟨a₁, a₂, p₁, p₂, sorted_cases h1 h2 hcases, ?_⟩
        obtain ⟨hlen, hf, hs, hlast⟩ := join_halves h3 (w := f.cols.length)
          (fun r hr => hw r (List.mem_append_left _ (p₁.mem_iff.mp hr)))
          (fun r hr => hw r (List.mem_append_right _ (p₂.mem_iff.mp hr)))
        have hbl : both.length = rows₁.length := by
          rw [← p₁.length_eq, ← hf, List.length_map]
        have hm : IndexMatrix both.length k ids := by rw [hbl]; exact hids
        have hpos : ∀ row ∈ ids, ∀ L, (positionsUsed L row).length = rows₁.length ∧
            ∀ i ∈ positionsUsed L row, i < rows₁.length := fun row hr L =>
          ⟨by rw [positions_length, (hids.2 row hr).1], positions_lt (hids.2 row hr).1 (hids.2 row hr).2⟩
        have hn0 : rows₁.length ≠ 0 := by simpa using hne
        rw [generate_pick both _ k ids hm, hbl] at h
        have ev : ∀ rows xs ys, rows ≠ [] → (∀ r ∈ rows, r ∈ both) → (∀ r ∈ xs, r ∈ a₁) → (∀ r ∈ ys, r ∈ a₂) →
            rows.map firstHalf = xs → rows.map secondHalf = ys →
            (∀ z, calcStatsDerived statOf etb f rows = .ok z → IsDerived statOf op (lower s₁) (lower s₂) xs ys z.cell) ∧
            (∀ e, calcStatsDerived statOf etb f rows = .error e → e ≠ .keyError) := by
          intro rows xs ys n m m₁ m₂ e1 e2
          obtain ⟨c1, c2⟩ := calcStatsDerived_eq hop hc n e1 e2 (fun r hr => hlast r (m r hr)) (statOf := statOf) (etb := etb)
            (fun r hr => hs₁ r (p₁.mem_iff.mp (m₁ r hr))) (fun r hr => hs₂ r (p₂.mem_iff.mp (m₂ r hr)))
          refine ⟨c1, ?_⟩
          rintro e he rfl
          rcases c2 _ he with h | h
          · exact hkey₁ xs (by rw [← e1]; simpa using n) (fun r hr => p₁.mem_iff.mp (m₁ r hr)) h
          · exact hkey₂ ys (by rw [← e2]; simpa using n) (fun r hr => p₂.mem_iff.mp (m₂ r hr)) h
        have hbne : both ≠ [] := by
          intro e; rw [e] at hbl; simp at hbl; omega
        obtain ⟨evo, eve⟩ := ev both a₁ a₂ hbne (fun _ h => h) (fun _ h => h) (fun _ h => h) hf hs
        have evp : ∀ row ∈ ids, ∀ L, _ := fun row hr L => ev (pick both (positionsUsed L row))
          (pick a₁ (positionsUsed L row)) (pick a₂ (positionsUsed L row))
          (by
            intro e
            have hl : (pick both (positionsUsed L row)).length = rows₁.length := by
              obtain ⟨i1, i2⟩ := hpos row hr L
              obtain ⟨xs, t1, t2, -⟩ := takeIdx_ok both (positionsUsed L row) (by rw [hbl]; exact i2)
              rw [takeIdx_pick both _ (by rw [hbl]; exact i2)] at t1
              simp only [Except.ok.injEq] at t1
              rw [t1, t2, i1]
            rw [e] at hl; simp at hl; omega)
          (fun r h => pick_mem h) (fun r h => pick_mem h) (fun r h => pick_mem h)
          (by rw [pick_map, hf]) (by rw [pick_map, hs])
        unfold blockLength at h
        generalize (if s.cbb = true then rows₁.length.sqrt else 1) = L at h ⊢
        simp only at h
        cases hv : calcStatsDerived statOf etb f both with
        | error e =>
          rw [hv] at h
          have hz := eve e hv
          cases e <;> first | exact absurd rfl hz | simp [catchKeyError] at h
        | ok v =>
          rw [hv] at h
          simp only at h
          cases hd : (ids.map (fun row => pick both (positionsUsed L row))).mapM (calcStatsDerived statOf etb f) with
          | error e =>
            rw [hd] at h
            obtain ⟨rows, hr, he⟩ := mapM_error _ hd
            obtain ⟨row, hrow, rfl⟩ := List.mem_map.mp hr
            have hz := (evp row hrow L).2 e he
            cases e <;> first | exact absurd rfl hz | simp [catchKeyError] at h
          | ok dist =>
            rw [hd] at h
            simp only at h
            refine ⟨v.cell, dist.map PyNum.cell, evo v hv, ?_, ?_⟩
            · have hf2 := mapM_forall₂ _ hd
              rw [List.forall₂_map_left_iff] at hf2
              rw [List.forall₂_map_right_iff]
              refine forall₂_imp_left hf2 ?_
              intro row z hrow hz
              exact ⟨_, rfl, (hpos row hrow L).1, (hpos row hrow L).2, (evp row hrow L).1 z hz⟩
            · cases hci : confidenceInterval (dist.map PyNum.cell) v.cell s.alpha s.method with
              | error e =>
                rw [hci] at h
                cases e <;> first | exact absurd hci (ci_not_keyError _ _ _ _) | simp [catchKeyError] at h
              | ok r =>
                rw [hci] at h
                simpa [catchKeyError] using h

/-- C105: series with different numbers of rows are refused (ValueError). -/
theorem C105_lengths (statOf : String → List (List Val) → Except PyErr PyNum)
    (etb : List PyNum → List PyNum → PyNum) (s : BootSettings) (f : Frame) (op : String)
    (rows₁ rows₂ : List (List Val)) (ids : List (List ℕ)) (ht : timeColumn f ∈ f.cols) (hl : "fcst_lead" ∈ f.cols)
    (h : rows₁.length ≠ rows₂.length) : derivedBoot statOf etb s f op rows₁ rows₂ ids = .error .valueError := by
  have col : ∀ c ∈ f.cols, ∃ i, f.col c = .ok i := by
    intro c hc
    unfold Frame.col Frame.idx?
    cases hi : f.cols.findIdx? (· == c) with
    | none => rw [List.findIdx?_eq_none_iff] at hi; simpa using hi _ hc
    | some i => exact ⟨i, rfl⟩
  have hst : sortTime f.cols ∈ f.cols := by rw [sortTime_eq]; exact ht
  obtain ⟨i, hi⟩ := col _ hst
  obtain ⟨j, hj⟩ := col _ hl
  have hs : ∀ rows, ∃ data, sortData f rows = .ok data := by
    intro rows
    unfold sortData
    rw [hi, hj]
    exact ⟨_, rfl⟩
  obtain ⟨a₁, e₁⟩ := hs rows₁
  obtain ⟨a₂, e₂⟩ := hs rows₂
  have : a₁.length ≠ a₂.length := by rw [sortData_len e₁, sortData_len e₂]; exact h
  simp [derivedBoot, e₁, e₂, joinSeries, this, bind, Except.bind]

/-! ### Examples -/

/-- A table of two statistics at two times each. -/
def bootFrame : Frame := ⟨["fcst_valid_beg", "fcst_lead", "stat_name", "x"], []⟩
def bootRow (t : String) (x : ℚ) : List Val := [.str t, .num 12 "12", .str "ME", .num x ""]
/-- The mean of the column `x`. -/
def bootMean (_ : String) (rows : List (List Val)) : Except PyErr PyNum :=
  .ok (.num ((rows.map (fun r => match cellAt r 3 with | .num q _ => q | _ => 0)).sum / rows.length))
def bootSet : BootSettings := ⟨1 / 2, .perc, false⟩

/-- The hypotheses of `C105_same_cases_partial` hold for two series whose rows come in different orders, ... -/
example : ((([bootRow "t1" 1, bootRow "t2" 4] : List _).map (caseOf bootFrame)).Perm
    ([bootRow "t2" 10, bootRow "t1" 2].map (caseOf bootFrame))) ∧ "stat_name" ∈ bootFrame.cols ∧
    (∀ r ∈ [bootRow "t1" 1, bootRow "t2" 4], cellAt r (bootFrame.cols.idxOf "stat_name") = .str "ME") ∧
    IndexMatrix 2 3 [[0, 0], [1, 1], [0, 1]] ∧ (∀ st zs, bootMean st zs ≠ .error .keyError) := by
  refine ⟨by decide +kernel, by decide, by decide, ⟨rfl, by decide⟩, fun st zs => by simp [bootMean]⟩
/-- ... and their replicates are the differences at the same time. -/
example : derivedBoot bootMean (fun _ _ => .none) bootSet bootFrame "DIFF" [bootRow "t1" 1, bootRow "t2" 4]
    [bootRow "t2" 10, bootRow "t1" 2] [[0, 0], [1, 1], [0, 1]] =
    .ok ⟨some (-19 / 4), some (-7 / 2), some (-9 / 4)⟩ := by decide +kernel

/-- C105: the claim fails when the two series have the same number of different cases: they are paired silently. -/
theorem C105_counterexample : ∃ (f : Frame) (rows₁ rows₂ : List (List Val)) (s : BootSettings) (ids : List (List ℕ))
    (res : BootResult) (v : ℚ),
    (∀ r₁ ∈ rows₁, ∀ r₂ ∈ rows₂, caseOf f r₁ ≠ caseOf f r₂) ∧ rows₁ ≠ [] ∧
    derivedBoot bootMean (fun _ _ => .none) s f "DIFF" rows₁ rows₂ ids = .ok res ∧ res.value = some v :=
  ⟨bootFrame, [bootRow "t1" 1, bootRow "t2" 4], [bootRow "t3" 2, bootRow "t4" 10], bootSet, [[0, 0], [1, 1], [0, 1]],
    ⟨some (-19 / 4), some (-7 / 2), some (-9 / 4)⟩, -7 / 2, by decide +kernel, by simp, by decide +kernel, rfl⟩

/-! ### C106 -/

/-- C106 (partial): the value of a plain series is the statistic of its rows, the replicates those of resamples of its
rows in case order, and the limits those of the requested method - for alpha = 0.05, whatever alpha is requested. -/
theorem C106_plain_partial (statOf : String → List (List Val) → Except PyErr PyNum) (s : BootSettings) (f : Frame)
    (stat : String) (rows : List (List Val)) (ids : List (List ℕ)) (k : ℕ) (res : BootResult)
    (hids : IndexMatrix rows.length k ids) (hkey : ∀ st zs, statOf st zs ≠ .error .keyError)
    (h : seriesBoot statOf s f stat rows ids = .ok res) :
    ∃ a, a.Perm rows ∧ (a.map (fun r => keyOfCase (caseOf f r))).Pairwise (· ≤ ·) ∧
      ∃ v dist, statOf stat a = .ok v ∧
        List.Forall₂ (fun row z => statOf stat (pick a (positionsUsed (if s.cbb then Nat.sqrt rows.length else 1) row)) =
          .ok z) ids dist ∧
        confidenceInterval (dist.map PyNum.cell) v.cell (1 / 20) s.method = .ok res := by
  unfold seriesBoot at h
  simp only [bind, Except.bind] at h
  cases h1 : sortData f rows with
  | error e => rw [h1] at h; simp at h
  | ok a =>
    rw [h1] at h
    simp only at h
    obtain ⟨p, so⟩ := sortData_spec h1
    refine ⟨a, p, so, ?_⟩
    have hl : a.length = rows.length := p.length_eq
    have hm : IndexMatrix a.length k ids := by rw [hl]; exact hids
    rw [generate_pick a _ k ids hm, hl] at h
    unfold blockLength at h
    generalize (if s.cbb = true then rows.length.sqrt else 1) = L at h ⊢
    cases hv : statOf stat a with
    | error e =>
      rw [hv] at h
      cases e <;> first | exact absurd hv (hkey _ _) | simp [catchKeyError] at h
    | ok v =>
      rw [hv] at h
      simp only at h
      cases hd : (ids.map (fun row => pick a (positionsUsed L row))).mapM (statOf stat) with
      | error e =>
        rw [hd] at h
        obtain ⟨zs, -, hz⟩ := mapM_error _ hd
        cases e <;> first | exact absurd hz (hkey _ _) | simp [catchKeyError] at h
      | ok dist =>
        rw [hd] at h
        simp only at h
        refine ⟨v, dist, rfl, ?_, ?_⟩
        · have hf2 := mapM_forall₂ _ hd
          rwa [List.forall₂_map_left_iff] at hf2
        · cases hci : confidenceInterval (dist.map PyNum.cell) v.cell (1 / 20) s.method with
          | error e =>
            rw [hci] at h
            cases e <;> first | exact absurd hci (ci_not_keyError _ _ _ _) | simp [catchKeyError] at h
          | ok r =>
            rw [hci] at h
            simpa [catchKeyError] using h

example : seriesBoot bootMean ⟨1 / 20, .perc, false⟩ bootFrame "me" [bootRow "t2" 4, bootRow "t1" 1]
    [[0, 0], [1, 1], [0, 1]] = .ok ⟨some (43 / 40), some (5 / 2), some (157 / 40)⟩ := by decide +kernel

/-- C106: the requested alpha has no effect on a plain series. -/
theorem C106_alpha_ignored (statOf : String → List (List Val) → Except PyErr PyNum) (s : BootSettings) (alpha : ℚ)
    (f : Frame) (stat : String) (rows : List (List Val)) (ids : List (List ℕ)) :
    seriesBoot statOf { s with alpha := alpha } f stat rows ids = seriesBoot statOf s f stat rows ids := rfl

/-- C106: a run whose limits are not those for the requested alpha. -/
theorem C106_counterexample : ∃ (s : BootSettings) (f : Frame) (rows : List (List Val)) (ids : List (List ℕ))
    (res : BootResult) (vs : List PyNum) (v : PyNum), IndexMatrix rows.length 3 ids ∧
    seriesBoot bootMean s f "me" rows ids = .ok res ∧ sortData f rows = .ok rows ∧ bootMean "me" rows = .ok v ∧
    ids.mapM (fun row => bootMean "me" (pick rows row)) = .ok vs ∧ s.cbb = false ∧
    confidenceInterval (vs.map PyNum.cell) v.cell s.alpha s.method ≠ .ok res :=
  ⟨bootSet, bootFrame, [bootRow "t1" 1, bootRow "t2" 4], [[0, 0], [1, 1], [0, 1]],
    ⟨some (43 / 40), some (5 / 2), some (157 / 40)⟩, [.num 1, .num 4, .num (5 / 2)], .num (5 / 2),
    ⟨rfl, by decide⟩, by decide +kernel, by decide +kernel, by decide +kernel, by decide +kernel, rfl, by decide +kernel⟩

end Metcalcpy.Props
