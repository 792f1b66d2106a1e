/-
C52  Derived curves are refused exactly when a case has several values.
-/
import Verif.Model.DerivedValidate
import Verif.Lemmas.Frame
import Mathlib.Data.Finset.Card
import Mathlib.Data.List.Dedup
import Mathlib.Tactic.FieldSimp
import Mathlib.Tactic.NormNum

namespace Metcalcpy.Props
open Metcalcpy Spec

/-- The time column of a derived curve: the first of these that exists. -/
def IsTimeColumn (cols : List String) (name : String) : Prop :=
  ∃ before after, ["fcst_valid_beg", "fcst_valid", "fcst_init_beg", "fcst_init"] = before ++ name :: after ∧
    name ∈ cols ∧ ∀ b ∈ before, b ∉ cols

/-- Two rows have the same (valid, lead, statistic): same texts, or equal numbers. -/
def SameCell (a b : Val) : Prop := a = b ∨ ∃ q t t', a = .num q t ∧ b = .num q t'

/-- A numbering of the cases: two rows get the same number exactly when they agree in time, lead and statistic. -/
def IsCaseNumbering (f : Frame) (time : String) (num : List Val → ℕ) : Prop :=
  ∀ r ∈ f.rows, ∀ r' ∈ f.rows, num r = num r' ↔
    ∀ c ∈ [time, "fcst_lead", "stat_name"], ∀ a b, HasCell f r c a → HasCell f r' c b → SameCell a b

theorem sameCell_iff (a b : Val) : SameCell a b ↔ a.tupleCell = b.tupleCell := by
  unfold SameCell
  cases a <;> cases b <;> simp [Val.tupleCell]
  tauto

theorem validColumn_of {cols : List String} {name : String} (h : IsTimeColumn cols name) :
    validColumn cols = name := by
  obtain ⟨before, after, e, h1, h2⟩ := h
  unfold validColumn
  rcases before with _ | ⟨b1, before⟩
  · simp only [List.nil_append, List.cons.injEq] at e
    rw [e.1, if_pos h1]
  · simp only [List.cons_append, List.cons.injEq] at e
    obtain ⟨rfl, e⟩ := e
    rw [if_neg (h2 _ (by simp))]
    rcases before with _ | ⟨b2, before⟩
    · simp only [List.nil_append, List.cons.injEq] at e
      rw [e.1, if_pos h1]
    · simp only [List.cons_append, List.cons.injEq] at e
      obtain ⟨rfl, e⟩ := e
      rw [if_neg (h2 _ (by simp))]
      rcases before with _ | ⟨b3, before⟩
      · simp only [List.nil_append, List.cons.injEq] at e
        rw [e.1, if_pos h1]
      · simp only [List.cons_append, List.cons.injEq] at e
        obtain ⟨rfl, e⟩ := e
        rw [if_neg (h2 _ (by simp))]
        rcases before with _ | ⟨b4, before⟩
        · simp only [List.nil_append, List.cons.injEq] at e
          exact e.1
        · simp at e

theorem columnIndex_of_mem {f : Frame} {name : String} (h : name ∈ f.cols) :
    ∃ i, columnIndex f.cols name = .ok i ∧ f.idx? name = some i := by
  obtain ⟨i, hi⟩ := Frame.idx?_of_mem h
  refine ⟨i, ?_, hi⟩
  unfold columnIndex
  unfold Frame.idx? at hi
  rw [hi]

/-- Lists with the same equalities have the same number of distinct values. -/
theorem dedup_length_of_iff {α β γ : Type*} [DecidableEq β] [DecidableEq γ] (l : List α) (g : α → β) (h : α → γ)
    (hiff : ∀ a ∈ l, ∀ b ∈ l, g a = g b ↔ h a = h b) : (l.map g).dedup.length = (l.map h).dedup.length := by
  induction l with
  | nil => rfl
  | cons a l ih =>
    have ih := ih (fun x hx y hy => hiff x (by simp [hx]) y (by simp [hy]))
    have hm : g a ∈ l.map g ↔ h a ∈ l.map h := by
      simp only [List.mem_map]
      constructor
      · rintro ⟨b, hb, e⟩; exact ⟨b, hb, (hiff b (by simp [hb]) a (by simp)).mp e⟩
      · rintro ⟨b, hb, e⟩; exact ⟨b, hb, (hiff b (by simp [hb]) a (by simp)).mpr e⟩
    simp only [List.map_cons]
    by_cases hg : g a ∈ l.map g
    · rw [List.dedup_cons_of_mem hg, List.dedup_cons_of_mem (hm.mp hg), ih]
    · rw [List.dedup_cons_of_notMem hg, List.dedup_cons_of_notMem (fun x => hg (hm.mpr x))]
      simp [ih]

theorem dedup_length_card (l : List ℕ) : l.dedup.length = l.toFinset.card := by
  rw [List.card_toFinset]

/-- C52, the check itself: the data of a component is refused iff its number of rows differs from the number of
distinct cases times the number of values allowed. -/
theorem C52_refused_iff (f : Frame) (wf : FrameWF f) (time : String) (ht : IsTimeColumn f.cols time)
    (hl : "fcst_lead" ∈ f.cols) (hs : "stat_name" ∈ f.cols) (num : List Val → ℕ)
    (hnum : IsCaseNumbering f time num) (allowed : ℕ) (ha : 0 < allowed) :
    (validateSeries f.cols f.rows allowed = .error .nameError ↔
      f.rows.length ≠ (f.rows.map num).toFinset.card * allowed) ∧
    (validateSeries f.cols f.rows allowed = .ok () ↔
      f.rows.length = (f.rows.map num).toFinset.card * allowed) := by
  have htm : time ∈ f.cols := by obtain ⟨_, _, _, h, _⟩ := ht; exact h
  obtain ⟨v, hv, hv'⟩ := columnIndex_of_mem htm
  obtain ⟨l, hl, hl'⟩ := columnIndex_of_mem hl
  obtain ⟨s, hs, hs'⟩ := columnIndex_of_mem hs
  unfold validateSeries
  rw [validColumn_of ht, hv, hl, hs]
  simp only [bind, Except.bind]
  have key : (f.rows.map (caseTuple v l s)).dedup.length = (f.rows.map num).toFinset.card := by
    rw [← dedup_length_card]
    apply dedup_length_of_iff
    intro r hr r' hr'
    rw [hnum r hr r' hr']
    unfold caseTuple
    simp only [List.cons.injEq, and_true, List.mem_cons, List.not_mem_nil, or_false, forall_eq_or_imp, forall_eq]
    have cell : ∀ (c : String) (i : ℕ), f.idx? c = some i →
        ((∀ a b, HasCell f r c a → HasCell f r' c b → SameCell a b) ↔
          (cellAt r i).tupleCell = (cellAt r' i).tupleCell) := by
      intro c i hi
      constructor
      · intro h
        exact (sameCell_iff _ _).mp (h _ _ (hasCell_cellAt hi (wf r hr)) (hasCell_cellAt hi (wf r' hr')))
      · intro h a b h1 h2
        rw [sameCell_iff, ← hasCell_unique hi h1, ← hasCell_unique hi h2]
        exact h
    rw [cell _ _ hv', cell _ _ hl', cell _ _ hs']
  rw [key]
  have ha' : (allowed : ℚ) ≠ 0 := by exact_mod_cast ha.ne'
  have e : ((f.rows.length : ℚ) / allowed ≠ ((f.rows.map num).toFinset.card : ℚ)) ↔
      f.rows.length ≠ (f.rows.map num).toFinset.card * allowed := by
    rw [Ne, div_eq_iff ha', Ne]
    norm_cast
  by_cases h : f.rows.length = (f.rows.map num).toFinset.card * allowed
  · rw [if_neg (by rw [e]; simpa using h)]
    simp [h]
  · rw [if_pos (e.mpr h)]
    simp [h]

theorem numDiffVals_pos (cs : List String) : 0 < numDiffVals cs := by
  unfold numDiffVals
  simp only
  split
  · exact one_pos
  · omega

/-- C52 for the aggregation: with data in both components, a derived curve other than SINGLE is computed iff both
components have the allowed number of rows, and otherwise refused. -/
theorem C52_derived_iff (cols : List String) (rows₁ rows₂ : List (List Val)) (op : String) (first second : List String)
    (wf₁ : FrameWF ⟨cols, rows₁⟩) (wf₂ : FrameWF ⟨cols, rows₂⟩) (h₁ : rows₁ ≠ []) (h₂ : rows₂ ≠ [])
    (time : String) (ht : IsTimeColumn cols time)
    (hl : "fcst_lead" ∈ cols) (hs : "stat_name" ∈ cols) (num₁ num₂ : List Val → ℕ)
    (hn₁ : IsCaseNumbering ⟨cols, rows₁⟩ time num₁) (hn₂ : IsCaseNumbering ⟨cols, rows₂⟩ time num₂)
    (hop : op ≠ "SINGLE") :
    (checkDerived cols op first second rows₁ rows₂ = .ok true ↔
      rows₁.length = (rows₁.map num₁).toFinset.card * numDiffVals first ∧
      rows₂.length = (rows₂.map num₂).toFinset.card * numDiffVals second) ∧
    (checkDerived cols op first second rows₁ rows₂ = .error .nameError ↔
      ¬ (rows₁.length = (rows₁.map num₁).toFinset.card * numDiffVals first ∧
        rows₂.length = (rows₂.map num₂).toFinset.card * numDiffVals second)) := by
  obtain ⟨a1, a2⟩ := C52_refused_iff ⟨cols, rows₁⟩ wf₁ time ht hl hs num₁ hn₁ _ (numDiffVals_pos first)
  obtain ⟨b1, b2⟩ := C52_refused_iff ⟨cols, rows₂⟩ wf₂ time ht hl hs num₂ hn₂ _ (numDiffVals_pos second)
  simp only at a1 a2 b1 b2
  unfold checkDerived
  have e : (rows₁.isEmpty || rows₂.isEmpty) = false := by
    cases rows₁ <;> cases rows₂ <;> simp_all
  rw [e]
  simp only [Bool.false_eq_true, if_false, bind, Except.bind, pure, Except.pure, hop, ne_eq, not_false_eq_true, if_true]
  by_cases c1 : rows₁.length = (rows₁.map num₁).toFinset.card * numDiffVals first
  · rw [a2.mpr c1]
    by_cases c2 : rows₂.length = (rows₂.map num₂).toFinset.card * numDiffVals second
    · rw [b2.mpr c2]
      simp [c1, c2]
    · rw [b1.mpr c2]
      simp [c2]
  · rw [a1.mpr c1]
    simp [c1]

/-- C52: SINGLE is never refused, and neither is a curve without data (it gets no value). -/
theorem C52_never_refused (cols : List String) (rows₁ rows₂ : List (List Val)) (op : String)
    (first second : List String) (h : op = "SINGLE" ∨ rows₁ = [] ∨ rows₂ = []) :
    checkDerived cols op first second rows₁ rows₂ = .ok (!(rows₁.isEmpty || rows₂.isEmpty)) := by
  unfold checkDerived
  rcases h with rfl | rfl | rfl
  · cases rows₁.isEmpty || rows₂.isEmpty <;> rfl
  · rfl
  · cases rows₁ <;> rfl

/-- C52: the number of values allowed: 1 without groups; with one group, its size. -/
theorem C52_allowed_one_group (pre post : List String) (g : String)
    (hpre : ∀ c ∈ pre, (splitColon c.toList).length = 1) (hpost : ∀ c ∈ post, (splitColon c.toList).length = 1) :
    numDiffVals (pre ++ g :: post) = max 1 (splitColon g.toList).length := by
  have z : ∀ l : List String, (∀ c ∈ l, (splitColon c.toList).length = 1) →
      (l.map (fun c => if (splitColon c.toList).length > 1 then (splitColon c.toList).length else 0)).sum = 0 := by
    intro l hl
    induction l with
    | nil => rfl
    | cons c l ih =>
      rw [List.map_cons, List.sum_cons, ih (fun c hc => hl c (by simp [hc])), if_neg (by rw [hl c (by simp)]; omega)]
  unfold numDiffVals
  simp only
  rw [List.map_append, List.sum_append, List.map_cons, List.sum_cons, z pre hpre, z post hpost]
  simp only [Nat.add_zero, Nat.zero_add]
  by_cases h : (splitColon g.toList).length > 1
  · rw [if_pos h, if_neg (by omega)]; omega
  · rw [if_neg h, if_pos rfl]; omega

/-- A component in which two variables are grouped, with one row per (model, region) of a single case. -/
def exGroups : Frame :=
  { cols := ["fcst_valid_beg", "fcst_lead", "stat_name", "model", "vx_mask"],
    rows := (["A", "B"].flatMap (fun m => ["X", "Y", "Z"].map (fun v =>
      [.str "t1", .num 6 "6", .str "ME", .str m, .str v]))) }

/-- C52 fails for two groups: the complete data of two models in three regions has 6 values per case, but 5 are
allowed, so the curve is refused. -/
theorem C52_two_groups_counterexample :
    numDiffVals ["A:B", "X:Y:Z", "ME"] = 5 ∧ exGroups.rows.length = 6 ∧
    checkDerived exGroups.cols "DIFF" ["A:B", "X:Y:Z", "ME"] ["A:B", "X:Y:Z", "ME"] exGroups.rows exGroups.rows =
      .error .nameError := by
  refine ⟨?_, ?_, ?_⟩ <;> decide +kernel

/-- Two values for one case. -/
def exTwice : Frame :=
  { cols := ["fcst_valid_beg", "fcst_lead", "stat_name", "stat_value"],
    rows := [[.str "t1", .num 6 "6", .str "ME", .num 1 "1"], [.str "t1", .num 6 "6", .str "ME", .num 2 "2"]] }

/-- C52 fails for the scorecard: the second component is not checked. -/
theorem C52_scorecard_counterexample :
    checkScorecard exTwice.cols "DIFF" (exTwice.rows.take 1) exTwice.rows = .ok true ∧
    checkScorecard exTwice.cols "DIFF" exTwice.rows (exTwice.rows.take 1) = .error .nameError ∧
    checkDerived exTwice.cols "DIFF" ["A", "ME"] ["B", "ME"] (exTwice.rows.take 1) exTwice.rows =
      .error .nameError := by
  refine ⟨?_, ?_, ?_⟩ <;> decide +kernel

/-- C52 for the scorecard, the part that holds: with data in both components a difference is refused iff the first
component has more than one row for some case; SINGLE is never refused. -/
theorem C52_scorecard_partial (cols : List String) (rows₁ rows₂ : List (List Val)) (op : String)
    (wf₁ : FrameWF ⟨cols, rows₁⟩) (h₁ : rows₁ ≠ []) (h₂ : rows₂ ≠ []) (time : String) (ht : IsTimeColumn cols time)
    (hl : "fcst_lead" ∈ cols) (hs : "stat_name" ∈ cols) (num₁ : List Val → ℕ)
    (hn₁ : IsCaseNumbering ⟨cols, rows₁⟩ time num₁) :
    (checkScorecard cols op rows₁ rows₂ = .ok true ↔ op = "SINGLE" ∨ rows₁.length = (rows₁.map num₁).toFinset.card) ∧
    (checkScorecard cols op rows₁ rows₂ = .error .nameError ↔
      op ≠ "SINGLE" ∧ rows₁.length ≠ (rows₁.map num₁).toFinset.card) := by
  obtain ⟨a1, a2⟩ := C52_refused_iff ⟨cols, rows₁⟩ wf₁ time ht hl hs num₁ hn₁ 1 one_pos
  simp only [mul_one] at a1 a2
  unfold checkScorecard
  have e : (rows₁.isEmpty || rows₂.isEmpty) = false := by
    cases rows₁ <;> cases rows₂ <;> simp_all
  rw [e]
  simp only [Bool.false_eq_true, if_false, bind, Except.bind, pure, Except.pure]
  by_cases hop : op = "SINGLE"
  · simp [hop]
  · simp only [hop, ne_eq, not_false_eq_true, if_true, false_or, true_and]
    by_cases c1 : rows₁.length = (rows₁.map num₁).toFinset.card
    · rw [a2.mpr c1]; simp [c1]
    · rw [a1.mpr c1]; simp [c1]

/-- The hypotheses of `C52_refused_iff` hold for the example, where both rows have the same case. -/
example : FrameWF exTwice ∧ IsTimeColumn exTwice.cols "fcst_valid_beg" ∧
    IsCaseNumbering exTwice "fcst_valid_beg" (fun _ => 0) ∧
    validateSeries exTwice.cols exTwice.rows 1 = .error .nameError := by
  have wf : FrameWF exTwice := by unfold FrameWF; decide
  refine ⟨wf, ⟨[], _, rfl, by decide, by simp⟩, ?_, by decide +kernel⟩
  intro r hr r' hr'
  refine ⟨fun _ c hc a b ha hb => ?_, fun _ => rfl⟩
  have h : ∀ x ∈ exTwice.rows, ∀ i < 3, cellAt x i = cellAt [.str "t1", .num 6 "6", .str "ME"] i := by decide
  have hi : ∃ i < 3, exTwice.idx? c = some i := by
    simp only [List.mem_cons, List.not_mem_nil, or_false] at hc
    rcases hc with rfl | rfl | rfl
    · exact ⟨0, by decide, by decide⟩
    · exact ⟨1, by decide, by decide⟩
    · exact ⟨2, by decide, by decide⟩
  obtain ⟨i, hi3, hi⟩ := hi
  left
  rw [← hasCell_unique hi ha, ← hasCell_unique hi hb, h r hr i hi3, h r' hr' i hi3]

end Metcalcpy.Props
