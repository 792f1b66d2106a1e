/-
C123  Aggregating a list of leads gives one row per valid time (false for the name of the row).
-/
import Verif.Props.C85_AggregateField
import Verif.Lemmas.IntText

namespace Metcalcpy.Props
open Metcalcpy Spec

/-- Row `r` has one of the leads listed in `value` ("12;24"); empty parts are left out. -/
def InLeads (f : Frame) (value : String) (r : List Val) : Prop :=
  ∃ p ∈ semiParts value, p ≠ "" ∧ ∃ z : ℤ, IsIntText p z ∧ ∃ t, HasCell f r "fcst_lead" (.num z t)

open Classical in
/-- The group of rows that is aggregated for one valid time. -/
noncomputable def leadGroup (f : Frame) (value : String) (valid : Val) : List (List Val) :=
  f.rows.filter fun r => decide (HasCell f r "fcst_valid_beg" valid ∧ InLeads f value r)

/-- Input of an aggregation over leads: a rectangular frame with the time columns, whose index labels increase and whose
valid times are present; the listed leads are integers. -/
structure LeadInput (f : IFrame) (value : String) : Prop where
  wf : FrameWF f.frame
  valid : "fcst_valid_beg" ∈ f.cols
  lead : "fcst_lead" ∈ f.cols
  labels : (f.rows.map Prod.fst).Pairwise (· < ·)
  times : ∀ r ∈ f.frame.rows, ¬ HasCell f.frame r "fcst_valid_beg" .null
  ints : ∀ p ∈ semiParts value, p ≠ "" → ∃ z, IsIntText p z

theorem leadInts (value : String) (h : ∀ p ∈ semiParts value, p ≠ "" → ∃ z, IsIntText p z) :
    ∃ ints : List ℤ, ((semiParts value).filter (· ≠ "")).mapM intOrError = .ok ints ∧
      ∀ z, z ∈ ints ↔ ∃ p ∈ semiParts value, p ≠ "" ∧ IsIntText p z := by
  generalize semiParts value = l at h
  induction l with
  | nil => exact ⟨[], rfl, by simp⟩
  | cons p l ih =>
    obtain ⟨ints, e, hm⟩ := ih (fun q hq => h q (by simp [hq]))
    by_cases hp : p = ""
    · refine ⟨ints, by simpa [hp] using e, fun z => ?_⟩
      rw [hm]; simp [hp]
    · obtain ⟨z, hz⟩ := h p (by simp) hp
      have hz' := (pyInt?_iff p z).mpr hz
      refine ⟨z :: ints, ?_, fun w => ?_⟩
      · rw [List.filter_cons_of_pos (by simpa using hp), List.mapM_cons, show intOrError p = .ok z by rw [intOrError, hz'], e]; rfl
      · rw [List.mem_cons, hm]
        simp only [List.mem_cons, exists_eq_or_imp]
        have : IsIntText p w ↔ w = z := by
          rw [← pyInt?_iff, hz']; simp [eq_comm]
        simp [hp, this]

open Classical in
/-- C123: when a single value lists several leads ("12;24"), every valid time has a row with a listed lead and
calc_series_sums succeeds on each group, the result consists of the rows with other leads, unchanged and in order, followed
by exactly one row for every valid time: the first row of its group with the sums of the group.  The lead of that row is
the first entry of the list alone (as a text), not the list.  Missing: the name of the row, and valid times without a
listed lead. -/
theorem C123_one_row_per_valid_time_partial (lt value : String) (series : List (String × List String)) (f : IFrame)
    (I : LeadInput f value) (hser : OnlyAggregated series "fcst_lead" value)
    (sums : Val → List (String × Val))
    (hsums : ∀ valid, (∃ r ∈ f.frame.rows, HasCell f.frame r "fcst_valid_beg" valid) →
      leadGroup f.frame value valid ≠ [] ∧
      groupSums lt f.cols (leadGroup f.frame value valid) = .ok (sums valid)) :
    ∃ (out : IFrame) (valids : List Val) (pooled : Val → List Val) (name : String),
      aggregateFieldValues lt series f = .ok out ∧ out.cols = f.cols ∧
      ListsValues f.frame "fcst_valid_beg" valids ∧ (semiParts value).head? = some name ∧
      out.frame.rows = f.frame.rows.filter (fun r => decide (¬ InLeads f.frame value r)) ++ valids.map pooled ∧
      ∀ valid ∈ valids, ∃ first rest, leadGroup f.frame value valid = first :: rest ∧
        IsPooledRow f.frame "fcst_lead" name (sums valid) first (pooled valid) := by
  obtain ⟨v, hv⟩ := Frame.idx?_of_mem (f := f.frame) I.valid
  obtain ⟨i, hi⟩ := Frame.idx?_of_mem (f := f.frame) I.lead
  obtain ⟨ints, hints, hmem⟩ := leadInts value I.ints
  have wf' : ∀ r ∈ f.rows, r.2.length = f.frame.cols.length := fun r hr => I.wf r.2 (List.mem_map_of_mem hr)
  set valids := uniqueVals (f.rows.map fun r => cellAt r.2 v) with hvalids
  set name := (semiParts value).headD "" with hname
  have hhead : (semiParts value).head? = some name := by
    have : semiParts value ≠ [] := by
      unfold semiParts
      intro h
      have h' : splitSemi value.toList = [] := by simpa using h
      revert h'
      cases value.toList with
      | nil => simp [splitSemi]
      | cons c cs =>
        simp only [splitSemi]
        cases splitSemi cs with
        | nil => simp
        | cons w ws => simp only; split <;> simp
    obtain ⟨a, l, e⟩ := List.exists_cons_of_ne_nil this
    rw [hname, e]; rfl
  set sel : Val → List Val → Bool := fun k r =>
    eqCell (cellAt r v) k && isinInts (cellAt r i) ints with hsel
  have hlv : ListsValues f.frame "fcst_valid_beg" valids := by
    refine ⟨uniqueVals_nodup _, fun x => ?_⟩
    rw [hvalids, mem_uniqueVals, List.mem_map]
    constructor
    · rintro ⟨r, hr, rfl⟩
      exact ⟨r.2, List.mem_map_of_mem hr, hasCell_cellAt hv (wf' r hr)⟩
    · rintro ⟨r, hr, h⟩
      obtain ⟨s, hs, rfl⟩ := List.mem_map.mp hr
      exact ⟨s, hs, hasCell_unique hv h⟩
  have hreg : ∀ r ∈ f.frame.rows, (isinInts (cellAt r i) ints = true ↔ InLeads f.frame value r) := by
    intro r hr
    unfold InLeads isinInts
    simp only [hasCell_iff_cellAt hi (I.wf r hr)]
    cases hc : cellAt r i with
    | num q t =>
      simp only [List.any_eq_true, beq_iff_eq, hmem]
      constructor
      · rintro ⟨z, ⟨p, hp, hp0, hz⟩, rfl⟩
        exact ⟨p, hp, hp0, z, hz, t, rfl⟩
      · rintro ⟨p, hp, hp0, z, hz, t', e⟩
        cases e
        exact ⟨z, ⟨p, hp, hp0, hz⟩, rfl⟩
    | str s => simp
    | null => simp
  have hselg : ∀ r ∈ f.frame.rows, ∀ k, (sel k r = true ↔
      HasCell f.frame r "fcst_valid_beg" k ∧ InLeads f.frame value r) := by
    intro r hr k
    have hn := I.times r hr
    simp only [hasCell_iff_cellAt hv (I.wf r hr)] at hn
    simp only [hsel, Bool.and_eq_true, eqCell_iff, hreg r hr, hasCell_iff_cellAt hv (I.wf r hr)]
    tauto
  have hgroup : ∀ k, (f.rows.filter (fun r => sel k r.2)).map Prod.snd = leadGroup f.frame value k := by
    intro k
    unfold leadGroup
    have : f.frame.rows = f.rows.map Prod.snd := rfl
    rw [this, List.filter_map]
    congr 1
    apply List.filter_congr
    intro r hr
    have := hselg r.2 (List.mem_map_of_mem hr) k
    simp only [Function.comp]
    rw [Bool.eq_iff_iff, this, decide_eq_true_iff]
  set rec : Val → List Val := fun k =>
    (recordSums f.cols (sums k) (leadGroup f.frame value k)).set i (.str name) with hrecdef
  have hkeys : ∀ k ∈ valids, leadGroup f.frame value k ≠ [] ∧
      groupSums lt f.cols (leadGroup f.frame value k) = .ok (sums k) := fun k hk => hsums k ((hlv.2 _).mp hk)
  have hgwf : ∀ k : Val, ∀ r ∈ leadGroup f.frame value k, r.length = f.frame.cols.length := by
    intro k r hr
    exact I.wf r (List.mem_filter.mp hr).1
  have hlab : (f.rows.map Prod.fst).Nodup := I.labels.imp (fun h => Nat.ne_of_lt h)
  have hfold := aggregate_fold lt f.cols sel i (.str name) f.rows rec sums valids hlab hlv.1
    (by
      intro r k k' h1 h2
      simp only [hsel, Bool.and_eq_true, eqCell_iff] at h1 h2
      exact h1.1.2.symm.trans h2.1.2)
    (by
      intro r hr h0 k hk hs
      simp only [hsel, Bool.and_eq_true, eqCell_iff] at hs
      have hhead : f.rows.head? = some r := by
        cases hf : f.rows with
        | nil => rw [hf] at hr; simp at hr
        | cons s ss =>
          rw [hf] at hr
          have hp := I.labels
          rw [hf, List.map_cons, List.pairwise_cons] at hp
          rcases List.mem_cons.mp hr with rfl | hm
          · rfl
          · have := hp.1 r.1 (List.mem_map_of_mem hm)
            omega
      rw [hvalids, uniqueVals_head?, List.head?_map, hhead]
      simp [hs.1.2])
    (by
      intro k _ k' hk'
      have hlen : (recordSums f.cols (sums k') (leadGroup f.frame value k')).length =
        f.cols.length := recordSums_length (f := f.frame) (hgwf k')
      have hil := Frame.idx?_lt hi
      have hc : cellAt (rec k') i = .str name := by
        rw [hrecdef]
        unfold cellAt
        rw [List.getElem?_set_self (by rw [hlen]; exact hil)]
        rfl
      simp only [hsel, hc, isinInts, Bool.and_false])
    (by
      intro k hk
      rw [hgroup]
      exact (hkeys k hk).2)
    (by
      intro k _
      rw [hgroup])
  refine ⟨{ f with rows := aggState sel rec f.rows valids }, valids, rec, name, ?_, rfl, hlv, hhead, ?_, ?_⟩
  · unfold aggregateFieldValues
    simp only [hv, hi, bind, Except.bind]
    rw [fold_onlyAggregated (fun p x g => aggregateValue lt v i _ _ p x g) series "fcst_lead" value f hser]
    unfold aggregateValue
    simp only [ne_eq, not_true, if_false, IFrame.col, Frame.col, hi, bind, Except.bind]
    have hints' := hints
    simp only [ne_eq] at hints'
    simp only [hints']
    simp only [hsel] at hfold
    rw [hfold]
    rfl
  · change (aggState sel rec f.rows valids).map Prod.snd =
      (f.rows.map Prod.snd).filter (fun r => decide (¬ InLeads f.frame value r)) ++ _
    unfold aggState
    rw [List.map_append, List.map_map]
    congr 1
    rw [List.filter_map]
    congr 1
    apply List.filter_congr
    intro r hr
    have hm : r.2 ∈ f.frame.rows := List.mem_map_of_mem hr
    simp only [Function.comp]
    rw [Bool.eq_iff_iff, decide_eq_true_iff, Bool.not_eq_true', ← Bool.not_eq_true, List.any_eq_true, not_iff_not]
    constructor
    · rintro ⟨k, _, hk⟩
      exact ((hselg r.2 hm k).mp hk).2
    · intro h
      have c1 := hasCell_cellAt hv (I.wf r.2 hm)
      exact ⟨cellAt r.2 v, (hlv.2 _).mpr ⟨r.2, hm, c1⟩, (hselg r.2 hm _).mpr ⟨c1, h⟩⟩
  · intro a ha
    obtain ⟨h1, _⟩ := hkeys a ha
    obtain ⟨first, rest, e⟩ := List.exists_cons_of_ne_nil h1
    refine ⟨first, rest, e, ?_⟩
    have := recordSums_pooled f.frame "fcst_lead" name i hi (sums a) first rest (by
      intro r hr; exact hgwf a r (by rw [e]; exact hr))
    simp only [hrecdef, e]
    exact this

/-- C123: a listed lead that is not an integer makes the aggregation fail with ValueError, as soon as there is a row. -/
theorem C123_not_an_integer (lt value : String) (series : List (String × List String)) (f : IFrame)
    (hvm : "fcst_valid_beg" ∈ f.cols) (hlm : "fcst_lead" ∈ f.cols) (hne : f.rows ≠ [])
    (hser : OnlyAggregated series "fcst_lead" value) (p : String) (hp : p ∈ semiParts value) (hp0 : p ≠ "")
    (hbad : ∀ z, ¬ IsIntText p z) : aggregateFieldValues lt series f = .error .valueError := by
  obtain ⟨v, hv⟩ := Frame.idx?_of_mem (f := f.frame) hvm
  obtain ⟨i, hi⟩ := Frame.idx?_of_mem (f := f.frame) hlm
  have bad : ∀ l : List String, p ∈ l → (l.filter (· ≠ "")).mapM intOrError = .error .valueError := by
    intro l hm
    induction l with
    | nil => cases hm
    | cons q l ih =>
      by_cases hq : q = ""
      · have : p ∈ l := by
          rcases List.mem_cons.mp hm with h | h
          · exact absurd (h.trans hq) hp0
          · exact h
        simpa [hq] using ih this
      · rw [List.filter_cons_of_pos (by simpa using hq), List.mapM_cons]
        rcases List.mem_cons.mp hm with rfl | h
        · rw [intOrError, (pyInt?_none_iff p).mpr hbad]; rfl
        · unfold intOrError at *
          cases pyInt? q with
          | none => rfl
          | some z => rw [ih h]; rfl
  have bad' := bad _ hp
  obtain ⟨r, rs, hr⟩ := List.exists_cons_of_ne_nil hne
  have hh : (uniqueVals (f.rows.map fun r => cellAt r.2 v)).head? = some (cellAt r.2 v) := by
    rw [uniqueVals_head?, hr]; rfl
  obtain ⟨vs, e1⟩ := List.head?_eq_some_iff.mp hh
  unfold aggregateFieldValues
  simp only [hv, hi, bind, Except.bind]
  rw [fold_onlyAggregated (fun p x g => aggregateValue lt v i _ _ p x g) series "fcst_lead" value f hser]
  unfold aggregateValue
  simp only [ne_eq, not_true, if_false, IFrame.col, Frame.col, hi, bind, Except.bind, e1, List.foldlM_cons]
  simp only [ne_eq] at bad'
  simp only [bad']

/-- Two leads at two valid times, and a third lead. -/
def exLeads : IFrame :=
  { cols := ["fcst_valid_beg", "fcst_lead", "total", "fgbar", "ogbar", "mgbar", "egbar"]
    rows := [(0, [.str "d1", .num 12 "12", .num 10 "10", .num 1 "1", .num 2 "2", .num 3 "3", .num 4 "4"]),
             (2, [.str "d1", .num 24 "24", .num 30 "30", .num 5 "5", .num 2 "2", .num 3 "3", .num 4 "4"]),
             (3, [.str "d1", .num 36 "36", .num 7 "7", .num 1 "1", .num 2 "2", .num 3 "3", .num 4 "4"]),
             (5, [.str "d2", .num 24 "24", .num 20 "20", .num 2 "2", .num 6 "6", .num 8 "8", .num 4 "4"])] }

example : LeadInput exLeads "12;24" := by
  refine ⟨by unfold FrameWF; decide, by decide, by decide, by decide, ?_, ?_⟩
  · have h1 : exLeads.frame.idx? "fcst_valid_beg" = some 0 := by decide +kernel
    intro r hr
    rw [hasCell_iff h1]
    revert r
    decide +kernel
  · intro p hp _
    have : semiParts "12;24" = ["12", "24"] := by decide +kernel
    rw [this] at hp
    rcases List.mem_cons.mp hp with rfl | hp
    · exact ⟨12, (pyInt?_iff _ _).mp (by decide +kernel)⟩
    · rcases List.mem_cons.mp hp with rfl | hp
      · exact ⟨24, (pyInt?_iff _ _).mp (by decide +kernel)⟩
      · cases hp

/-- C123 is false for the name: the pooled rows of the leads 12 and 24 are called 12 (and the row of d2, which has no lead 12,
as well), so that they cannot be told from rows of lead 12. -/
theorem C123_name_counterexample :
    aggregateFieldValues "grad" [("fcst_lead", ["12;24", "36"])] exLeads = .ok
    { cols := exLeads.cols
      rows := [(3, [.str "d1", .num 36 "36", .num 7 "7", .num 1 "1", .num 2 "2", .num 3 "3", .num 4 "4"]),
               (0, [.str "d1", .str "12", .num 40 "", .num 4 "", .num 2 "", .num 3 "", .num 4 ""]),
               (0, [.str "d2", .str "12", .num 20 "", .num 2 "", .num 6 "", .num 8 "", .num 4 ""])] } := by
  decide +kernel

end Metcalcpy.Props
