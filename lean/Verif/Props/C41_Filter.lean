/-
C41  Statistics leave the process-wide warning filter lenient (false of the code).
-/
import Verif.Model.Filter
import Verif.Lemmas.Prepare
import Verif.Props.C09_C12_Ctc

namespace Metcalcpy.Props
open Metcalcpy Spec

/-- C41: the filter after a non-empty sequence depends on the last call only. -/
theorem C41_only_last_call_matters (w w' : Filter) (calls calls' : List StatCall) (c : StatCall) :
    filterAfterAll w (calls ++ [c]) = filterAfterAll w' (calls' ++ [c]) := by
  have key : ∀ v v' : Filter, StatCall.filterAfter v c = StatCall.filterAfter v' c := by
    intro v v'
    cases c <;> simp [StatCall.filterAfter, statCall, statCallNoReset]
  simp only [filterAfterAll, List.foldl_append, List.foldl_cons, List.foldl_nil]
  exact key _ _

/-- C41, contingency-table statistics: after any sequence that ends with one of the six functions that can
return early, the filter is lenient exactly when the pooled counts avoid the early return. -/
theorem C41_contingency_partial {t : Table} {h f m c n : List ℚ} (D : CtcData t h f m c n)
    (w : Filter) (calls : List StatCall) (lw : ℝ → ℝ) :
    (filterAfterAll w (calls ++ [.fbias t]) = .ignore ↔ h.sum + m.sum ≠ 0) ∧
    (filterAfterAll w (calls ++ [.fmean t]) = .ignore ↔ n.sum ≠ 0) ∧
    (filterAfterAll w (calls ++ [.gss t]) = .ignore ↔ n.sum ≠ 0) ∧
    (filterAfterAll w (calls ++ [.hss t]) = .ignore ↔ n.sum ≠ 0) ∧
    filterAfterAll w (calls ++ [.lodds t]) = .ignore ∧
    (filterAfterAll w (calls ++ [.bagss lw t]) = .ignore ↔ h.sum ≠ 0 ∧ m.sum ≠ 0 ∧ n.sum ≠ 0) := by
  have h1 := sumColumn_of_complete D.rows_ne D.fy_oy
  have h2 := sumColumn_of_complete D.rows_ne D.fy_on
  have h3 := sumColumn_of_complete D.rows_ne D.fn_oy
  have h4 := sumColumn_of_complete D.rows_ne D.fn_on
  have h5 := sumColumn_of_complete D.rows_ne D.total
  simp only [filterAfterAll, List.foldl_append, List.foldl_cons, List.foldl_nil, StatCall.filterAfter,
    statCall, fbiasBody, totalBody, loddsBody, bagssBody, h1, h2, h3, h4, h5, Option.some.injEq,
    reduceCtorEq, or_self, if_false]
  refine ⟨?_, ?_, ?_, ?_, trivial, ?_⟩
  · by_cases e : h.sum + m.sum = 0 <;> simp [e]
  · by_cases e : n.sum = 0 <;> simp [e]
  · by_cases e : n.sum = 0 <;> simp [e]
  · by_cases e : n.sum = 0 <;> simp [e]
  · by_cases e : h.sum = 0 ∨ m.sum = 0 ∨ n.sum = 0
    · simp only [if_pos e]; tauto
    · simp only [if_neg e]; tauto

/-- C41: a statistic without an early return leaves the filter lenient unless an exception escapes. -/
theorem C41_ordinary_partial (w : Filter) (calls : List StatCall) (e : Option PyErr) :
    filterAfterAll w (calls ++ [.other e]) = .ignore ↔ e = none := by
  cases e <;> simp [filterAfterAll, StatCall.filterAfter, statCall]

/-- C41: the economic-value statistic leaves the filter lenient iff its arguments are accepted. -/
theorem C41_eclv_partial (w : Filter) (calls : List StatCall) (lineType : String) (thresh : Bool) :
    filterAfterAll w (calls ++ [.eclv lineType thresh]) = .ignore ↔
      lineType = "ctc" ∨ (lineType = "pct" ∧ thresh = true) := by
  simp only [filterAfterAll, List.foldl_append, List.foldl_cons, List.foldl_nil, StatCall.filterAfter,
    statCall]
  by_cases h1 : lineType = "ctc"
  · subst h1; simp
  · by_cases h2 : lineType = "pct"
    · subst h2; cases thresh <;> simp
    · simp [h1, h2]

/-- C41: the area under the ROC curve always leaves the filter strict. -/
theorem C41_roc_auc_strict (w : Filter) (calls : List StatCall) (t : Table) :
    filterAfterAll w (calls ++ [.pstdRocAuc t]) = .error := by
  simp [filterAfterAll, StatCall.filterAfter, statCallNoReset]

theorem anomCorr_value (t : Table) (w : Filter) (agg : Bool) :
    (statCall (anomCorrBody t agg) w).1 = .ok (salAnomCorr t agg) := by
  unfold anomCorrBody anomCorrV salAnomCorr statCall
  simp only [Option.bind_eq_bind]
  rcases getTotalValues t agg with _ | total
  · simp only [Option.bind_none]
  rcases sumColumn t "ffabar" with _ | a
  · simp only [Option.bind_none, Option.bind_some]
  by_cases e : total = 0
  · simp only [pyDiv, e, Option.bind_none, Option.bind_some, if_true]
  simp only [pyDiv, if_neg e, Option.bind_some]
  rcases sumColumn t "fabar" with _ | b
  · simp only [Option.bind_none]
  rcases sumColumn t "ooabar" with _ | c
  · simp only [Option.bind_none, Option.bind_some]
  rcases sumColumn t "oabar" with _ | d
  · simp only [Option.bind_none, Option.bind_some]
  rcases sumColumn t "foabar" with _ | f
  · simp only [Option.bind_none, Option.bind_some]
  simp only [Option.bind_some]
  by_cases e' : (total ^ 2 * (a / total) - total ^ 2 * (b / total) ^ 2) *
      (total ^ 2 * (c / total) - total ^ 2 * (d / total) ^ 2) ≤ 0
  · simp only [if_pos e']
  · simp only [if_neg e']

theorem anomCorrRaw_value (t : Table) (w : Filter) (agg : Bool) :
    (statCall (anomCorrRawBody t agg) w).1 = .ok (salAnomCorrRaw t agg) := by
  unfold anomCorrRawBody anomCorrRawV salAnomCorrRaw statCall
  rcases getTotalValues t agg with _ | total
  · simp
  rcases sumColumn t "ffabar" with _ | a
  · simp
  rcases sumColumn t "ooabar" with _ | c
  · simp
  rcases sumColumn t "foabar" with _ | f
  · simp
  by_cases e : total = 0
  · simp [pyDiv, e]
  · simp only [pyDiv, if_neg e, Option.bind_eq_bind, Option.bind_some]
    by_cases e' : a / total * (c / total) < 0
    · simp only [if_pos e']
    · simp only [if_neg e']

/-- C41: the early returns do not change results: each statistic returns its modelled value. -/
theorem C41_values (t : Table) (w : Filter) (agg : Bool) (lw : ℝ → ℝ) :
    (statCall (fbiasBody t) w).1 = .ok (ctcFbias t) ∧
    (statCall (totalBody ctcFmean t) w).1 = .ok (ctcFmean t) ∧
    (statCall (totalBody ctcGss t) w).1 = .ok (ctcGss t) ∧
    (statCall (totalBody ctcHss t) w).1 = .ok (ctcHss t) ∧
    (statCall (loddsBody t) w).1 = .ok (ctcLodds t) ∧
    (statCall (bagssBody lw t) w).1 = .ok (ctcBagss lw t) ∧
    (statCall (anomCorrBody t agg) w).1 = .ok (salAnomCorr t agg) ∧
    (statCall (anomCorrRawBody t agg) w).1 = .ok (salAnomCorrRaw t agg) := by
  refine ⟨?_, ?_, ?_, ?_, ?_, ?_, ?_, ?_⟩
  · unfold fbiasBody ctcFbias statCall
    cases h1 : sumColumn t "fy_oy" <;> cases h2 : sumColumn t "fn_oy" <;> simp
    rename_i a c
    by_cases e : a + c = 0 <;> simp [e]
  · unfold totalBody ctcFmean statCall
    cases h1 : sumColumn t "total" <;> simp
    rename_i a
    by_cases e : a = 0 <;> simp [e]
  · unfold totalBody ctcGss statCall
    cases h1 : sumColumn t "total" <;> simp
    rename_i a
    by_cases e : a = 0 <;> simp [e]
  · unfold totalBody ctcHss statCall
    cases h1 : sumColumn t "total" <;> simp
    rename_i a
    by_cases e : a = 0 <;> simp [e]
  · unfold loddsBody ctcLodds statCall sumColumnR
    rcases sumColumn t "fy_oy" with _ | a
    · simp
    rcases sumColumn t "fy_on" with _ | b
    · simp
    rcases sumColumn t "fn_oy" with _ | c
    · simp
    rcases sumColumn t "fn_on" with _ | d
    · simp
    simp only [reduceCtorEq, or_self, if_false]
  · unfold bagssBody ctcBagss statCall sumColumnR
    rcases sumColumn t "fy_oy" with _ | a
    · simp
    rcases sumColumn t "fn_oy" with _ | c
    · simp
    rcases sumColumn t "total" with _ | n
    · simp
    rcases sumColumn t "fy_on" with _ | b
    · simp
    by_cases e : a = 0 ∨ c = 0 ∨ n = 0
    · simp only [reduceCtorEq, or_self, if_false, Option.some.injEq, if_pos e]
      simp only [Option.pure_def, Option.map_some, Option.bind_eq_bind, Option.bind_some, Rat.cast_eq_zero,
        if_pos e]
    · simp only [reduceCtorEq, or_self, if_false, Option.some.injEq, if_neg e]
  · exact anomCorr_value t w agg
  · exact anomCorrRaw_value t w agg

/-- C41: after the anomaly correlation the filter is strict exactly when the product of the variances is
defined and not positive; after the uncentred one, exactly when the product of mean squares is negative. -/
theorem C41_anomaly_partial (w : Filter) (calls : List StatCall) (t : Table) (agg : Bool)
    (total ff fo oo fb ob : ℚ) (ht : getTotalValues t agg = some total) (h0 : total ≠ 0)
    (h1 : sumColumn t "ffabar" = some ff) (h2 : sumColumn t "ooabar" = some oo)
    (h3 : sumColumn t "foabar" = some fo) (h4 : sumColumn t "fabar" = some fb)
    (h5 : sumColumn t "oabar" = some ob) :
    (filterAfterAll w (calls ++ [.anomCorr t agg]) = .ignore ↔
      0 < (total * ff - fb ^ 2) * (total * oo - ob ^ 2)) ∧
    (filterAfterAll w (calls ++ [.anomCorrRaw t agg]) = .ignore ↔ 0 ≤ ff * oo) := by
  have e1 : (total ^ 2 * (ff / total) - total ^ 2 * (fb / total) ^ 2) *
      (total ^ 2 * (oo / total) - total ^ 2 * (ob / total) ^ 2) =
      (total * ff - fb ^ 2) * (total * oo - ob ^ 2) := by field_simp
  have e2 : (ff / total) * (oo / total) = ff * oo / total ^ 2 := by field_simp
  have hsq : 0 < total ^ 2 := by positivity
  simp only [filterAfterAll, List.foldl_append, List.foldl_cons, List.foldl_nil, StatCall.filterAfter,
    statCall, anomCorrBody, anomCorrRawBody, anomCorrV, anomCorrRawV, ht, h1, h2, h3, h4, h5, pyDiv,
    if_neg h0, Option.bind_eq_bind, Option.bind_some, e1, e2]
  constructor
  · by_cases e : (total * ff - fb ^ 2) * (total * oo - ob ^ 2) ≤ 0
    · simp [e, not_lt.mpr e]
    · simp [e, not_le.mp e]
  · by_cases e : ff * oo / total ^ 2 < 0
    · have : ff * oo < 0 := by
        by_contra hc
        exact absurd e (not_lt.mpr (div_nonneg (not_lt.mp hc) hsq.le))
      simp [e, not_le.mpr this]
    · have : 0 ≤ ff * oo := by
        by_contra hc
        exact e (div_neg_of_neg_of_pos (not_le.mp hc) hsq)
      simp [e, this]

/-- Counts without any observed event. -/
def exNoEvents : Table :=
  { cols := ["total", "fy_oy", "fy_on", "fn_oy", "fn_on"]
    rows := [[some 10, some 0, some 2, some 0, some 8]] }

theorem exNoEvents_data : CtcData exNoEvents [0] [2] [0] [8] [10] where
  rows_ne := by simp [exNoEvents]
  fy_oy := ⟨1, rfl, by decide, rfl⟩
  fy_on := ⟨2, rfl, by decide, rfl⟩
  fn_oy := ⟨3, rfl, by decide, rfl⟩
  fn_on := ⟨4, rfl, by decide, rfl⟩
  total := ⟨0, rfl, by decide, rfl⟩

/-- C41 as stated is false: the frequency bias of a sample without observed events leaves the filter
strict. -/
theorem C41_counterexample :
    ¬ ∀ (w : Filter) (calls : List StatCall), calls ≠ [] → filterAfterAll w calls = .ignore := by
  intro h
  have h1 := h .ignore ([] ++ [.fbias exNoEvents]) (by simp)
  rw [(C41_contingency_partial exNoEvents_data .ignore [] id).1] at h1
  norm_num at h1

example : filterAfterAll .ignore [.fbias exNoEvents, .fbias exCtc] = .ignore :=
  ((C41_contingency_partial exCtc_data .ignore [.fbias exNoEvents] id).1).mpr (by norm_num)

example : filterAfterAll .error [.other none] = .ignore :=
  (C41_ordinary_partial .error [] none).mpr rfl

/-- Anomaly sums of two rows. -/
def exAnom : Table :=
  { cols := ["total", "fabar", "oabar", "foabar", "ffabar", "ooabar"]
    rows := [[some 2, some 1, some 1, some 3, some 4, some 5]] }

example : filterAfterAll .ignore [.anomCorr exAnom true] = .ignore := by
  refine (C41_anomaly_partial .ignore [] exAnom true 2 4 3 5 1 1 ?_ ?_ ?_ ?_ ?_ ?_ ?_).1.mpr ?_ <;>
    first | decide +kernel | (norm_num; done) | rfl

end Metcalcpy.Props
