/-
C90  What the equalization against stored cases returns for any number of series variables, and how many times it returns
     each row.
-/
import Verif.Props.C90_AggEqz

namespace Metcalcpy.Props
open Metcalcpy Spec

/-- Row `r` is requested by one series variable for the forecast variable, and its case is stored for the same two. -/
def SelectedFor (f prev : Frame) (r : List Val) (c : String × (String × List String)) : Prop :=
  Requested f c.1 c.2 r ∧ HasStoredCase f prev c.1 c.2 r

open Classical in
/-- C90 for any number of series variables on an axis: for each forecast variable in turn, and within it for each series
variable in turn, the rows which that single series variable requests and whose case is stored for it, unchanged and in
order.  So the selections of the series variables are appended and not intersected.  The property itself is false for
several series variables (`C90_two_variables_counterexample`). -/
theorem C90_any_variables_partial (f prev : Frame) (fcstVars : List String) (series : List (String × List String))
    (I : ∀ sv ∈ series, EqzInput f prev sv) :
    ∃ out, eqzAxis f prev fcstVars series = .ok out ∧
      out.rows = (fcstVars.flatMap fun fv => series.flatMap fun sv =>
        f.rows.filter (fun r => decide (SelectedFor f prev r (fv, sv)))) ∧
      out.cols = if out.rows = [] then [] else f.cols := by
  have gen : ∀ (l : List (String × (String × List String))) (out : Frame), (∀ c ∈ l, c.2 ∈ series) →
      (out.cols = [] ∧ out.rows = [] ∨ out.cols = f.cols ∧ out.rows ≠ []) →
      ∃ out', l.foldlM (eqzStep f prev) out = .ok out' ∧
        out'.rows = (out.rows ++ l.flatMap fun c => f.rows.filter (fun r => decide (SelectedFor f prev r c))) ∧
        (out'.cols = [] ∧ out'.rows = [] ∨ out'.cols = f.cols ∧ out'.rows ≠ []) := by
    intro l
    induction l with
    | nil => intro out _ h; exact ⟨out, rfl, by simp, h⟩
    | cons c l ih =>
      intro out hl hout
      obtain ⟨o1, e1, e2, e3⟩ := eqzStep_ok f prev out c.1 c.2 (I c.2 (hl c (by simp))) hout
      obtain ⟨o2, e4, e5, e6⟩ := ih o1 (fun d hd => hl d (by simp [hd])) e3
      refine ⟨o2, ?_, ?_, e6⟩
      · simp only [List.foldlM_cons, e1, bind, Except.bind]
        exact e4
      · rw [e5, e2, List.flatMap_cons, List.append_assoc]
        congr 2
        apply List.filter_congr
        intro r _
        unfold SelectedFor
        congr
  obtain ⟨out, h1, h2, h3⟩ := gen (fcstVars ×ˢ series) { cols := [], rows := [] }
    (fun c hc => (List.pair_mem_product.mp (show (c.1, c.2) ∈ _ from hc)).2) (Or.inl ⟨rfl, rfl⟩)
  refine ⟨out, h1, ?_, ?_⟩
  · rw [h2, List.nil_append]
    change (List.product fcstVars series).flatMap _ = _
    unfold List.product
    rw [List.flatMap_assoc]
    simp only [List.flatMap_map]
  · rcases h3 with ⟨h, h'⟩ | ⟨h, h'⟩ <;> simp [h, h']

theorem count_flatMap_filter {α β : Type*} [BEq α] [LawfulBEq α] (rows : List α) (x : α) (p : β → α → Bool) (l : List β) :
    (l.flatMap fun b => rows.filter (p b)).count x = rows.count x * l.countP (fun b => p b x) := by
  induction l with
  | nil => simp
  | cons b l ih =>
    rw [List.flatMap_cons, List.count_append, ih, List.countP_cons]
    by_cases h : p b x = true
    · rw [List.count_filter h, if_pos h]; ring
    · have : (rows.filter (p b)).count x = 0 := by
        rw [List.count_eq_zero]
        intro hm
        exact h (List.mem_filter.mp hm).2
      rw [this, if_neg h]; ring

open Classical in
/-- How many times a row is returned: as many times as it stands in the input, for each pair of a forecast variable and a
series variable that selects it. -/
theorem C90_multiplicity_partial (f prev : Frame) (fcstVars : List String) (series : List (String × List String))
    (I : ∀ sv ∈ series, EqzInput f prev sv) :
    ∃ out, eqzAxis f prev fcstVars series = .ok out ∧
      ∀ r, out.rows.count r = f.rows.count r *
        (fcstVars ×ˢ series).countP (fun c => decide (SelectedFor f prev r c)) := by
  obtain ⟨out, h1, h2, -⟩ := C90_any_variables_partial f prev fcstVars series I
  refine ⟨out, h1, fun r => ?_⟩
  refine Eq.trans ?_ (count_flatMap_filter f.rows r (fun c r => decide (SelectedFor f prev r c)) (fcstVars ×ˢ series))
  rw [h2]
  congr 1
  change _ = (List.product fcstVars series).flatMap _
  unfold List.product
  rw [List.flatMap_assoc]
  simp only [List.flatMap_map]

theorem exEqz_input (n : String) (vals : List String) (h : n ∈ ["model", "vx_mask"]) :
    EqzInput exEqz exEqzPrev (n, vals) where
  wf := by unfold FrameWF; decide
  wfp := by unfold FrameWF; decide
  var := by decide
  varp := by decide
  sv_mem := by
    simp only [List.mem_cons, List.not_mem_nil, or_false] at h
    rcases h with rfl | rfl <;> simp [exEqz]
  sv_memp := by
    simp only [List.mem_cons, List.not_mem_nil, or_false] at h
    rcases h with rfl | rfl <;> simp [exEqzPrev]
  valid := by decide
  lead := by decide
  nokey := by decide
  keyp := by decide

/-- Two series variables: the hypotheses hold, and the first row is returned twice, once for each. -/
example : (∀ sv ∈ [("model", ["A"]), ("vx_mask", ["X"])], EqzInput exEqz exEqzPrev sv) ∧
    ∃ out, eqzAxis exEqz exEqzPrev ["APCP"] [("model", ["A"]), ("vx_mask", ["X"])] = .ok out ∧
      out.rows.length = 3 ∧ out.rows[0]? = exEqz.rows[0]? ∧ out.rows[1]? = exEqz.rows[0]? := by
  refine ⟨?_, ?_⟩
  · intro sv h
    simp only [List.mem_cons, List.not_mem_nil, or_false] at h
    rcases h with rfl | rfl <;> exact exEqz_input _ _ (by decide)
  · exact ⟨_, rfl, by decide +kernel⟩

end Metcalcpy.Props
