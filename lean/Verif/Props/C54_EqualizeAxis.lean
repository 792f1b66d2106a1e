/-
C54  Equalization of an axis honours all series variables (false: only the last one).
C83  Equalization works for numeric series variables (false).
C84  Equalization of two axes honours the series of both (false for shared variables).
-/
import Verif.Model.EqualizeAxis
import Verif.Props.C01_EventEqualize

namespace Metcalcpy.Props
open Metcalcpy Spec

theorem filterIfPresent_cols (f : Frame) (name : String) (l : List String) :
    (filterIfPresent f name l).cols = f.cols := by
  unfold filterIfPresent
  cases f.idx? name <;> rfl

theorem idx?_cols {f g : Frame} (h : f.cols = g.cols) (name : String) : f.idx? name = g.idx? name := by
  unfold Frame.idx?; rw [h]

theorem mem_filterIfPresent {f : Frame} (wf : FrameWF f) (name : String) (l : List String) (r : List Val) :
    r ∈ (filterIfPresent f name l).rows ↔
      r ∈ f.rows ∧ (name ∈ f.cols → ∃ s ∈ l, HasCell f r name (.str s)) := by
  unfold filterIfPresent
  by_cases h : name ∈ f.cols
  · obtain ⟨i, hi⟩ := Frame.idx?_of_mem h
    rw [hi]
    simp only [Frame.filterRows, List.mem_filter, h, true_implies]
    constructor
    · rintro ⟨hr, hc⟩
      refine ⟨hr, ?_⟩
      have hx := hasCell_cellAt hi (wf r hr)
      unfold isinTexts at hc
      cases hv : cellAt r i with
      | str s => rw [hv] at hc hx; exact ⟨s, by simpa using hc, hx⟩
      | num q t => rw [hv] at hc; simp at hc
      | null => rw [hv] at hc; simp at hc
    · rintro ⟨hr, s, hs, hx⟩
      refine ⟨hr, ?_⟩
      rw [hasCell_unique hi hx]
      simpa [isinTexts] using hs
  · rw [Frame.idx?_eq_none.mpr h]
    simp [h]

theorem filterIfPresent_wf {f : Frame} (wf : FrameWF f) (name : String) (l : List String) :
    FrameWF (filterIfPresent f name l) := by
  intro r hr
  rw [filterIfPresent_cols]
  exact wf r ((mem_filterIfPresent wf name l r).mp hr).1

theorem hasCell_cols {f g : Frame} (h : f.cols = g.cols) (r : List Val) (name : String) (v : Val) :
    HasCell f r name v ↔ HasCell g r name v := by
  unfold HasCell; rw [h]

theorem isCaseKey_cols {f g : Frame} (h : f.cols = g.cols) (indy : String) (b : Bool) (r : List Val) (k : String) :
    IsCaseKey f indy b r k ↔ IsCaseKey g indy b r k := by
  unfold IsCaseKey HasCell; rw [h]

theorem axisFilter_cols (f : Frame) (sv : String × List String) (fv st : String) :
    (axisFilter f sv fv st).cols = f.cols := by
  unfold axisFilter; rw [filterIfPresent_cols, filterIfPresent_cols, filterIfPresent_cols]

/-- The rows selected for a series variable, a forecast variable and a statistic. -/
def Selected (f : Frame) (sv : String × List String) (fv st : String) (r : List Val) : Prop :=
  (sv.1 ∈ f.cols → ∃ s ∈ sv.2.flatMap ungroup, HasCell f r sv.1 (.str s)) ∧
  ("fcst_var" ∈ f.cols → HasCell f r "fcst_var" (.str fv)) ∧
  ("stat_name" ∈ f.cols → HasCell f r "stat_name" (.str st))

theorem mem_axisFilter {f : Frame} (wf : FrameWF f) (sv : String × List String) (fv st : String) (r : List Val) :
    r ∈ (axisFilter f sv fv st).rows ↔ r ∈ f.rows ∧ Selected f sv fv st r := by
  unfold axisFilter Selected
  have w1 := filterIfPresent_wf wf sv.1 (sv.2.flatMap ungroup)
  have w2 := filterIfPresent_wf w1 "fcst_var" [fv]
  rw [mem_filterIfPresent w2, mem_filterIfPresent w1, mem_filterIfPresent wf]
  have c1 := filterIfPresent_cols f sv.1 (sv.2.flatMap ungroup)
  have c2 : (filterIfPresent (filterIfPresent f sv.1 (sv.2.flatMap ungroup)) "fcst_var" [fv]).cols = f.cols := by
    rw [filterIfPresent_cols, c1]
  rw [c1, c2]
  simp only [List.mem_singleton, exists_eq_left, hasCell_cols c1, hasCell_cols c2]
  tauto

theorem filterIfPresent_filter (f : Frame) (name : String) (l : List String) :
    ∃ p : List Val → Bool, (filterIfPresent f name l).rows = f.rows.filter p := by
  unfold filterIfPresent
  cases f.idx? name with
  | none => exact ⟨fun _ => true, by simp⟩
  | some i => exact ⟨_, rfl⟩

theorem axisFilter_filter (f : Frame) (sv : String × List String) (fv st : String) :
    ∃ p : List Val → Bool, (axisFilter f sv fv st).rows = f.rows.filter p := by
  unfold axisFilter
  obtain ⟨p1, h1⟩ := filterIfPresent_filter f sv.1 (sv.2.flatMap ungroup)
  obtain ⟨p2, h2⟩ := filterIfPresent_filter (filterIfPresent f sv.1 (sv.2.flatMap ungroup)) "fcst_var" [fv]
  obtain ⟨p3, h3⟩ := filterIfPresent_filter
    (filterIfPresent (filterIfPresent f sv.1 (sv.2.flatMap ungroup)) "fcst_var" [fv]) "stat_name" [st]
  refine ⟨fun r => p3 r && p2 r && p1 r, ?_⟩
  rw [h3, h2, h1, List.filter_filter, List.filter_filter]

open Classical in
theorem axisFilter_rows {f : Frame} (wf : FrameWF f) (sv : String × List String) (fv st : String) :
    (axisFilter f sv fv st).rows = f.rows.filter (fun r => decide (Selected f sv fv st r)) := by
  obtain ⟨p, hp⟩ := axisFilter_filter f sv fv st
  rw [hp]
  apply List.filter_congr
  intro r hr
  have := mem_axisFilter wf sv fv st r
  rw [hp, List.mem_filter] at this
  have h2 : p r = true ↔ Selected f sv fv st r := by tauto
  by_cases hs : Selected f sv fv st r
  · simp [hs, h2.mpr hs]
  · simp only [hs, decide_false]
    cases hpr : p r with
    | false => rfl
    | true => exact absurd (h2.mp hpr) hs

theorem axisData_append (f : Frame) (init : List (String × List String)) (sv : String × List String)
    (fv st : String) : axisData f (init ++ [sv]) fv st = axisFilter f sv fv st := by
  unfold axisData
  rw [List.foldl_append]
  rfl

theorem eqInput_cols {f g : Frame} {indy : String} {b : Bool} (I : EqInput f indy b) (h : g.cols = f.cols)
    (wf : FrameWF g) : EqInput g indy b where
  wf := wf
  nokey := by rw [h]; exact I.nokey
  valid := by rw [h]; exact I.valid
  lead := by rw [h]; exact I.lead
  indep := by rw [h]; exact I.indep

open Classical in
/-- The rows kept for one forecast variable and statistic: those selected by the last series variable whose case is
common to all series within the selected rows. -/
noncomputable def keptRows (f : Frame) (sv : String × List String) (vars : List (String × List String))
    (key : List Val → String) (p : String × String) : List (List Val) :=
  (f.rows.filter (fun r => decide (Selected f sv p.1 p.2 r))).filter
    (fun r => decide (IsCommonCase
      { f with rows := f.rows.filter (fun r => decide (Selected f sv p.1 p.2 r)) } vars key r))

theorem axisStep_ok (f : Frame) (indy : String) (init : List (String × List String)) (sv : String × List String)
    (fixVars : List String) (fixVals : List (List String)) (vars : List (String × List String))
    (key : List Val → String) (I : EqInput f indy true)
    (hvars : addFixVars (seriesVarsForEE (init ++ [sv])) fixVars fixVals = .ok vars)
    (hcols : ∀ v ∈ vars, v.1 ∈ f.cols) (hne : ∀ v ∈ vars, v.2 ≠ [])
    (hkey : ∀ r ∈ f.rows, IsCaseKey f indy true r (key r)) (hsv : sv.1 ∈ f.cols) (out : Frame)
    (p : String × String) :
    axisStep indy (init ++ [sv]) fixVars fixVals (f, out) p =
      .ok (f, out.appendOrReplace 
        { cols := f.cols ++ ["equalize"],
          rows := (keptRows f sv vars key p).map (fun r => r ++ [.str (key r)]) }) := by
  classical
  have hc := axisFilter_cols f sv p.1 p.2
  have hr := axisFilter_rows I.wf sv p.1 p.2
  have wf : FrameWF (axisFilter f sv p.1 p.2) := by
    intro r hm
    rw [hc]
    exact I.wf r ((mem_axisFilter I.wf sv p.1 p.2 r).mp hm).1
  obtain ⟨f', ee, h1, h2, h3, h4, h5⟩ := C01_keeps_exactly_common_cases (axisFilter f sv p.1 p.2) indy true
    (init ++ [sv]) fixVars fixVals vars key (eqInput_cols I hc wf) hvars (by rw [hc]; exact hcols) hne
    (fun r hm => (isCaseKey_cols hc indy true r _).mpr (hkey r ((mem_axisFilter I.wf sv p.1 p.2 r).mp hm).1))
  unfold axisStep
  simp only [axisData_append, h1, bind, Except.bind]
  have ha : axisAliased f (init ++ [sv]) = false := by
    unfold axisAliased
    simp [hsv]
  rw [ha]
  simp only [Bool.false_eq_true, if_false]
  congr 3
  cases ee with
  | mk ec er =>
    simp only at h3 h5
    rw [h3, h2, hc]
    congr 1
    rw [h5]
    unfold keptRows
    congr 1
    have e : axisFilter f sv p.1 p.2 =
        { f with rows := f.rows.filter (fun r => decide (Selected f sv p.1 p.2 r)) } := by
      cases hx : axisFilter f sv p.1 p.2 with
      | mk a b => rw [hx] at hc hr; simp only at hc hr; rw [hc, hr]
    rw [e]

theorem fold_ok (f : Frame) (indy : String) (init : List (String × List String)) (sv : String × List String)
    (fixVars : List String) (fixVals : List (List String)) (vars : List (String × List String))
    (key : List Val → String) (I : EqInput f indy true)
    (hvars : addFixVars (seriesVarsForEE (init ++ [sv])) fixVars fixVals = .ok vars)
    (hcols : ∀ v ∈ vars, v.1 ∈ f.cols) (hne : ∀ v ∈ vars, v.2 ≠ [])
    (hkey : ∀ r ∈ f.rows, IsCaseKey f indy true r (key r)) (hsv : sv.1 ∈ f.cols)
    (ps : List (String × String)) (rows : List (List Val)) (out : Frame)
    (hout : (out = { cols := [], rows := [] } ∧ rows = []) ∨
      out = { cols := f.cols ++ ["equalize"], rows := rows.map (fun r => r ++ [.str (key r)]) }) :
    ps.foldlM (axisStep indy (init ++ [sv]) fixVars fixVals) (f, out) =
      .ok (f, if ps = [] then out else
        { cols := f.cols ++ ["equalize"],
          rows := (rows ++ ps.flatMap (keptRows f sv vars key)).map (fun r => r ++ [.str (key r)]) }) := by
  induction ps generalizing rows out with
  | nil => rfl
  | cons p ps ih =>
    rw [List.foldlM_cons, axisStep_ok f indy init sv fixVars fixVals vars key I hvars hcols hne hkey hsv]
    simp only [bind, Except.bind]
    have hnew : out.appendOrReplace 
        { cols := f.cols ++ ["equalize"],
          rows := (keptRows f sv vars key p).map (fun r => r ++ [.str (key r)]) } =
        { cols := f.cols ++ ["equalize"],
          rows := (rows ++ keptRows f sv vars key p).map (fun r => r ++ [.str (key r)]) } := by
      rcases hout with ⟨rfl, rfl⟩ | rfl
      · simp [Frame.appendOrReplace, Frame.isEmpty]
      · unfold Frame.appendOrReplace Frame.isEmpty
        cases rows with
        | nil => simp
        | cons a rows => simp
    rw [hnew, ih (rows ++ keptRows f sv vars key p) _ (Or.inr rfl)]
    cases ps with
    | nil => simp
    | cons q ps => simp [List.append_assoc]

theorem dropCol_last (f : Frame) (nokey : "equalize" ∉ f.cols) (key : List Val → String) (rows : List (List Val))
    (hr : ∀ r ∈ rows, r.length = f.cols.length) :
    ({ cols := f.cols ++ ["equalize"], rows := rows.map (fun r => r ++ [.str (key r)]) } : Frame).dropCol "equalize" =
      { cols := f.cols, rows := rows } := by
  unfold Frame.dropCol
  rw [Frame.idx?_last nokey]
  simp only [Frame.mk.injEq]
  constructor
  · rw [List.eraseIdx_append_of_length_le (le_refl _)]; simp
  · rw [List.map_map]
    conv_rhs => rw [← List.map_id rows]
    apply List.map_congr_left
    intro r hm
    simp only [Function.comp, id]
    rw [← hr r hm, List.eraseIdx_append_of_length_le (le_refl _)]; simp

/-- What `equalize_axis_data` returns: for each forecast variable and statistic, the rows with a value listed for the
last series variable whose case is common to all series. -/
theorem C54_result (f : Frame) (indy : String) (fcst : List (String × List String))
    (init : List (String × List String)) (sv : String × List String)
    (fixVars : List String) (fixVals : List (List String)) (vars : List (String × List String))
    (key : List Val → String) (I : EqInput f indy true)
    (hvars : addFixVars (seriesVarsForEE (init ++ [sv])) fixVars fixVals = .ok vars)
    (hcols : ∀ v ∈ vars, v.1 ∈ f.cols) (hne : ∀ v ∈ vars, v.2 ≠ [])
    (hkey : ∀ r ∈ f.rows, IsCaseKey f indy true r (key r)) (hsv : sv.1 ∈ f.cols) :
    ∃ out, equalizeAxis f indy fcst (init ++ [sv]) fixVars fixVals = .ok out ∧
      out.rows = (fcst.flatMap (fun p => p.2.map (fun s => (p.1, s)))).flatMap (keptRows f sv vars key) ∧
      (fcst.flatMap (fun p => p.2.map (fun s => (p.1, s))) ≠ [] → out.cols = f.cols) := by
  unfold equalizeAxis
  generalize fcst.flatMap (fun p => p.2.map (fun s => (p.1, s))) = ps
  rw [fold_ok f indy init sv fixVars fixVals vars key I hvars hcols hne hkey hsv ps [] _ (Or.inl ⟨rfl, rfl⟩)]
  simp only [bind, Except.bind]
  refine ⟨_, rfl, ?_⟩
  by_cases hp : ps = []
  · subst hp
    simp [Frame.dropCol, Frame.idx?]
  · rw [if_neg hp, dropCol_last f I.nokey key]
    · simp
    · intro r hr
      simp only [List.nil_append, List.mem_flatMap, keptRows, List.mem_filter] at hr
      obtain ⟨p, -, ⟨h, -⟩, -⟩ := hr
      exact I.wf r h

/-- C54 for the last series variable (hence for a single one): every returned row is an input row with one of the
requested values of that variable, of a requested forecast variable and statistic.  Missing: the other series
variables, whose requested values are not enforced (`C54_counterexample`). -/
theorem C54_last_variable_partial (f : Frame) (indy : String) (fcst : List (String × List String))
    (init : List (String × List String)) (sv : String × List String)
    (fixVars : List String) (fixVals : List (List String)) (vars : List (String × List String)) (out : Frame)
    (I : EqInput f indy true)
    (hvars : addFixVars (seriesVarsForEE (init ++ [sv])) fixVars fixVals = .ok vars)
    (hcols : ∀ v ∈ vars, v.1 ∈ f.cols) (hne : ∀ v ∈ vars, v.2 ≠ []) (hsv : sv.1 ∈ f.cols)
    (h : equalizeAxis f indy fcst (init ++ [sv]) fixVars fixVals = .ok out) :
    ∀ r ∈ out.rows, r ∈ f.rows ∧ (∃ s ∈ sv.2.flatMap ungroup, HasCell f r sv.1 (.str s)) ∧
      ∃ p ∈ fcst, ("fcst_var" ∈ f.cols → HasCell f r "fcst_var" (.str p.1)) ∧
        ∃ st ∈ p.2, "stat_name" ∈ f.cols → HasCell f r "stat_name" (.str st) := by
  classical
  obtain ⟨key, hk⟩ := C01_case_key_exists I
  obtain ⟨out', h1, h2, -⟩ := C54_result f indy fcst init sv fixVars fixVals vars key I hvars hcols hne
    (fun r hr => (hk r hr _).mpr rfl) hsv
  rw [h] at h1
  simp only [Except.ok.injEq] at h1
  subst h1
  intro r hr
  rw [h2] at hr
  simp only [List.mem_flatMap, List.mem_map, keptRows, List.mem_filter, decide_eq_true_eq] at hr
  obtain ⟨p, ⟨q, hq, s, hs, rfl⟩, ⟨h3, h4, h5, h6⟩, -⟩ := hr
  exact ⟨h3, h4 hsv, q, hq, h5, s, hs, h6⟩

/-- Two models, one region. -/
def exAxis : Frame :=
  { cols := ["fcst_valid_beg", "fcst_lead", "model", "vx_mask", "fcst_var", "stat_name"],
    rows := [[.str "t1", .num 6 "6", .str "A", .str "X", .str "TMP", .str "ME"],
      [.str "t1", .num 6 "6", .str "B", .str "X", .str "TMP", .str "ME"],
      [.str "t2", .num 6 "6", .str "A", .str "Y", .str "TMP", .str "ME"]] }

/-- C54 as stated is false: only model A is requested, but the row of model B is kept; listing the variables in the
other order removes it. -/
theorem C54_counterexample :
    equalizeAxis exAxis "fcst_lead" [("TMP", ["ME"])] [("model", ["A"]), ("vx_mask", ["X"])] [] [] =
      .ok { exAxis with rows := exAxis.rows.take 2 } ∧
    equalizeAxis exAxis "fcst_lead" [("TMP", ["ME"])] [("vx_mask", ["X"]), ("model", ["A"])] [] [] =
      .ok { exAxis with rows := exAxis.rows.take 1 } := by
  decide +kernel

theorem exAxis_input : EqInput exAxis "fcst_lead" true where
  wf := by unfold FrameWF; decide
  nokey := by decide
  valid := by decide
  lead := by decide
  indep := by intro _ h; exact absurd (by decide) h

/-- The hypotheses of `C54_last_variable_partial` hold for the example. -/
example : ∀ r ∈ (exAxis.rows.take 2), r ∈ exAxis.rows ∧
    ∃ s ∈ (["X"] : List String).flatMap ungroup, HasCell exAxis r "vx_mask" (.str s) := by
  intro r hr
  have := C54_last_variable_partial exAxis "fcst_lead" [("TMP", ["ME"])] [("model", ["A"])] ("vx_mask", ["X"]) [] []
    [("model", ["A"]), ("vx_mask", ["X"])] _ exAxis_input (by decide +kernel) (by decide) (by decide) (by decide)
    C54_counterexample.1 r hr
  exact ⟨this.1, this.2.1⟩

/-! ### C83 -/

/-- C83 is false: when the cells of the last series variable are numbers, no row is kept, whatever values are
requested. -/
theorem C83_numeric_series_empty (f : Frame) (indy : String) (fcst : List (String × List String))
    (init : List (String × List String)) (sv : String × List String)
    (fixVars : List String) (fixVals : List (List String)) (vars : List (String × List String)) (out : Frame)
    (I : EqInput f indy true)
    (hvars : addFixVars (seriesVarsForEE (init ++ [sv])) fixVars fixVals = .ok vars)
    (hcols : ∀ v ∈ vars, v.1 ∈ f.cols) (hne : ∀ v ∈ vars, v.2 ≠ []) (hsv : sv.1 ∈ f.cols)
    (hnum : ∀ r ∈ f.rows, ∃ q t, HasCell f r sv.1 (.num q t))
    (h : equalizeAxis f indy fcst (init ++ [sv]) fixVars fixVals = .ok out) : out.rows = [] := by
  rw [List.eq_nil_iff_forall_not_mem]
  intro r hr
  obtain ⟨h1, ⟨s, -, h2⟩, -⟩ := C54_last_variable_partial f indy fcst init sv fixVars fixVals vars out I hvars hcols
    hne hsv h r hr
  obtain ⟨q, t, h3⟩ := hnum r h1
  obtain ⟨i, hi⟩ := Frame.idx?_of_mem hsv
  have := (hasCell_unique hi h2).symm.trans (hasCell_unique hi h3)
  simp at this

/-- Two levels, stored as numbers. -/
def exLevels : Frame :=
  { cols := ["fcst_valid_beg", "fcst_lead", "fcst_lev", "fcst_var", "stat_name"],
    rows := [[.str "t1", .num 6 "6", .num 500 "500", .str "TMP", .str "ME"],
      [.str "t1", .num 6 "6", .num 850 "850", .str "TMP", .str "ME"]] }

/-- C83 as stated is false: `event_equalize` keeps both rows of this frame, the equalization of the axis none. -/
theorem C83_counterexample :
    (∃ f' out, eventEqualize exLevels "fcst_lead" [("fcst_lev", ["500", "850"])] [] [] true = .ok (f', out) ∧
      out.rows.length = 2) ∧
    equalizeAxis exLevels "fcst_lead" [("TMP", ["ME"])] [("fcst_lev", ["500", "850"])] [] [] =
      .ok { exLevels with rows := [] } := by
  refine ⟨⟨(exLevels.setCol "equalize" (fun _ => .str "t1 6")), (exLevels.setCol "equalize" (fun _ => .str "t1 6")),
    ?_, ?_⟩, ?_⟩ <;> decide +kernel

/-- C83 for text cells: with one series variable whose cells are texts, every requested row whose case is common is
kept.  Missing: numeric cells. -/
theorem C83_text_partial (f : Frame) (indy : String) (fv st : String) (sv : String × List String)
    (vars : List (String × List String)) (key : List Val → String) (out : Frame) (I : EqInput f indy true)
    (hvars : addFixVars (seriesVarsForEE [sv]) [] [] = .ok vars)
    (hcols : ∀ v ∈ vars, v.1 ∈ f.cols) (hne : ∀ v ∈ vars, v.2 ≠ []) (hsv : sv.1 ∈ f.cols)
    (hkey : ∀ r ∈ f.rows, IsCaseKey f indy true r (key r))
    (h : equalizeAxis f indy [(fv, [st])] [sv] [] [] = .ok out) (r : List Val) (hr : r ∈ f.rows)
    (hsel : Selected f sv fv st r)
    (hcommon : ∀ p, Choice vars p → ∃ r' ∈ f.rows, Selected f sv fv st r' ∧ InSeries f p r' ∧ key r' = key r) :
    r ∈ out.rows := by
  classical
  obtain ⟨out', h1, h2, -⟩ := C54_result f indy [(fv, [st])] [] sv [] [] vars key I hvars hcols hne hkey hsv
  rw [List.nil_append, h] at h1
  simp only [Except.ok.injEq] at h1
  subst h1
  rw [h2]
  simp only [List.flatMap_cons, List.map_cons, List.map_nil, List.flatMap_nil, List.append_nil, keptRows,
    List.mem_filter, decide_eq_true_eq, List.cons_append, List.nil_append]
  refine ⟨⟨hr, hsel⟩, ?_⟩
  intro p hp
  obtain ⟨r', h3, h4, h5, h6⟩ := hcommon p hp
  exact ⟨r', by simp [h3, h4], h5, h6⟩

/-! ### C84 -/

theorem lookup_cons_if {β : Type*} (a k : String) (b : β) (d : List (String × β)) :
    ((a, b) :: d).lookup k = if k = a then some b else d.lookup k := by
  by_cases h : k = a
  · subst h; simp
  · have : (k == a) = false := by simpa using h
    rw [if_neg h]
    simp only [List.lookup, this]

theorem dictSet_lookup {β : Type*} (d : List (String × β)) (k k' : String) (v : β) :
    (dictSet d k v).lookup k' = if k' = k then some v else d.lookup k' := by
  have hmap : ∀ d : List (String × β), k' ≠ k ∨ d.any (fun p => p.1 == k) = true →
      (d.map (fun p => if p.1 == k then (k, v) else p)).lookup k' = if k' = k then some v else d.lookup k' := by
    intro d
    induction d with
    | nil => rintro (h | h); simp [h]; simp at h
    | cons p d ih =>
      obtain ⟨a, b⟩ := p
      intro h
      rw [List.map_cons, lookup_cons_if a]
      by_cases ha : a = k
      · subst ha
        simp only [beq_self_eq_true, if_true]
        rw [lookup_cons_if]
        by_cases hk : k' = a
        · simp [hk]
        · rw [if_neg hk, if_neg hk, if_neg hk, ih (Or.inl hk), if_neg hk]
      · have e1 : (a == k) = false := by simpa using ha
        simp only [e1, Bool.false_eq_true, if_false]
        rw [lookup_cons_if, ih (by simpa [e1] using h)]
        by_cases hk : k' = k
        · subst hk
          rw [if_neg (fun e => ha e.symm)]; simp
        · simp [hk]
  unfold dictSet
  by_cases hany : d.any (fun p => p.1 == k) = true
  · rw [if_pos hany]
    exact hmap d (Or.inr hany)
  · rw [if_neg hany, List.lookup_append]
    by_cases hk : k' = k
    · subst hk
      have : d.lookup k' = none := by
        rw [List.lookup_eq_none_iff]
        intro p hp
        simp only [List.any_eq_true, not_exists, not_and] at hany
        have := hany p hp
        simp only [beq_iff_eq] at this
        simpa using fun e => this e.symm
      simp [this]
    · rw [lookup_cons_if, if_neg hk, if_neg hk]
      simp

/-- C84: for a variable used on both axes the final equalization only asks for the values of the second axis; those
of the first axis are ignored.  (A variable of one axis keeps its values.) -/
theorem C84_second_axis_wins (s₁ s₂ : List (String × List String)) (hs₂ : (s₂.map Prod.fst).Nodup) (v : String) :
    (mergedSeries s₁ s₂).lookup v =
      match s₂.lookup v with
      | some l => some l.dedup
      | none => (s₁.lookup v).map List.dedup := by
  have key : ∀ (s₂ d : List (String × List String)), (s₂.map Prod.fst).Nodup →
      (s₂.foldl (fun d p => dictSet d p.1 p.2) d).lookup v = (s₂.lookup v).or (d.lookup v) := by
    intro s₂
    induction s₂ with
    | nil => intro d _; simp
    | cons p s₂ ih =>
      intro d hn
      obtain ⟨a, b⟩ := p
      simp only [List.map_cons, List.nodup_cons] at hn
      rw [List.foldl_cons, ih _ hn.2, dictSet_lookup, lookup_cons_if]
      by_cases hv : v = a
      · subst hv
        have : s₂.lookup v = none := by
          rw [List.lookup_eq_none_iff]
          intro p hp
          have : p.1 ≠ v := fun e => hn.1 (List.mem_map.mpr ⟨p, hp, e⟩)
          simpa using fun e => this e.symm
        simp [this]
      · simp [hv]
  have hmap : ∀ l : List (String × List String), (l.map (fun p => (p.1, p.2.dedup))).lookup v =
      (l.lookup v).map List.dedup := by
    intro l
    induction l with
    | nil => rfl
    | cons p l ih =>
      obtain ⟨a, b⟩ := p
      rw [List.map_cons, lookup_cons_if, lookup_cons_if, ih]
      split <;> rfl
  unfold mergedSeries
  rw [hmap, key s₂ s₁ hs₂]
  cases s₂.lookup v <;> simp

open Classical in
/-- C84 (what is kept): the rows kept are those rows of the two equalized axes whose case (valid time, lead, independent
value) is present, in the rows of both axes together, for every choice of values of the merged series and the fixed
variables. -/
theorem C84_result (f : Frame) (indy : String) (fcst₁ fcst₂ s₁ s₂ : List (String × List String)) (fixVars : List String)
    (fixVals : List (List String)) (vars : List (String × List String)) (key : List Val → String) (o₁ o₂ g : Frame)
    (I : EqInput f indy true) (h₁ : equalizeAxis f indy fcst₁ s₁ fixVars fixVals = .ok o₁)
    (h₂ : equalizeAxis f indy fcst₂ s₂ fixVars fixVals = .ok o₂) (hrows : ∀ r ∈ o₁.rows ++ o₂.rows, r ∈ f.rows)
    (hvars : addFixVars (seriesVarsForEE (mergedSeries s₁ s₂)) fixVars fixVals = .ok vars)
    (hcols : ∀ v ∈ vars, v.1 ∈ f.cols) (hne : ∀ v ∈ vars, v.2 ≠ [])
    (hkey : ∀ r ∈ f.rows, IsCaseKey f indy true r (key r)) (hg : g = { f with rows := o₁.rows ++ o₂.rows }) :
    equalizeTwoAxes f indy fcst₁ fcst₂ s₁ s₂ fixVars fixVals =
      .ok { f with rows := (o₁.rows ++ o₂.rows).filter (fun r => decide (IsCommonCase g vars key r)) } := by
  have Ig : EqInput g indy true := by
    subst hg
    exact ⟨fun r hr => I.wf r (hrows r hr), I.nokey, I.valid, I.lead, I.indep⟩
  obtain ⟨f', out, e, hc', hco, -, hro⟩ := C01_keeps_exactly_common_cases g indy true (mergedSeries s₁ s₂) fixVars fixVals
    vars key Ig hvars (by subst hg; exact hcols) hne (by
      intro r hr
      subst hg
      exact hkey r (hrows r hr))
  unfold equalizeTwoAxes
  rw [h₁, h₂]
  simp only [bind, Except.bind]
  rw [← hg, e]
  simp only
  congr 1
  have : out = ({ cols := g.cols ++ ["equalize"],
                  rows := (g.rows.filter (fun r => decide (IsCommonCase g vars key r))).map
                    (fun r => r ++ [.str (key r)]) } : Frame) := by
    cases out
    simp only at hco hro
    rw [hco, hc', hro]
  rw [this]
  rw [dropCol_last g Ig.nokey key _ (fun r hr => Ig.wf r (List.mem_of_mem_filter hr))]
  subst hg
  rfl

/-- Models A (first axis) and B (second axis) with one common and one single case. -/
def exTwoAxes : Frame :=
  { cols := ["fcst_valid_beg", "fcst_lead", "model", "fcst_var", "stat_name"],
    rows := [[.str "t1", .num 6 "6", .str "A", .str "TMP", .str "ME"],
      [.str "t1", .num 6 "6", .str "B", .str "TMP", .str "ME"],
      [.str "t2", .num 6 "6", .str "B", .str "TMP", .str "ME"]] }

/-- C84 (example): the hypotheses of `C84_result` hold for it. -/
example : ∃ rows, equalizeTwoAxes exTwoAxes "fcst_lead" [("TMP", ["ME"])] [("TMP", ["ME"])] [("model", ["A"])]
    [("model", ["B"])] [] [] = .ok { exTwoAxes with rows := rows } := by
  have I : EqInput exTwoAxes "fcst_lead" true :=
    ⟨by unfold FrameWF; decide, by decide, by decide, by decide, fun _ h => absurd (by decide) h⟩
  obtain ⟨key, hk⟩ := C01_case_key_exists I
  exact ⟨_, C84_result exTwoAxes "fcst_lead" [("TMP", ["ME"])] [("TMP", ["ME"])] [("model", ["A"])] [("model", ["B"])] [] []
    [("model", ["B"])] key { exTwoAxes with rows := exTwoAxes.rows.take 1 } { exTwoAxes with rows := exTwoAxes.rows.drop 1 }
    _ I (by decide +kernel) (by decide +kernel) (by decide) (by decide +kernel) (by decide) (by decide)
    (fun r hr => (hk r hr _).mpr rfl) rfl⟩

/-- C84 as stated is false: the case t2 exists only for model B of the second axis, yet its row is kept. -/
theorem C84_counterexample :
    equalizeTwoAxes exTwoAxes "fcst_lead" [("TMP", ["ME"])] [("TMP", ["ME"])] [("model", ["A"])] [("model", ["B"])]
      [] [] = .ok exTwoAxes := by
  decide +kernel

end Metcalcpy.Props
