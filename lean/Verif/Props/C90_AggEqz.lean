/-
C90  Equalization of attribute statistics against stored cases keeps the requested rows once (false for several series
     variables).
C91  Equalization of attribute statistics on two axes leaves the same cases on both (false).
-/
import Verif.Model.AggEqz
import Verif.Props.C04_EqualizeAgainstValues
import Verif.Props.C54_EqualizeAxis

namespace Metcalcpy.Props
open Metcalcpy Spec

/-- Row `r` is of the forecast variable and has one of the (ungrouped) values listed for the series variable. -/
def Requested (f : Frame) (fv : String) (sv : String × List String) (r : List Val) : Prop :=
  HasCell f r "fcst_var" (.str fv) ∧ ∃ s ∈ plainUngroup sv.2, HasCell f r sv.1 (.str s)

open Classical in
theorem eqzFilter_ok (f : Frame) (wf : FrameWF f) (fv : String) (sv : String × List String) (h1 : "fcst_var" ∈ f.cols)
    (h2 : sv.1 ∈ f.cols) :
    eqzFilter f fv sv = .ok { f with rows := f.rows.filter fun r => decide (Requested f fv sv r) } := by
  obtain ⟨i, hi⟩ := Frame.idx?_of_mem h1
  obtain ⟨j, hj⟩ := Frame.idx?_of_mem h2
  have e : ∀ r ∈ f.rows, (isinTexts (cellAt r i) [fv] && isinTexts (cellAt r j) (plainUngroup sv.2)) =
      decide (Requested f fv sv r) := by
    intro r hr
    rw [Bool.eq_iff_iff, Bool.and_eq_true, decide_eq_true_iff]
    unfold Requested
    have c : ∀ (k : ℕ) (name : String) (l : List String), f.idx? name = some k →
        (isinTexts (cellAt r k) l = true ↔ ∃ s ∈ l, HasCell f r name (.str s)) := by
      intro k name l hk
      have hx := hasCell_cellAt hk (wf r hr)
      constructor
      · intro h
        cases hv : cellAt r k with
        | str s => rw [hv] at h hx; exact ⟨s, by simpa [isinTexts] using h, hx⟩
        | num q t => rw [hv] at h; simp [isinTexts] at h
        | null => rw [hv] at h; simp [isinTexts] at h
      · rintro ⟨s, hs, h⟩
        rw [hasCell_unique hk h]
        simpa [isinTexts] using hs
    rw [c i _ _ hi, c j _ _ hj]
    simp
  simp only [eqzFilter, Frame.col, hi, hj, bind, Except.bind, pure, Except.pure, Frame.filterRows, Except.ok.injEq,
    Frame.mk.injEq, true_and]
  exact List.filter_congr e

/-- `k` is the stored case key of row `r` of the file of stored cases. -/
def IsStoredCase (prev : Frame) (r : List Val) (k : String) : Prop :=
  ∃ v, HasCell prev r "equalize" v ∧ k = v.text

/-- The row has one of the stored cases of the same forecast variable and series variable. -/
def HasStoredCase (f prev : Frame) (fv : String) (sv : String × List String) (r : List Val) : Prop :=
  ∃ k, IsStoredKey f r k ∧ ∃ p ∈ prev.rows, Requested prev fv sv p ∧ IsStoredCase prev p k

/-- Input of the equalization against stored cases. -/
structure EqzInput (f prev : Frame) (sv : String × List String) : Prop where
  wf : FrameWF f
  wfp : FrameWF prev
  var : "fcst_var" ∈ f.cols
  varp : "fcst_var" ∈ prev.cols
  sv_mem : sv.1 ∈ f.cols
  sv_memp : sv.1 ∈ prev.cols
  valid : "fcst_valid" ∈ f.cols
  lead : "fcst_lead" ∈ f.cols
  nokey : "equalize" ∉ f.cols
  keyp : "equalize" ∈ prev.cols

open Classical in
theorem eqzStep_ok (f prev out : Frame) (fv : String) (sv : String × List String) (I : EqzInput f prev sv)
    (hout : out.cols = [] ∧ out.rows = [] ∨ out.cols = f.cols ∧ out.rows ≠ []) :
    ∃ out', eqzStep f prev out (fv, sv) = .ok out' ∧
      out'.rows = out.rows ++
        f.rows.filter (fun r => decide (Requested f fv sv r ∧ HasStoredCase f prev fv sv r)) ∧
      (out'.cols = [] ∧ out'.rows = [] ∨ out'.cols = f.cols ∧ out'.rows ≠ []) := by
  set g : Frame := { f with rows := f.rows.filter fun r => decide (Requested f fv sv r) } with hg
  set q : Frame := { prev with rows := prev.rows.filter fun r => decide (Requested prev fv sv r) } with hq
  have hgf : eqzFilter f fv sv = .ok g := eqzFilter_ok f I.wf fv sv I.var I.sv_mem
  have hqf : eqzFilter prev fv sv = .ok q := eqzFilter_ok prev I.wfp fv sv I.varp I.sv_memp
  obtain ⟨k, hk⟩ := Frame.idx?_of_mem (f := q) I.keyp
  have hgwf : FrameWF g := fun r hr => I.wf r (List.mem_filter.mp hr).1
  obtain ⟨f', ee, h1, h2, h3⟩ := C04_keeps_exactly_listed_cases g (q.rows.map fun r => (cellAt r k).text) hgwf I.valid
    I.lead I.nokey
  have hee : ee.rows = f.rows.filter (fun r => decide (Requested f fv sv r ∧ HasStoredCase f prev fv sv r)) := by
    rw [h2, hg, List.filter_filter]
    apply List.filter_congr
    intro r hr
    rw [Bool.eq_iff_iff, Bool.and_eq_true, decide_eq_true_iff, decide_eq_true_iff, decide_eq_true_iff]
    have : (∃ c ∈ q.rows.map (fun r => (cellAt r k).text), IsStoredKey g r c) ↔ HasStoredCase f prev fv sv r := by
      constructor
      · rintro ⟨c, hc, hs⟩
        obtain ⟨p, hp, rfl⟩ := List.mem_map.mp hc
        obtain ⟨hp1, hp2⟩ := List.mem_filter.mp hp
        refine ⟨_, hs, p, hp1, by simpa using hp2, _, ?_, rfl⟩
        exact hasCell_cellAt (f := prev) hk (I.wfp p hp1)
      · rintro ⟨c, hs, p, hp, hreq, v, hv, rfl⟩
        refine ⟨_, List.mem_map.mpr ⟨p, List.mem_filter.mpr ⟨hp, by simpa using hreq⟩, ?_⟩, hs⟩
        rw [hasCell_unique (f := prev) hk hv]
    change (∃ c ∈ q.rows.map (fun r => (cellAt r k).text), IsStoredKey g r c) ∧ _ ↔ _
    rw [this]
    exact and_comm
  refine ⟨out.appendOrReplace ee, ?_, ?_, ?_⟩
  · simp only [eqzStep, hgf, hqf, bind, Except.bind, Frame.col, hk, h1, pure, Except.pure]
  · rw [← hee]
    unfold Frame.appendOrReplace Frame.isEmpty
    rcases hout with ⟨a, b⟩ | ⟨a, b⟩
    · simp [a, b]
    · have hfc : f.cols ≠ [] := List.ne_nil_of_mem I.var
      simp [a, b, hfc]
  · have hec : ee.cols = [] ∧ ee.rows = [] ∨ ee.cols = f.cols ∧ ee.rows ≠ [] := by
      by_cases he : ee.rows = []
      · left; rw [if_pos he] at h3; exact ⟨h3, he⟩
      · right; rw [if_neg he] at h3; exact ⟨h3, he⟩
    unfold Frame.appendOrReplace Frame.isEmpty
    rcases hout with ⟨a, b⟩ | ⟨a, b⟩
    · simpa [a] using hec
    · have hfc : f.cols ≠ [] := List.ne_nil_of_mem I.var
      simp [a, b, hfc]

open Classical in
/-- C90 for one series variable: for each forecast variable in turn, exactly the rows of that variable with a listed series
value whose case is stored for the same forecast variable and series values, unchanged and in order.  Missing: several
series variables, where the code appends the selections of the single variables (`C90_two_variables_counterexample`). -/
theorem C90_one_variable_partial (f prev : Frame) (fcstVars : List String) (sv : String × List String)
    (I : EqzInput f prev sv) :
    ∃ out, eqzAxis f prev fcstVars [sv] = .ok out ∧
      out.rows = (fcstVars.flatMap fun fv =>
        f.rows.filter (fun r => decide (Requested f fv sv r ∧ HasStoredCase f prev fv sv r))) ∧
      out.cols = if out.rows = [] then [] else f.cols := by
  have gen : ∀ (fvs : List String) (out : Frame),
      (out.cols = [] ∧ out.rows = [] ∨ out.cols = f.cols ∧ out.rows ≠ []) →
      ∃ out', (fvs ×ˢ [sv]).foldlM (eqzStep f prev) out = .ok out' ∧
        out'.rows = (out.rows ++ fvs.flatMap fun fv =>
          f.rows.filter (fun r => decide (Requested f fv sv r ∧ HasStoredCase f prev fv sv r))) ∧
        (out'.cols = [] ∧ out'.rows = [] ∨ out'.cols = f.cols ∧ out'.rows ≠ []) := by
    intro fvs
    induction fvs with
    | nil => intro out h; exact ⟨out, rfl, by simp, h⟩
    | cons fv fvs ih =>
      intro out hout
      obtain ⟨o1, e1, e2, e3⟩ := eqzStep_ok f prev out fv sv I hout
      obtain ⟨o2, e4, e5, e6⟩ := ih o1 e3
      refine ⟨o2, ?_, ?_, e6⟩
      · change ((fv, sv) :: (fvs ×ˢ [sv])).foldlM (eqzStep f prev) out = _
        simp only [List.foldlM_cons, e1, bind, Except.bind]
        exact e4
      · rw [e5, e2, List.flatMap_cons, List.append_assoc]
  obtain ⟨out, h1, h2, h3⟩ := gen fcstVars { cols := [], rows := [] } (Or.inl ⟨rfl, rfl⟩)
  refine ⟨out, h1, by simpa using h2, ?_⟩
  rcases h3 with ⟨h, h'⟩ | ⟨h, h'⟩ <;> simp [h, h']

open Classical in
/-- C90 for one series variable on each axis, or on the first axis only: the table written has the rows of the first axis and
then those of the second, under the columns of the input (no columns if there are no rows). -/
theorem C90_two_axes_partial (f prev : Frame) (fcst₁ fcst₂ : List String) (sv₁ : String × List String)
    (s₂ : List (String × List String)) (hf : f.rows ≠ []) (I₁ : EqzInput f prev sv₁)
    (h₂ : s₂ = [] ∨ ∃ sv₂, s₂ = [sv₂] ∧ EqzInput f prev sv₂) :
    ∃ out, aggStatEqz f prev true fcst₁ fcst₂ [sv₁] s₂ = .ok out ∧
      out.rows = (fcst₁.flatMap fun fv =>
          f.rows.filter (fun r => decide (Requested f fv sv₁ r ∧ HasStoredCase f prev fv sv₁ r))) ++
        (s₂.flatMap fun sv₂ => fcst₂.flatMap fun fv =>
          f.rows.filter (fun r => decide (Requested f fv sv₂ r ∧ HasStoredCase f prev fv sv₂ r))) ∧
      out.cols = if out.rows = [] then [] else f.cols := by
  have hfc : f.cols ≠ [] := List.ne_nil_of_mem I₁.var
  have he : (!f.isEmpty && true) = true := by simp [Frame.isEmpty, hf, hfc]
  obtain ⟨o1, e1, r1, c1⟩ := C90_one_variable_partial f prev fcst₁ sv₁ I₁
  unfold aggStatEqz
  rw [he, if_pos rfl, e1]
  rcases h₂ with rfl | ⟨sv₂, rfl, I₂⟩
  · exact ⟨o1, rfl, by simp [r1], c1⟩
  · obtain ⟨o2, e2, r2, c2⟩ := C90_one_variable_partial f prev fcst₂ sv₂ I₂
    refine ⟨concatFrames o1 o2, ?_, ?_, ?_⟩
    · simp only [bind, Except.bind, ne_eq, List.cons_ne_self, not_false_eq_true, if_true, e2, reduceCtorEq]
      rfl
    · simp only [concatFrames, r1, r2, List.flatMap_cons, List.flatMap_nil, List.append_nil]
    · show (if o1.cols = [] then o2.cols else o1.cols) = if o1.rows ++ o2.rows = [] then [] else f.cols
      rw [c1, c2]
      by_cases h1 : o1.rows = [] <;> by_cases h2 : o2.rows = [] <;> simp [h1, h2, hfc]

/-- Stored and new attribute statistics of one model and region. -/
def exEqz : Frame :=
  { cols := ["model", "vx_mask", "fcst_var", "fcst_valid", "fcst_lead"]
    rows := [[.str "A", .str "X", .str "APCP", .str "d1", .num 12 "12"],
             [.str "B", .str "X", .str "APCP", .str "d1", .num 12 "12"],
             [.str "A", .str "X", .str "APCP", .str "d2", .num 12 "12"]] }

def exEqzPrev : Frame :=
  { cols := ["model", "vx_mask", "fcst_var", "equalize"]
    rows := [[.str "A", .str "X", .str "APCP", .str "d1 12"]] }

example : EqzInput exEqz exEqzPrev ("model", ["A"]) where
  wf := by unfold FrameWF; decide
  wfp := by unfold FrameWF; decide
  var := by decide
  varp := by decide
  sv_mem := by decide
  sv_memp := by decide
  valid := by decide
  lead := by decide
  nokey := by decide
  keyp := by decide

example : aggStatEqz exEqz exEqzPrev true ["APCP"] ["APCP"] [("model", ["B"])] [("model", ["A"])] =
    .ok { exEqz with rows := exEqz.rows.take 1 } := by
  decide +kernel

example : eqzAxis exEqz exEqzPrev ["APCP"] [("model", ["A"])] = .ok { exEqz with rows := exEqz.rows.take 1 } := by
  decide +kernel

/-- C90 is false: with the two series variables model = A and vx_mask = X, the row of model A is returned twice, and the row
of model B, which was not requested, once. -/
theorem C90_two_variables_counterexample :
    aggStatEqz exEqz exEqzPrev true ["APCP"] [] [("model", ["A"]), ("vx_mask", ["X"])] [] =
      .ok { exEqz with rows := [[.str "A", .str "X", .str "APCP", .str "d1", .num 12 "12"],
        [.str "A", .str "X", .str "APCP", .str "d1", .num 12 "12"],
        [.str "B", .str "X", .str "APCP", .str "d1", .num 12 "12"]] } := by
  decide +kernel

open Classical in
/-- C91 for one axis with one series variable: the rows with a listed value whose case is common to all series, with the key
column.  Missing: several series variables and the second axis, see the counterexamples. -/
theorem C91_one_axis_partial (f : Frame) (indy : String) (sv : String × List String) (fixVars : List String)
    (fixVals : List (List String)) (vars : List (String × List String)) (key : List Val → String)
    (I : EqInput f indy true) (hsv : sv.1 ∈ f.cols) (hne0 : f.rows ≠ [])
    (hvars : addFixVars (seriesVarsForEE [sv]) fixVars fixVals = .ok vars)
    (hcols : ∀ v ∈ vars, v.1 ∈ f.cols) (hne : ∀ v ∈ vars, v.2 ≠ [])
    (hkey : ∀ r ∈ f.rows, IsCaseKey f indy true r (key r)) :
    let sel : Frame :=
      { f with rows := f.rows.filter fun r => decide (∃ s ∈ plainUngroup sv.2, HasCell f r sv.1 (.str s)) }
    aggStatEqualize f indy [sv] [] fixVars fixVals = .ok
      { cols := f.cols ++ ["equalize"]
        rows := (sel.rows.filter fun r => decide (IsCommonCase sel vars key r)).map fun r => r ++ [.str (key r)] } := by
  intro sel
  obtain ⟨j, hj⟩ := Frame.idx?_of_mem hsv
  have hwf : FrameWF sel := fun r hr => I.wf r (List.mem_filter.mp hr).1
  have hfil : (f.filterRows fun r => isinTexts (cellAt r j) (plainUngroup sv.2)) = sel := by
    unfold Frame.filterRows
    simp only [sel, Frame.mk.injEq, true_and]
    apply List.filter_congr
    intro r hr
    rw [Bool.eq_iff_iff, decide_eq_true_iff]
    have hx := hasCell_cellAt hj (I.wf r hr)
    constructor
    · intro h
      cases hv : cellAt r j with
      | str s => rw [hv] at h hx; exact ⟨s, by simpa [isinTexts] using h, hx⟩
      | num q t => rw [hv] at h; simp [isinTexts] at h
      | null => rw [hv] at h; simp [isinTexts] at h
    · rintro ⟨s, hs, h⟩
      rw [hasCell_unique hj h]
      simpa [isinTexts] using hs
  obtain ⟨f', ee, h1, h2, h3, h4, h5⟩ := C01_keeps_exactly_common_cases sel indy true [sv] fixVars fixVals vars key
    (eqInput_cols I rfl hwf) hvars hcols hne
    (fun r hm => (isCaseKey_cols (f := sel) (g := f) rfl indy true r _).mpr (hkey r (List.mem_filter.mp hm).1))
  have hfe : f.isEmpty = false := by
    have : f.cols ≠ [] := List.ne_nil_of_mem hsv
    simp [Frame.isEmpty, hne0, this]
  unfold aggStatEqualize
  have hfe' : (f.cols.isEmpty || f.rows.isEmpty) = false := hfe
  simp only [hfe, hfe', Bool.false_eq_true, if_false, aggEqualizeAxis, List.foldlM_cons, List.foldlM_nil, Frame.col, hj,
    bind, Except.bind, hfil, h1, pure, Except.pure, ne_eq, not_true, Frame.appendOrReplace, Frame.isEmpty,
    List.isEmpty_nil, Bool.true_or, if_true, Except.ok.injEq]
  cases ee with
  | mk c r =>
    simp only at h3 h5
    rw [h3, h2, h5]

open Classical in
/-- The rows with a listed value of a series variable. -/
noncomputable def listedRows (f : Frame) (sv : String × List String) : Frame :=
  { f with rows := f.rows.filter fun r => decide (∃ s ∈ plainUngroup sv.2, HasCell f r sv.1 (.str s)) }

open Classical in
/-- The rows with a listed value whose case all series of the axis have. -/
noncomputable def commonRows (f : Frame) (sv : String × List String) (vars : List (String × List String))
    (key : List Val → String) : List (List Val) :=
  (listedRows f sv).rows.filter fun r => decide (IsCommonCase (listedRows f sv) vars key r)

theorem axis_one (f : Frame) (indy : String) (sv : String × List String) (fixVars : List String)
    (fixVals : List (List String)) (vars : List (String × List String)) (key : List Val → String)
    (I : EqInput f indy true) (hsv : sv.1 ∈ f.cols) (hne0 : f.rows ≠ [])
    (hvars : addFixVars (seriesVarsForEE [sv]) fixVars fixVals = .ok vars)
    (hcols : ∀ v ∈ vars, v.1 ∈ f.cols) (hne : ∀ v ∈ vars, v.2 ≠ [])
    (hkey : ∀ r ∈ f.rows, IsCaseKey f indy true r (key r)) :
    aggEqualizeAxis f indy [sv] fixVars fixVals = .ok
      { cols := f.cols ++ ["equalize"]
        rows := (commonRows f sv vars key).map fun r => r ++ [.str (key r)] } := by
  have h := C91_one_axis_partial f indy sv fixVars fixVals vars key I hsv hne0 hvars hcols hne hkey
  have hfe : f.isEmpty = false := by
    have : f.cols ≠ [] := List.ne_nil_of_mem hsv
    simp [Frame.isEmpty, hne0, this]
  unfold aggStatEqualize at h
  rw [hfe] at h
  cases ha : aggEqualizeAxis f indy [sv] fixVars fixVals with
  | error e => rw [ha] at h; cases h
  | ok o =>
    rw [ha] at h
    simp only [Bool.false_eq_true, if_false, bind, Except.bind, ne_eq, not_true, pure, Except.pure] at h
    rw [h]
    rfl

theorem addFixVars_same : ∀ (fixVars : List String) (fixVals : List (List String)) (d d' vars : List (String × List String)),
    SameValues d d' → addFixVars d fixVars fixVals = .ok vars →
      ∃ vars', addFixVars d' fixVars fixVals = .ok vars' ∧ SameValues vars vars' := by
  have hset : ∀ (d d' : List (String × List String)) (k : String) (w : List String), SameValues d d' →
      SameValues (dictSet d k w) (dictSet d' k w) := by
    intro d d' k w h
    have hany : d.any (fun p => p.1 == k) = d'.any (fun p => p.1 == k) := by
      induction h with
      | nil => rfl
      | @cons x y l l' hxy _ ih => simp [List.any_cons, hxy.1, ih]
    unfold dictSet
    rw [hany]
    split
    · rename_i hx
      clear hx hany
      induction h with
      | nil => exact .nil
      | @cons x y l l' hxy _ ih =>
        simp only [List.map_cons]
        refine .cons ?_ ih
        by_cases hk : y.1 = k
        · simp [hxy.1, hk]
        · simp [hxy.1, hk, hxy.2]
    · exact List.rel_append h (.cons ⟨rfl, fun _ => Iff.rfl⟩ .nil)
  intro fixVars
  induction fixVars with
  | nil => intro vals d d' vars h e; cases e; exact ⟨d', rfl, h⟩
  | cons v vs ih =>
    intro vals d d' vars h e
    unfold addFixVars at e ⊢
    by_cases hv : v ∈ exceptionColumns
    · rw [if_pos hv] at e ⊢; exact ih _ _ _ _ h e
    · rw [if_neg hv] at e ⊢
      cases vals with
      | nil => cases e
      | cons w ws => exact ih _ _ _ _ (hset d d' v w h) e

theorem seriesVars_twice (sv : String × List String) :
    SameValues (seriesVarsForEE [sv]) (seriesVarsForEE [(sv.1, (sv.2 ++ sv.2).dedup)]) := by
  unfold seriesVarsForEE
  simp only [List.foldl_cons, List.foldl_nil]
  split
  · exact .nil
  · refine .cons ⟨rfl, fun v => ?_⟩ .nil
    simp [List.mem_flatMap]

open Classical in
/-- C91 for two axes with one series variable each, what is written: the rows of the first axis that are common to its series
and whose case every series of the *second* axis has among the rows left, then *all* rows of the second axis that are common to
its own series: whether the first axis has their cases is not asked.  Missing: exactly that, see the counterexample. -/
theorem C91_two_axes_partial (f : Frame) (indy : String) (sv₁ sv₂ : String × List String) (fixVars : List String)
    (fixVals : List (List String)) (vars₁ vars₂ : List (String × List String)) (key : List Val → String)
    (I : EqInput f indy true) (hsv₁ : sv₁.1 ∈ f.cols) (hsv₂ : sv₂.1 ∈ f.cols) (hne0 : f.rows ≠ [])
    (hvars₁ : addFixVars (seriesVarsForEE [sv₁]) fixVars fixVals = .ok vars₁)
    (hvars₂ : addFixVars (seriesVarsForEE [sv₂]) fixVars fixVals = .ok vars₂)
    (hcols₁ : ∀ v ∈ vars₁, v.1 ∈ f.cols) (hne₁ : ∀ v ∈ vars₁, v.2 ≠ [])
    (hcols₂ : ∀ v ∈ vars₂, v.1 ∈ f.cols) (hne₂ : ∀ v ∈ vars₂, v.2 ≠ [])
    (hkey : ∀ r ∈ f.rows, IsCaseKey f indy true r (key r)) :
    let left : Frame := { f with rows := commonRows f sv₁ vars₁ key ++ commonRows f sv₂ vars₂ key }
    aggStatEqualize f indy [sv₁] [sv₂] fixVars fixVals = .ok
      { cols := f.cols ++ ["equalize"]
        rows := ((commonRows f sv₁ vars₁ key).filter (fun r => decide (IsCommonCase left vars₂ key r)) ++
          commonRows f sv₂ vars₂ key).map fun r => r ++ [.str (key r)] } := by
  intro left
  have a1 := axis_one f indy sv₁ fixVars fixVals vars₁ key I hsv₁ hne0 hvars₁ hcols₁ hne₁ hkey
  have a2 := axis_one f indy sv₂ fixVars fixVals vars₂ key I hsv₂ hne0 hvars₂ hcols₂ hne₂ hkey
  have sub : ∀ sv vars, ∀ r ∈ commonRows f sv vars key, r ∈ f.rows := by
    intro sv vars r hr
    exact (List.mem_filter.mp (List.mem_filter.mp hr).1).1
  have hleft : ∀ r ∈ left.rows, r ∈ f.rows := by
    intro r hr
    rcases List.mem_append.mp hr with h | h
    · exact sub _ _ r h
    · exact sub _ _ r h
  have hfe : f.isEmpty = false := by
    have : f.cols ≠ [] := List.ne_nil_of_mem hsv₁
    simp [Frame.isEmpty, hne0, this]
  have drop : ∀ sv vars, (Frame.mk (f.cols ++ ["equalize"])
      ((commonRows f sv vars key).map fun r => r ++ [.str (key r)])).dropKey =
      .ok { cols := f.cols, rows := commonRows f sv vars key } := by
    intro sv vars
    unfold Frame.dropKey
    rw [if_pos (by simp), dropCol_last f I.nokey key _ (fun r hr => I.wf r (sub _ _ r hr))]
  have hcat : concatFrames { cols := f.cols, rows := commonRows f sv₁ vars₁ key }
      { cols := f.cols, rows := commonRows f sv₂ vars₂ key } = left := by
    unfold concatFrames
    simp only [ite_self, left]
  obtain ⟨vars₃, hv₃, hs⟩ := addFixVars_same fixVars fixVals _ _ _ (seriesVars_twice sv₂) hvars₂
  obtain ⟨f', ee, h1, h2, h3, h4, h5⟩ := C01_keeps_exactly_common_cases left indy true [(sv₂.1, (sv₂.2 ++ sv₂.2).dedup)]
    fixVars fixVals vars₃ key (eqInput_cols I rfl (fun r hr => I.wf r (hleft r hr))) hv₃
    ((same_cols hs _).mp hcols₂) ((same_ne hs).mp hne₂)
    (fun r hm => (isCaseKey_cols (f := left) (g := f) rfl indy true r _).mpr (hkey r (hleft r hm)))
  unfold aggStatEqualize
  rw [hfe, a1]
  simp only [Bool.false_eq_true, if_false, bind, Except.bind, ne_eq, not_false_eq_true, if_true, reduceCtorEq, a2, drop, hcat,
    List.map_cons, List.map_nil, h1, pure, Except.pure, Except.ok.injEq]
  cases ee with
  | mk c rows =>
    simp only at h3 h5
    rw [h3, h2, h5]
    simp only [Frame.mk.injEq]
    refine ⟨rfl, ?_⟩
    congr 1
    have hiff : ∀ r, IsCommonCase left vars₃ key r ↔ IsCommonCase left vars₂ key r := by
      intro r
      unfold IsCommonCase
      exact forall_congr' fun p => by rw [choice_same hs p]
    simp only [hiff]
    change (commonRows f sv₁ vars₁ key ++ commonRows f sv₂ vars₂ key).filter _ = _
    rw [List.filter_append]
    congr 1
    rw [List.filter_eq_self]
    intro r hr
    rw [decide_eq_true_iff]
    intro p hp
    have hr' := (List.mem_filter.mp hr).2
    rw [decide_eq_true_iff] at hr'
    obtain ⟨r', hm, hin, hk⟩ := hr' p hp
    refine ⟨r', ?_, hin, hk⟩
    refine List.mem_append_right _ (List.mem_filter.mpr ⟨hm, ?_⟩)
    rw [decide_eq_true_iff]
    intro q hq
    obtain ⟨r'', hm', hin', hk'⟩ := hr' q hq
    exact ⟨r'', hm', hin', hk'.trans hk.symm⟩

/-- C90, C91: without the request, or without rows, the frame is written as it is (nothing, for C91). -/
theorem C90_not_requested (f prev : Frame) (e : Bool) (fcst₁ fcst₂ : List String) (s₁ s₂ : List (String × List String))
    (h : e = false ∨ f.rows = []) : aggStatEqz f prev e fcst₁ fcst₂ s₁ s₂ = .ok f := by
  unfold aggStatEqz
  have : (!f.isEmpty && e) = false := by
    rcases h with h | h <;> simp [h, Frame.isEmpty]
  rw [this]; rfl

/-- Two cases on axis 2 (model B), one of which is on axis 1 (model A) as well. -/
def exAxes : Frame :=
  { cols := ["model", "fcst_valid", "fcst_lead"]
    rows := [[.str "A", .str "d1", .num 12 "12"],
             [.str "B", .str "d1", .num 12 "12"],
             [.str "B", .str "d2", .num 12 "12"]] }

/-- C91 is false: the final equalization lists the values of the second axis only, so the case d2 of model B stays although
model A of the first axis does not have it. -/
theorem C91_two_axes_counterexample :
    aggStatEqualize exAxes "fcst_lead" [("model", ["A"])] [("model", ["B"])] [] [] =
      .ok { cols := ["model", "fcst_valid", "fcst_lead", "equalize"]
            rows := [[.str "A", .str "d1", .num 12 "12", .str "d1 12"],
                     [.str "B", .str "d1", .num 12 "12", .str "d1 12"],
                     [.str "B", .str "d2", .num 12 "12", .str "d2 12"]] } := by
  decide +kernel

/-- The hypotheses of the two-axes theorem are met by that frame (its rows have the cases "d1 12" and "d2 12"). -/
example : exAxes.rows ≠ [] ∧ "model" ∈ exAxes.cols ∧ exAxes.cols.Nodup ∧ "equalize" ∉ exAxes.cols ∧
    addFixVars (seriesVarsForEE [("model", ["A"])]) [] [] = .ok [("model", ["A"])] ∧
    addFixVars (seriesVarsForEE [("model", ["B"])]) [] [] = .ok [("model", ["B"])] := by
  decide +kernel

/-- C91: with two series variables on one axis a row that satisfies both is written twice. -/
theorem C91_two_variables_counterexample :
    (aggStatEqualize exEqz "fcst_lead" [("model", ["A"]), ("vx_mask", ["X"])] [] [] []).map
      (fun o => o.rows.map fun r => (cellAt r 0, cellAt r 3)) =
      .ok [(.str "A", .str "d1"), (.str "A", .str "d2"),
        (.str "A", .str "d1"), (.str "B", .str "d1"), (.str "A", .str "d2")] := by
  decide +kernel

end Metcalcpy.Props
