/-
C267  The order of the lines of the input does not matter for an aggregation table: event equalization and runs.
-/
import Verif.Props.C267_Values
import Verif.Props.C262_CurveStatistics

namespace Metcalcpy.Props

open Metcalcpy Spec

/-! ### Event equalization -/

/-- The same lines in another order. -/
def ReorderedFrame (f f' : Frame) : Prop := f'.cols = f.cols ∧ f'.rows.Perm f.rows

theorem idx?_reordered {f f' : Frame} (h : ReorderedFrame f f') (name : String) : f'.idx? name = f.idx? name := by
  unfold Frame.idx?
  rw [h.1]

theorem col_reordered {f f' : Frame} (h : ReorderedFrame f f') (name : String) : f'.col name = f.col name := by
  unfold Frame.col
  rw [idx?_reordered h]

theorem setCol_reordered {f f' : Frame} (h : ReorderedFrame f f') (name : String) (g : List Val → Val) :
    ReorderedFrame (f.setCol name g) (f'.setCol name g) := by
  unfold Frame.setCol
  rw [idx?_reordered h]
  cases f.idx? name with
  | none => exact ⟨by simp only [h.1], h.2.map _⟩
  | some i => exact ⟨h.1, h.2.map _⟩

theorem filterRows_reordered {f f' : Frame} (h : ReorderedFrame f f') (q : List Val → Bool) :
    ReorderedFrame (f.filterRows q) (f'.filterRows q) := ⟨h.1, h.2.filter q⟩

theorem dropCol_reordered {f f' : Frame} (h : ReorderedFrame f f') (name : String) :
    ReorderedFrame (f.dropCol name) (f'.dropCol name) := by
  unfold Frame.dropCol
  rw [idx?_reordered h]
  cases f.idx? name with
  | none => exact h
  | some i => exact ⟨by simp only [h.1], h.2.map _⟩

theorem selectPermutation_reordered {f f' : Frame} (h : ReorderedFrame f f') (q : List (String × String)) :
    ∀ {rows rows' : List (List Val)}, rows'.Perm rows →
      Alike (fun a b => b.Perm a) (selectPermutation f q rows) (selectPermutation f' q rows') := by
  induction q with
  | nil => intro rows rows' hp; exact .ok hp
  | cons x q ih =>
    intro rows rows' hp
    obtain ⟨var, val⟩ := x
    unfold selectPermutation
    rw [idx?_reordered h]
    cases f.idx? var with
    | none => exact .error _
    | some i => exact ih (hp.filter _)

theorem equalizationCases_reordered {f f' : Frame} (h : ReorderedFrame f f') (k : ℕ) (vars : List String)
    (ps : List (List String)) :
    Alike (fun a b => ∀ c, c ∈ b ↔ c ∈ a) (equalizationCases f k vars ps) (equalizationCases f' k vars ps) := by
  cases ps with
  | nil => exact .ok (fun c => Iff.rfl)
  | cons x ps =>
    unfold equalizationCases
    refine (selectPermutation_reordered h (vars.zip x) h.2).bind (fun a b hab => ?_)
    refine Alike.foldlM (R := fun (a b : List String) => ∀ c, c ∈ b ↔ c ∈ a) ps ?_ _ _ (fun c => (hab.map _).mem_iff)
    intro q _ u v huv
    refine (selectPermutation_reordered h (vars.zip q) h.2).bind (fun a b hab => .ok (fun c => ?_))
    simp only [List.mem_filter, decide_eq_true_eq, huv c, (hab.map (fun r => (cellAt r k).text)).mem_iff]

theorem addKeyColumn_reordered {f f' : Frame} (h : ReorderedFrame f f') (indy : String) (b : Bool) :
    Alike ReorderedFrame (addKeyColumn f indy b) (addKeyColumn f' indy b) := by
  unfold addKeyColumn
  have h1 : Alike ReorderedFrame
      (if "equalize" ∈ f.cols then .ok f
        else if "fcst_valid_beg" ∈ f.cols then do
          let v ← f.col "fcst_valid_beg"
          let l ← f.col "fcst_lead"
          .ok (f.setCol "equalize" (fun r => .str ((cellAt r v).text ++ " " ++ (cellAt r l).text)))
        else if "fcst_valid" ∈ f.cols then do
          let v ← f.col "fcst_valid"
          let l ← f.col "fcst_lead"
          .ok (f.setCol "equalize" (fun r => .str ((cellAt r v).text ++ " " ++ (cellAt r l).text)))
        else .ok f)
      (if "equalize" ∈ f'.cols then .ok f'
        else if "fcst_valid_beg" ∈ f'.cols then do
          let v ← f'.col "fcst_valid_beg"
          let l ← f'.col "fcst_lead"
          .ok (f'.setCol "equalize" (fun r => .str ((cellAt r v).text ++ " " ++ (cellAt r l).text)))
        else if "fcst_valid" ∈ f'.cols then do
          let v ← f'.col "fcst_valid"
          let l ← f'.col "fcst_lead"
          .ok (f'.setCol "equalize" (fun r => .str ((cellAt r v).text ++ " " ++ (cellAt r l).text)))
        else .ok f') := by
    simp only [h.1, col_reordered h]
    split_ifs
    · exact .ok h
    · refine (Alike.refl _).bind ?_
      rintro v _ rfl
      refine (Alike.refl _).bind ?_
      rintro l _ rfl
      exact .ok (setCol_reordered h _ _)
    · refine (Alike.refl _).bind ?_
      rintro v _ rfl
      refine (Alike.refl _).bind ?_
      rintro l _ rfl
      exact .ok (setCol_reordered h _ _)
    · exact .ok h
  refine h1.bind (fun g g' hg => ?_)
  simp only [col_reordered hg]
  split_ifs
  · refine (Alike.refl _).bind ?_
    rintro v _ rfl
    refine (Alike.refl _).bind ?_
    rintro l _ rfl
    exact .ok (setCol_reordered hg _ _)
  · exact .ok hg

theorem eventEqualize_reordered {f f' : Frame} (h : ReorderedFrame f f') (indy : String) (series : List (String × List String))
    (fixVars : List String) (fixVals : List (List String)) (b : Bool) :
    Alike (fun a b => ReorderedFrame a.1 b.1 ∧ ReorderedFrame a.2 b.2) (eventEqualize f indy series fixVars fixVals b)
      (eventEqualize f' indy series fixVars fixVals b) := by
  unfold eventEqualize
  refine (addKeyColumn_reordered h indy b).bind (fun g g' hg => ?_)
  refine (Alike.refl _).bind ?_
  rintro vars _ rfl
  rw [col_reordered hg]
  refine (Alike.refl _).bind ?_
  rintro k _ rfl
  refine (equalizationCases_reordered hg k _ _).bind (fun a b hab => .ok ⟨hg, ?_⟩)
  simp only [hab]
  exact filterRows_reordered hg _

theorem filterIfPresent_reordered {f f' : Frame} (h : ReorderedFrame f f') (name : String) (l : List String) :
    ReorderedFrame (filterIfPresent f name l) (filterIfPresent f' name l) := by
  unfold filterIfPresent
  rw [idx?_reordered h]
  cases f.idx? name with
  | none => exact h
  | some i => exact filterRows_reordered h _

theorem axisData_reordered {f f' : Frame} (h : ReorderedFrame f f') (series : List (String × List String)) (v s : String) :
    ReorderedFrame (axisData f series v s) (axisData f' series v s) := by
  unfold axisData
  have : ∀ (l : List (String × List String)) (g g' : Frame), ReorderedFrame g g' →
      ReorderedFrame (l.foldl (fun _ sv => axisFilter f sv v s) g) (l.foldl (fun _ sv => axisFilter f' sv v s) g') := by
    intro l
    induction l with
    | nil => intro g g' hg; exact hg
    | cons x l ih =>
      intro g g' _
      exact ih _ _ (filterIfPresent_reordered (filterIfPresent_reordered (filterIfPresent_reordered h _ _) _ _) _ _)
  exact this series f f' h

theorem appendOrReplace_reordered {a a' b b' : Frame} (h : ReorderedFrame a a') (hb : ReorderedFrame b b') :
    ReorderedFrame (a.appendOrReplace b) (a'.appendOrReplace b') := by
  unfold Frame.appendOrReplace Frame.isEmpty
  rw [h.1, isEmpty_perm h.2]
  split_ifs
  · exact hb
  · exact ⟨rfl, h.2.append hb.2⟩

theorem equalizeAxis_reordered {f f' : Frame} (h : ReorderedFrame f f') (indy : String) (fcst : List (String × List String))
    (series : List (String × List String)) (fixVars : List String) (fixVals : List (List String)) :
    Alike ReorderedFrame (equalizeAxis f indy fcst series fixVars fixVals) (equalizeAxis f' indy fcst series fixVars fixVals) := by
  unfold equalizeAxis
  refine Alike.bind (R := fun (a b : Frame × Frame) => ReorderedFrame a.1 b.1 ∧ ReorderedFrame a.2 b.2)
    (Alike.foldlM _ ?_ (f, { cols := [], rows := [] }) (f', { cols := [], rows := [] }) ⟨h, rfl, .refl _⟩)
    (fun a b hab => .ok (dropCol_reordered hab.2 _))
  intro x _ a b hab
  unfold axisStep
  refine (eventEqualize_reordered (axisData_reordered hab.1 series x.1 x.2) indy series fixVars fixVals true).bind
    (fun u v huv => .ok ⟨?_, appendOrReplace_reordered hab.2 huv.2⟩)
  have e : axisAliased b.1 series = axisAliased a.1 series := by
    unfold axisAliased
    rw [hab.1.1]
  simp only [e]
  split_ifs
  · exact huv.1
  · exact hab.1

theorem equalize_reordered {f f' : Frame} (h : ReorderedFrame f f') (p : AggParams) :
    Alike ReorderedFrame (p.equalize f) (p.equalize f') := by
  unfold AggParams.equalize
  split_ifs
  · exact equalizeAxis_reordered h _ _ _ _ _
  · unfold equalizeTwoAxes
    refine (equalizeAxis_reordered h _ _ _ _ _).bind (fun a a' ha => ?_)
    refine (equalizeAxis_reordered h _ _ _ _ _).bind (fun b b' hb => ?_)
    refine (eventEqualize_reordered (f := { f with rows := a.rows ++ b.rows }) (f' := { f' with rows := a'.rows ++ b'.rows })
      ⟨h.1, ha.2.append hb.2⟩ _ _ _ _ _).bind (fun u v huv => .ok (dropCol_reordered huv.2 _))

/-! ### Runs -/

/-- C267: an aggregation run, with or without event equalization, gives the same table (or fails in the same way) when the lines
of the input are listed in another order, for every statistic that does not depend on the order of its lines.  (The curves are
differences, single curves or significances.) -/
theorem C267_tables (statOf : String → List (List Val) → Except PyErr PyNum) (etb : List PyNum → List PyNum → PyNum)
    (hstat : ∀ st zs zs', zs'.Perm zs → statOf st zs' = statOf st zs) (f f' : Frame) (p : AggParams) (hcols : f'.cols = f.cols)
    (hrows : f'.rows.Perm f.rows) (hd : ∀ d ∈ p.axis₁.derived ++ p.axis₂.derived, d.getLast? ≠ some "ETB") :
    aggRun statOf etb f' p = aggRun statOf etb f p := by
  have key : ∀ g g', ReorderedFrame g g' → ∀ a : AxisParams, (∀ d ∈ a.derived, d.getLast? ≠ some "ETB") →
      aggAxis statOf etb g' (p.config a) = aggAxis statOf etb g (p.config a) := by
    intro g g' hg a ha
    have := aggAxis_reordered (statOf := statOf) (etb := etb) hg.2 (c := p.config a) ha hstat
    rw [← hg.1] at this
    exact this
  have h1 := fun d h => hd d (List.mem_append_left _ h)
  have h2 := fun d h => hd d (List.mem_append_right _ h)
  have h : ReorderedFrame f f' := ⟨hcols, hrows⟩
  unfold aggRun
  simp only
  split_ifs
  · refine (Alike.bind (equalize_reordered h p) (fun g g' hg => ?_)).eq.symm
    rw [key g g' hg p.axis₁ h1]
    exact Alike.refl _
  · refine (Alike.bind (equalize_reordered h p) (fun g g' hg => ?_)).eq.symm
    rw [key g g' hg p.axis₁ h1, key g g' hg p.axis₂ h2]
    exact Alike.refl _
  · simp only [bind, Except.bind]
    rw [key f f' h p.axis₁ h1]
  · simp only [bind, Except.bind]
    rw [key f f' h p.axis₁ h1, key f f' h p.axis₂ h2]

/-- C267, with the statistics of the line types: SL1L2 and CTC lines; ECNT, NBRCNT, RPS and GRAD lines; the statistics with square
roots and the vector statistics; the wind directions of VCNT lines; SSVAR lines. -/
theorem C267_statistics (etb : List PyNum → List PyNum → PyNum) (f f' : Frame) (p : AggParams) (hcols : f'.cols = f.cols)
    (hrows : f'.rows.Perm f.rows) (hd : ∀ d ∈ p.axis₁.derived ++ p.axis₂.derived, d.getLast? ≠ some "ETB") :
    (∀ l, aggRun (lineStat l f') etb f' p = aggRun (lineStat l f) etb f p) ∧
    (∀ l, aggRun (ensembleStat l f') etb f' p = aggRun (ensembleStat l f) etb f p) ∧
    (∀ l, aggRun (rootStat l f') etb f' p = aggRun (rootStat l f) etb f p) ∧
    aggRun (directionStat f') etb f' p = aggRun (directionStat f) etb f p ∧
    aggRun (spreadStat f') etb f' p = aggRun (spreadStat f) etb f p := by
  obtain ⟨cols, rows⟩ := f
  obtain ⟨cols', rows'⟩ := f'
  simp only at hcols hrows
  subst hcols
  refine ⟨fun l => ?_, fun l => ?_, fun l => ?_, ?_, ?_⟩
  · exact C267_tables (lineStat l ⟨cols', rows⟩) etb (fun st zs zs' h => lineStat_reordered l _ st h) ⟨cols', rows⟩ ⟨cols', rows'⟩ p rfl hrows hd
  · exact C267_tables (ensembleStat l ⟨cols', rows⟩) etb (fun st zs zs' h => ensembleStat_reordered l _ st h) ⟨cols', rows⟩ ⟨cols', rows'⟩ p rfl hrows hd
  · exact C267_tables (rootStat l ⟨cols', rows⟩) etb (fun st zs zs' h => rootStat_reordered l _ st h) ⟨cols', rows⟩ ⟨cols', rows'⟩ p rfl hrows hd
  · exact C267_tables (directionStat ⟨cols', rows⟩) etb (fun st zs zs' h => directionStat_reordered _ st h) ⟨cols', rows⟩ ⟨cols', rows'⟩ p rfl hrows hd
  · exact C267_tables (spreadStat ⟨cols', rows⟩) etb (fun st zs zs' h => spreadStat_reordered _ st h) ⟨cols', rows⟩ ⟨cols', rows'⟩ p rfl hrows hd

/-! ### Bootstrapped runs -/

theorem bootAxis_reorderedFrame {statOf : String → List (List Val) → Except PyErr PyNum} {etb : List PyNum → List PyNum → PyNum}
    {s : BootSettings} {draws : ℕ → ℕ → List (List ℕ)} {f f' : Frame} (h : ReorderedFrame f f')
    {c : AggConfig} (hdist : FieldsDistinct c) (hd : ∀ d ∈ c.derived, d.getLast? ≠ some "ETB")
    (hn : ∀ point ∈ c.plainPoints, ∀ rows, pointRows f ((c.fields.map Prod.fst).zip point) c.fcstVars.head? = .ok rows →
      (rows.map (caseOf f)).Nodup) :
    bootAxis statOf etb s draws f' c = bootAxis statOf etb s draws f c := by
  have := bootAxis_reordered (statOf := statOf) (etb := etb) (s := s) (draws := draws) h.2 hdist hd hn
  rw [← h.1] at this
  exact this

open Classical in
/-- The lines of a plain point. -/
theorem pointRows_filter {f : Frame} {c : AggConfig} (R : BootRequest f c) {pt : List String} (hpt : pt ∈ c.plainPoints)
    {rows : List (List Val)} (hr : pointRows f ((c.fields.map Prod.fst).zip pt) c.fcstVars.head? = .ok rows) :
    List.Forall₂ (fun x q => x ∈ q.2) pt (requestedValues c) ∧
      rows = f.rows.filter (fun r => decide (RowOf f (((requestedValues c).map Prod.fst).zip pt) c.fcstVars.head? r)) := by
  have hfe := fields_eq R.fields
  have hfo : List.Forall₂ (fun x l => x ∈ l) pt ((requestedValues c).map Prod.snd) := by
    rw [AggConfig.plainPoints, mem_product, hfe] at hpt
    exact hpt
  refine ⟨List.forall₂_map_right_iff.mp hfo, ?_⟩
  rw [hfe] at hr
  unfold pointRows at hr
  split at hr
  · simp at hr
  · simp only [Except.ok.injEq] at hr
    rw [← hr]
    apply List.filter_congr
    intro r hr'
    rw [Bool.eq_iff_iff, decide_eq_true_iff]
    refine pointFilters_iff R.wf ?_ hr'
    intro q hq
    obtain ⟨l, hl, hx⟩ := forall₂_mem_any hfo (List.of_mem_zip hq).2
    obtain ⟨w, hw, rfl⟩ := List.mem_map.mp hl
    exact R.values w hw _ hx

open Classical in
/-- C267, with bootstrapping and without event equalization: given the same random draws, the table with its limits is the same when
the lines are listed in another order, if no series has two lines of the same time and lead. -/
theorem C267_boot (statOf : String → List (List Val) → Except PyErr PyNum) (etb : List PyNum → List PyNum → PyNum)
    (s : BootSettings) (draws₁ draws₂ : ℕ → ℕ → List (List ℕ)) (f f' : Frame) (p : AggParams) (hcols : f'.cols = f.cols)
    (hrows : f'.rows.Perm f.rows) (hoff : p.eventEqual = "False" ∨ p.eventEqual = "")
    (R : ∀ a ∈ [p.axis₁, p.axis₂], BootRequest f (p.config a))
    (hd : ∀ a ∈ [p.axis₁, p.axis₂], ∀ d ∈ a.derived, d.getLast? ≠ some "ETB")
    (hn : ∀ a ∈ [p.axis₁, p.axis₂], ∀ pt, List.Forall₂ (fun x q => x ∈ q.2) pt (requestedValues (p.config a)) →
      ((f.rows.filter (fun r => decide (RowOf f (((requestedValues (p.config a)).map Prod.fst).zip pt)
        (a.fcstVarVal.map Prod.fst).head? r))).map (caseOf f)).Nodup) :
    bootRun statOf etb s draws₁ draws₂ f' p = bootRun statOf etb s draws₁ draws₂ f p := by
  have key : ∀ (draws : ℕ → ℕ → List (List ℕ)), ∀ a ∈ [p.axis₁, p.axis₂],
      bootAxis statOf etb s draws f' (p.config a) = bootAxis statOf etb s draws f (p.config a) := by
    intro draws a ha
    refine bootAxis_reorderedFrame ⟨hcols, hrows⟩ (R a ha).fields (hd a ha) ?_
    intro pt hpt rows hr
    obtain ⟨h1, h2⟩ := pointRows_filter (R a ha) hpt hr
    rw [h2]
    exact hn a ha pt h1
  have hoff' : truthy (parseBool p.eventEqual) = false := by rcases hoff with h | h <;> rw [h] <;> rfl
  unfold bootRun
  simp only [hoff', Bool.false_eq_true, if_false, bind, Except.bind]
  rw [key draws₁ p.axis₁ (by simp), key draws₂ p.axis₂ (by simp)]

/-- C267, with bootstrapping and event equalization: given the same random draws, the table with its limits is the same when the
lines are listed in another order, if in every series the lines that are compared have different times or leads. -/
theorem C267_boot_equalized {f : Frame} {p : AggParams} {init : List (String × List String)} {sv : String × List String}
    {parts : String → List String} {fix : List (String × List String)} {fv : String} {sts : List String}
    {rest : List (String × List String)} (statOf : String → List (List Val) → Except PyErr PyNum)
    (etb : List PyNum → List PyNum → PyNum) (s : BootSettings) (draws₁ draws₂ : ℕ → ℕ → List (List ℕ))
    (R : OneAxisRun f p init sv parts fix fv sts rest) (key : List Val → String)
    (hkey : ∀ r ∈ f.rows, IsCaseKey f p.indyVar true r (key r)) (f' : Frame) (hcols : f'.cols = f.cols)
    (hrows : f'.rows.Perm f.rows) (hd : ∀ d ∈ p.axis₁.derived, d.getLast? ≠ some "ETB")
    (hn : ∀ as i st, List.Forall₂ (fun x q => x ∈ q.2) as (init ++ [sv]) → i ∈ p.indyVals → st ∈ p.axis₁.stats →
      ((comparedRows f (init ++ [sv]) parts fix fv p.indyVar key as i st).map (caseOf f)).Nodup) :
    bootRun statOf etb s draws₁ draws₂ f' p = bootRun statOf etb s draws₁ draws₂ f p := by
  have hg := equalize_ok R key hkey
  generalize hG : (p.axis₁.fcstVarVal.flatMap (fun q => q.2.map (fun s => (q.1, s)))).flatMap
      (keptRows f sv ((init ++ [sv]).map (fun x => (x.1, x.2.flatMap parts)) ++ fix) key) = G at hg
  have hsub : ∀ r ∈ G, r ∈ f.rows := by
    intro r hr
    rw [← hG] at hr
    unfold keptRows at hr
    simp only [List.mem_flatMap, List.mem_filter] at hr
    obtain ⟨_, _, h3⟩ := hr
    exact h3.1.1
  obtain ⟨hreq, hpl⟩ := run_request R hsub
  have heq := equalize_reordered (f := f) (f' := f') ⟨hcols, hrows⟩ p
  have hon : truthy (parseBool p.eventEqual) = true := by rw [R.on]; rfl
  unfold bootRun
  simp only [hon, if_true, R.second, List.isEmpty_nil]
  rw [hg] at heq ⊢
  generalize p.equalize f' = y at heq ⊢
  cases heq with
  | @ok a b hab =>
    simp only [bind, Except.bind]
    rw [bootAxis_reorderedFrame hab hreq.fields hd]
    intro pt hpt rows hr
    have hfo := (pointRows_filter hreq hpt hr).1
    rw [requested_eq R] at hfo
    obtain ⟨l, st, rfl, h1, hst⟩ := forall₂_snoc hfo
    obtain ⟨as, i, rfl, h2, hi⟩ := forall₂_snoc h1
    rw [List.append_assoc] at hr
    rw [equalized_rows R key hG hreq h2 hi hst hr]
    exact hn as i st h2 hi hst

/-! ### Examples -/

/-- The lines of the example of C205 in the opposite order: the same table. -/
example : aggRun (lineStat .sl1l2 ⟨exSlFrame.cols, exSlFrame.rows.reverse⟩) (fun _ _ => .none)
    ⟨exSlFrame.cols, exSlFrame.rows.reverse⟩ exSlParams =
    .ok [⟨["A", "6", "ME"], some "TMP", .num 1, 2⟩, ⟨["A", "6", "OBAR"], some "TMP", .num 2, 2⟩,
      ⟨["B", "6", "ME"], some "TMP", .num 2, 2⟩, ⟨["B", "6", "OBAR"], some "TMP", .num 2, 2⟩] := by
  rw [(C267_statistics (fun _ _ => .none) exSlFrame ⟨exSlFrame.cols, exSlFrame.rows.reverse⟩ exSlParams rfl
    (List.reverse_perm _) (by decide)).1 .sl1l2]
  exact exSl_result

/-- A bootstrapped run with a difference curve. -/
example := C267_boot_equalized (rootPrepared .fields (exRootSl "RMSE")) (fun _ _ => .none) ⟨1 / 20, .perc, false⟩ threeDraws threeDraws
  (exCurve_input exRootSl_input) exRunKey (exLines_key _ _ _) ⟨(exRootSl "RMSE").cols, (exRootSl "RMSE").rows.reverse⟩ rfl
  (List.reverse_perm _) (by decide) (exCurve_once (by decide +kernel))

/-- Lines of two models at different times. -/
def exMixed : Frame :=
  { cols := ["model", "fcst_var", "stat_name", "fcst_valid_beg", "fcst_lead", "x"]
    rows := [[.str "A", .str "TMP", .str "ME", .str "t2", .num 12 "12", .num 4 "4"],
             [.str "B", .str "TMP", .str "ME", .str "t3", .num 12 "12", .num 7 "7"],
             [.str "A", .str "TMP", .str "ME", .str "t1", .num 12 "12", .num 1 "1"],
             [.str "B", .str "TMP", .str "ME", .str "t4", .num 12 "12", .num 10 "10"]] }

def exMixedParams : AggParams where
  eventEqual := "False"
  indyVar := "fcst_lead"
  indyVals := ["12"]
  fixed := []
  axis₁ := ⟨[("model", ["A", "B"])], ["ME"], [], [("TMP", ["ME"])]⟩
  axis₂ := ⟨[], [], [], []⟩

theorem exMixed_request : ∀ a ∈ [exMixedParams.axis₁, exMixedParams.axis₂], BootRequest exMixed (exMixedParams.config a) := by
  intro a ha
  have hv : ∀ v ∈ ["A", "B", "12", "ME"], ∃ vals, StandsFor v vals := by
    intro v hv
    simp only [List.mem_cons, List.not_mem_nil, or_false] at hv
    rcases hv with rfl | rfl | rfl | rfl <;> exact ⟨_, plain_standsFor (by decide) (by decide)⟩
  simp only [List.mem_cons, List.not_mem_nil, or_false] at ha
  rcases ha with rfl | rfl
  · refine ⟨by unfold FrameWF; decide, by unfold FieldsDistinct; decide, ?_, ?_⟩
    · intro q hq v h
      refine hv v ?_
      revert q v
      decide
    · intro s hs
      obtain rfl : s = "ME" := by simpa [exMixedParams, AggParams.config] using hs
      exact ⟨by decide, by decide, plainText_of (by decide) (by decide) (by decide)⟩
  · refine ⟨by unfold FrameWF; decide, by unfold FieldsDistinct; decide, ?_, ?_⟩
    · intro q hq v h
      refine hv v ?_
      revert q v
      decide
    · intro s hs
      simp [exMixedParams, AggParams.config] at hs

example := C267_boot meanOfX (fun _ _ => .none) ⟨1 / 2, .perc, false⟩ threeDraws threeDraws exMixed
  ⟨exMixed.cols, exMixed.rows.reverse⟩ exMixedParams rfl (List.reverse_perm _) (Or.inl rfl) exMixed_request (by decide)
  (fun _ _ _ _ => List.Nodup.sublist (List.Sublist.map _ List.filter_sublist)
    (show (exMixed.rows.map (caseOf exMixed)).Nodup by decide +kernel))

/-- With two lines of the same time and lead in a series, the same draws pick other lines when the lines are listed in another
order, and the limits change: the condition of `C267_boot` is needed. -/
theorem C267_boot_counterexample :
    (exMixed.rows.map (fun r => r.set 3 (.str "t1"))).reverse.Perm (exMixed.rows.map (fun r => r.set 3 (.str "t1"))) ∧
    bootRun meanOfX (fun _ _ => .none) ⟨1 / 2, .perc, false⟩ (fun _ _ => [[0, 0], [0, 1]]) threeDraws
      ⟨exMixed.cols, exMixed.rows.map (fun r => r.set 3 (.str "t1"))⟩ exMixedParams = .ok
      [⟨["A", "12", "ME"], some "TMP", .num (5 / 2), some (203 / 80), some (317 / 80), 2⟩,
       ⟨["B", "12", "ME"], some "TMP", .num (17 / 2), some (563 / 80), some (677 / 80), 2⟩] ∧
    bootRun meanOfX (fun _ _ => .none) ⟨1 / 2, .perc, false⟩ (fun _ _ => [[0, 0], [0, 1]]) threeDraws
      ⟨exMixed.cols, (exMixed.rows.map (fun r => r.set 3 (.str "t1"))).reverse⟩ exMixedParams = .ok
      [⟨["A", "12", "ME"], some "TMP", .num (5 / 2), some (83 / 80), some (197 / 80), 2⟩,
       ⟨["B", "12", "ME"], some "TMP", .num (17 / 2), some (683 / 80), some (797 / 80), 2⟩] := by
  refine ⟨List.reverse_perm _, by decide +kernel, by decide +kernel⟩

end Metcalcpy.Props
