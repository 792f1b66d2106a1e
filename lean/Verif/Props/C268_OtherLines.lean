/-
C268  Lines that a plot does not ask for do not change its table.
-/
import Verif.Props.C267_Run

namespace Metcalcpy.Props

open Metcalcpy Spec

/-- The plot asks for the line `r` of the frame: `r` has the values of one of the points of the axis (one value for every series
variable, an independent value and a statistic) and the forecast variable of the axis. -/
def AskedFor (f : Frame) (c : AggConfig) (r : List Val) : Prop :=
  ∃ pt, List.Forall₂ (fun x q => x ∈ q.2) pt (requestedValues c) ∧
    RowOf f (((requestedValues c).map Prod.fst).zip pt) c.fcstVars.head? r

/-! ### The table of an axis reads only the lines of its points -/

theorem foldlM_same {α β : Type} {g k : β → α → Except PyErr β} (l : List α) (h : ∀ x ∈ l, ∀ s, g s x = k s x) (s : β) :
    l.foldlM g s = l.foldlM k s := by
  induction l generalizing s with
  | nil => rfl
  | cons x l ih =>
    rw [List.foldlM_cons, List.foldlM_cons, h x (by simp) s]
    congr 1
    funext s'
    exact ih (fun y hy => h y (by simp [hy])) s'

theorem derived_or_plain {c : AggConfig} (hdist : FieldsDistinct c) {entries : List (String × DerivedCurve × List (List String))}
    (hm : c.derived.mapM (derivedEntry c) = .ok entries) {point : List String}
    (hpt : point ∈ c.plainPoints ++ entries.flatMap (fun e => e.2.2)) :
    point ∈ c.plainPoints ∨ isDerivedPoint (some point) = true := by
  rcases List.mem_append.mp hpt with h1 | h1
  · exact Or.inl h1
  · obtain ⟨e, he, hpe⟩ := List.mem_flatMap.mp h1
    obtain ⟨d, hd1, hd2⟩ := forall₂_right_mem (mapM_except_mem _ hm) he
    exact Or.inr ((derivedEntry_points hdist hd2).2 point hpe)

theorem aggAxis_local {statOf : String → List (List Val) → Except PyErr PyNum} {etb : List PyNum → List PyNum → PyNum}
    {cols : List String} {rows rows' : List (List Val)} {c : AggConfig} (hdist : FieldsDistinct c)
    (hne : rows ≠ []) (hne' : rows' ≠ [])
    (h : ∀ point ∈ c.plainPoints, pointRows ⟨cols, rows'⟩ ((c.fields.map Prod.fst).zip point) c.fcstVars.head? =
      pointRows ⟨cols, rows⟩ ((c.fields.map Prod.fst).zip point) c.fcstVars.head?) :
    aggAxis statOf etb ⟨cols, rows'⟩ c = aggAxis statOf etb ⟨cols, rows⟩ c := by
  unfold aggAxis
  have he : (⟨cols, rows'⟩ : Frame).isEmpty = (⟨cols, rows⟩ : Frame).isEmpty := by
    unfold Frame.isEmpty
    simp only [List.isEmpty_eq_false_iff.mpr hne, List.isEmpty_eq_false_iff.mpr hne']
  rw [he]
  split_ifs
  · rfl
  · cases hm : c.derived.mapM (derivedEntry c) with
    | error e => rfl
    | ok entries =>
      simp only [bind, Except.bind]
      rw [foldlM_same (g := aggStep statOf etb ⟨cols, rows'⟩ c (entries.foldl (fun d e => dictSet d e.1 e.2.1) []))
        (k := aggStep statOf etb ⟨cols, rows⟩ c (entries.foldl (fun d e => dictSet d e.1 e.2.1) []))]
      intro point hpt s
      unfold aggStep
      rcases derived_or_plain hdist hm hpt with hp | hp
      · simp only [h point hp]
      · simp only [hp, if_true]

theorem bootAxis_local {statOf : String → List (List Val) → Except PyErr PyNum} {etb : List PyNum → List PyNum → PyNum}
    {s : BootSettings} {draws : ℕ → ℕ → List (List ℕ)}
    {cols : List String} {rows rows' : List (List Val)} {c : AggConfig} (hdist : FieldsDistinct c)
    (hne : rows ≠ []) (hne' : rows' ≠ [])
    (h : ∀ point ∈ c.plainPoints, pointRows ⟨cols, rows'⟩ ((c.fields.map Prod.fst).zip point) c.fcstVars.head? =
      pointRows ⟨cols, rows⟩ ((c.fields.map Prod.fst).zip point) c.fcstVars.head?) :
    bootAxis statOf etb s draws ⟨cols, rows'⟩ c = bootAxis statOf etb s draws ⟨cols, rows⟩ c := by
  unfold bootAxis
  have he : (⟨cols, rows'⟩ : Frame).isEmpty = (⟨cols, rows⟩ : Frame).isEmpty := by
    unfold Frame.isEmpty
    simp only [List.isEmpty_eq_false_iff.mpr hne, List.isEmpty_eq_false_iff.mpr hne']
  rw [he]
  split_ifs
  · rfl
  · cases hm : c.derived.mapM (derivedEntry c) with
    | error e => rfl
    | ok entries =>
      simp only [bind, Except.bind]
      rw [foldlM_same (g := bootStep statOf etb s draws ⟨cols, rows'⟩ c (entries.foldl (fun d e => dictSet d e.1 e.2.1) []))
        (k := bootStep statOf etb s draws ⟨cols, rows⟩ c (entries.foldl (fun d e => dictSet d e.1 e.2.1) []))]
      intro point hpt t
      unfold bootStep
      rcases derived_or_plain hdist hm hpt with hp | hp
      · simp only [h point hp]
        rfl
      · simp only [hp, if_true]
        rfl

/-! ### Lines that are not asked for -/

open Classical in
/-- Two tables with the same lines that the axis asks for have the same lines at every point. -/
theorem pointRows_asked {cols : List String} {rows rows' : List (List Val)} {c : AggConfig} (R : BootRequest ⟨cols, rows⟩ c)
    (R' : BootRequest ⟨cols, rows'⟩ c)
    (h : rows'.filter (fun r => decide (AskedFor ⟨cols, rows⟩ c r)) = rows.filter (fun r => decide (AskedFor ⟨cols, rows⟩ c r)))
    {point : List String} (hpt : point ∈ c.plainPoints) :
    pointRows ⟨cols, rows'⟩ ((c.fields.map Prod.fst).zip point) c.fcstVars.head? =
      pointRows ⟨cols, rows⟩ ((c.fields.map Prod.fst).zip point) c.fcstVars.head? := by
  have e : pointFilters ⟨cols, rows'⟩ ((c.fields.map Prod.fst).zip point) c.fcstVars.head? =
    pointFilters ⟨cols, rows⟩ ((c.fields.map Prod.fst).zip point) c.fcstVars.head? := rfl
  by_cases hz : (pointFilters ⟨cols, rows⟩ ((c.fields.map Prod.fst).zip point) c.fcstVars.head?).isEmpty = true
  · unfold pointRows
    rw [e, if_pos hz, if_pos hz]
  · have h1 : ∃ l, pointRows ⟨cols, rows⟩ ((c.fields.map Prod.fst).zip point) c.fcstVars.head? = .ok l := by
      unfold pointRows
      rw [if_neg hz]
      exact ⟨_, rfl⟩
    have h2 : ∃ l, pointRows ⟨cols, rows'⟩ ((c.fields.map Prod.fst).zip point) c.fcstVars.head? = .ok l := by
      unfold pointRows
      rw [e, if_neg hz]
      exact ⟨_, rfl⟩
    obtain ⟨l, hl⟩ := h1
    obtain ⟨l', hl'⟩ := h2
    rw [hl, hl']
    obtain ⟨a1, a2⟩ := pointRows_filter R hpt hl
    obtain ⟨-, b2⟩ := pointRows_filter R' hpt hl'
    rw [a2, b2]
    simp only
    have key : ∀ zs : List (List Val), zs.filter (fun r => decide (RowOf ⟨cols, rows⟩ (((requestedValues c).map Prod.fst).zip point)
        c.fcstVars.head? r)) = (zs.filter (fun r => decide (AskedFor ⟨cols, rows⟩ c r))).filter
          (fun r => decide (RowOf ⟨cols, rows⟩ (((requestedValues c).map Prod.fst).zip point) c.fcstVars.head? r)) := by
      intro zs
      rw [List.filter_filter]
      apply List.filter_congr
      intro r _
      rw [Bool.eq_iff_iff]
      simp only [Bool.and_eq_true, decide_eq_true_eq]
      exact ⟨fun hr => ⟨hr, point, a1, hr⟩, fun hr => hr.1⟩
    have e2 : ∀ r, RowOf ⟨cols, rows'⟩ (((requestedValues c).map Prod.fst).zip point) c.fcstVars.head? r ↔
      RowOf ⟨cols, rows⟩ (((requestedValues c).map Prod.fst).zip point) c.fcstVars.head? r := fun _ => Iff.rfl
    simp only [e2]
    rw [key rows', key rows, h]

theorem request_other {cols : List String} {rows rows' : List (List Val)} {c : AggConfig} (R : BootRequest ⟨cols, rows⟩ c)
    (hwf : ∀ r ∈ rows', r.length = cols.length) : BootRequest ⟨cols, rows'⟩ c :=
  ⟨hwf, R.fields, R.values, R.stats⟩

/-! ### Without event equalization -/

open Classical in
/-- C268, without event equalization: two inputs with the same lines that the plot asks for give the same table (or the same error),
for every statistic and all curves, with and without bootstrapping (given the same random draws). -/
theorem C268_plain_partial (statOf : String → List (List Val) → Except PyErr PyNum) (etb : List PyNum → List PyNum → PyNum)
    (s : BootSettings) (draws₁ draws₂ : ℕ → ℕ → List (List ℕ)) (cols : List String) (rows rows' : List (List Val)) (p : AggParams)
    (hoff : p.eventEqual = "False" ∨ p.eventEqual = "") (R : ∀ a ∈ [p.axis₁, p.axis₂], BootRequest ⟨cols, rows⟩ (p.config a))
    (hwf : ∀ r ∈ rows', r.length = cols.length) (hne : rows ≠ []) (hne' : rows' ≠ [])
    (h : ∀ a ∈ [p.axis₁, p.axis₂], rows'.filter (fun r => decide (AskedFor ⟨cols, rows⟩ (p.config a) r)) =
      rows.filter (fun r => decide (AskedFor ⟨cols, rows⟩ (p.config a) r))) :
    aggRun statOf etb ⟨cols, rows'⟩ p = aggRun statOf etb ⟨cols, rows⟩ p ∧
    bootRun statOf etb s draws₁ draws₂ ⟨cols, rows'⟩ p = bootRun statOf etb s draws₁ draws₂ ⟨cols, rows⟩ p := by
  have hoff' : truthy (parseBool p.eventEqual) = false := by rcases hoff with h | h <;> rw [h] <;> rfl
  have hpr : ∀ a ∈ [p.axis₁, p.axis₂], ∀ point ∈ (p.config a).plainPoints, _ := fun a ha point hpt =>
    pointRows_asked (R a ha) (request_other (R a ha) hwf) (h a ha) hpt
  constructor
  · unfold aggRun
    simp only [hoff', Bool.false_eq_true, if_false, bind, Except.bind]
    rw [aggAxis_local (R p.axis₁ (by simp)).fields hne hne' (hpr p.axis₁ (by simp)),
      aggAxis_local (R p.axis₂ (by simp)).fields hne hne' (hpr p.axis₂ (by simp))]
  · unfold bootRun
    simp only [hoff', Bool.false_eq_true, if_false, bind, Except.bind]
    rw [bootAxis_local (R p.axis₁ (by simp)).fields hne hne' (hpr p.axis₁ (by simp)),
      bootAxis_local (R p.axis₂ (by simp)).fields hne hne' (hpr p.axis₂ (by simp))]

/-! ### With event equalization -/

section
variable {f : Frame} {p : AggParams} {init : List (String × List String)} {sv : String × List String}
  {parts : String → List String} {fix : List (String × List String)} {fv : String} {sts : List String}
  {rest : List (String × List String)}

/-- The same plot on other lines. -/
theorem run_other (R : OneAxisRun f p init sv parts fix fv sts rest) {rows' : List (List Val)}
    (hwf : ∀ r ∈ rows', r.length = f.cols.length) : OneAxisRun ⟨f.cols, rows'⟩ p init sv parts fix fv sts rest where
  input := ⟨hwf, R.input.nokey, R.input.valid, R.input.lead, R.input.indep⟩
  forecast := R.forecast
  statistic := R.statistic
  on := R.on
  series := R.series
  second := R.second
  fixed := R.fixed
  names := R.names
  columns := R.columns
  groups := R.groups
  texts := R.texts
  fcst := R.fcst
  pairs := R.pairs
  stats := R.stats
  indy := R.indy
  somestat := R.somestat
  distinct := R.distinct
  plain := R.plain

theorem zip_request (R : OneAxisRun f p init sv parts fix fv sts rest) {as : List String} {i st : String}
    (ha : List.Forall₂ (fun x q => x ∈ q.2) as (init ++ [sv])) :
    ((requestedValues (p.config p.axis₁)).map Prod.fst).zip (as ++ [i, st]) = pointRequest (init ++ [sv]) p.indyVar as i st := by
  rw [requested_eq R]
  unfold pointRequest
  rw [List.append_assoc, List.map_append, List.zip_append (by simpa using ha.length_eq.symm)]
  rfl

/-- A line in the series chosen by `q` has the values of a point. -/
theorem inSeries_values {vars : List (String × List String)} (hg : ∀ x ∈ vars, ∀ v ∈ x.2, IsGroup v (parts v) ∧ ';' ∉ v.toList)
    (ht : ∀ x ∈ vars, ∀ v ∈ x.2, ∀ w ∈ parts v, ReadAlike w) {q : List (String × String)}
    (hq : Choice (vars.map (fun x => (x.1, x.2.flatMap parts))) q) {r : List Val} (hr : InSeries f q r) :
    ∃ as, List.Forall₂ (fun x q => x ∈ q.2) as vars ∧
      ∀ y ∈ (vars.map Prod.fst).zip as, ∃ v, HasCell f r y.1 v ∧ CellAmong v y.2 := by
  unfold Choice at hq
  rw [List.forall₂_map_left_iff] at hq
  induction hq with
  | nil => exact ⟨[], .nil, by simp⟩
  | @cons x y vars q hxy _ ih =>
    obtain ⟨as, h1, h2⟩ := ih (fun x hx => hg x (by simp [hx])) (fun x hx => ht x (by simp [hx]))
      (fun y hy => hr y (by simp [hy]))
    obtain ⟨a, ha, hw⟩ := List.mem_flatMap.mp hxy.2
    obtain ⟨v, hv, hval⟩ := hr y (by simp)
    have hgr := hg x (by simp) a ha
    refine ⟨a :: as, .cons ha h1, ?_⟩
    intro z hz
    simp only [List.map_cons, List.zip_cons_cons, List.mem_cons] at hz
    rcases hz with rfl | hz
    · refine ⟨v, by rw [← hxy.1]; exact hv, ?_⟩
      exact ⟨_, standsFor_group hgr.1 hgr.2, y.2, hw, cellIs_of_valueIs (ht x (by simp) a ha y.2 hw) hval⟩
    · exact h2 z hz

open Classical in
/-- The lines that make a case common to all series are asked for. -/
theorem common_other (R : OneAxisRun f p init sv parts fix fv sts rest)
    (ht : ∀ x ∈ init ++ [sv], ∀ v ∈ x.2, ∀ w ∈ parts v, ReadAlike w) (key : List Val → String) {rows₁ rows₂ : List (List Val)}
    (hsub : ∀ r ∈ rows₁, AskedFor f (p.config p.axis₁) r → r ∈ rows₂)
    (hsame : ∀ r₁ ∈ rows₁, ∀ r₂ ∈ rows₁, key r₁ = key r₂ → ∀ v, HasCell f r₁ p.indyVar v → HasCell f r₂ p.indyVar v)
    {as : List String} {i st : String} (hi : i ∈ p.indyVals)
    (hst : st ∈ p.axis₁.stats) {r : List Val} (hr : r ∈ rows₁)
    (hrow : RowOf f (pointRequest (init ++ [sv]) p.indyVar as i st) (some fv) r)
    (hc : CommonToAll ⟨f.cols, rows₁⟩ (init ++ [sv]) parts fix fv st key r) :
    CommonToAll ⟨f.cols, rows₂⟩ (init ++ [sv]) parts fix fv st key r := by
  intro q hq
  obtain ⟨r', h1, h2, h3, h4, h5⟩ := hc q hq
  refine ⟨r', hsub r' h1 ?_, h2, h3, h4, h5⟩
  have hqs : ∃ q₁ q₂, q = q₁ ++ q₂ ∧ Choice ((init ++ [sv]).map (fun x => (x.1, x.2.flatMap parts))) q₁ := by
    unfold Choice at hq ⊢
    exact ⟨_, _, (List.take_append_drop ((init ++ [sv]).map (fun x => (x.1, x.2.flatMap parts))).length q).symm,
      (List.forall₂_take_append _ _ _ hq.flip).flip⟩
  obtain ⟨q₁, q₂, rfl, hq₁⟩ := hqs
  obtain ⟨as', b1, b2⟩ := inSeries_values (f := f) R.groups ht hq₁ (fun y hy => h2 y (List.mem_append_left _ hy))
  refine ⟨as' ++ [i, st], ?_, ?_⟩
  · rw [requested_eq R, show as' ++ [i, st] = as' ++ [i] ++ [st] by simp]
    exact List.rel_append (List.rel_append b1 (.cons hi .nil)) (.cons hst .nil)
  · rw [zip_request R b1, show (p.config p.axis₁).fcstVars.head? = some fv by simp [AggParams.config, R.fcst]]
    refine ⟨?_, ?_⟩
    · intro y hy hcol
      unfold pointRequest at hy
      rcases List.mem_append.mp hy with hy | hy
      · exact b2 y hy
      · simp only [List.mem_cons, List.not_mem_nil, or_false] at hy
        rcases hy with rfl | rfl
        · obtain ⟨v, hv, hcell⟩ := hrow.1 (p.indyVar, i) (by simp [pointRequest]) hcol
          exact ⟨v, hsame r hr r' h1 h5.symm v hv, hcell⟩
        · obtain ⟨-, s2, s3, s4⟩ := R.stats st hst
          exact ⟨.str st, h4, (cellAmong_text (plain_standsFor s2 s3) (by simpa using s4)).mpr ⟨st, by simp, rfl⟩⟩
    · intro x hx _
      rw [← Option.some.inj hx]
      exact h3

open Classical in
/-- C268, with event equalization: two inputs with the same lines that the plot asks for give the same table (or the same error), for
every statistic and all curves, with and without bootstrapping.  Lines of the same case (valid time, lead and independent value, as
texts) must have the same independent value, and some series must have a common case. -/
theorem C268_equalized_partial (statOf : String → List (List Val) → Except PyErr PyNum) (etb : List PyNum → List PyNum → PyNum)
    (s : BootSettings) (draws₁ draws₂ : ℕ → ℕ → List (List ℕ)) (R : OneAxisRun f p init sv parts fix fv sts rest)
    (ht : ∀ x ∈ init ++ [sv], ∀ v ∈ x.2, ∀ w ∈ parts v, ReadAlike w) (key : List Val → String) (rows' : List (List Val))
    (hwf : ∀ r ∈ rows', r.length = f.cols.length) (hkey : ∀ r ∈ f.rows ++ rows', IsCaseKey f p.indyVar true r (key r))
    (hsame : CaseFixesIndependent ⟨f.cols, f.rows ++ rows'⟩ p.indyVar key)
    (hsome : ∃ as i st, List.Forall₂ (fun x q => x ∈ q.2) as (init ++ [sv]) ∧ i ∈ p.indyVals ∧ st ∈ p.axis₁.stats ∧
      comparedRows f (init ++ [sv]) parts fix fv p.indyVar key as i st ≠ [])
    (h : rows'.filter (fun r => decide (AskedFor f (p.config p.axis₁) r)) =
      f.rows.filter (fun r => decide (AskedFor f (p.config p.axis₁) r))) :
    aggRun statOf etb ⟨f.cols, rows'⟩ p = aggRun statOf etb f p ∧
    bootRun statOf etb s draws₁ draws₂ ⟨f.cols, rows'⟩ p = bootRun statOf etb s draws₁ draws₂ f p := by
  have hmem : ∀ r, AskedFor f (p.config p.axis₁) r → (r ∈ rows' ↔ r ∈ f.rows) := by
    intro r hr
    have h1 := List.mem_filter (p := fun r => decide (AskedFor f (p.config p.axis₁) r)) (as := rows') (x := r)
    have h2 := List.mem_filter (p := fun r => decide (AskedFor f (p.config p.axis₁) r)) (as := f.rows) (x := r)
    rw [h] at h1
    simp only [hr, decide_true, and_true] at h1 h2
    exact h1.symm.trans h2
  have R' := run_other R hwf
  have hask : ∀ {as i st r}, List.Forall₂ (fun x q => x ∈ q.2) as (init ++ [sv]) → i ∈ p.indyVals → st ∈ p.axis₁.stats →
      RowOf f (pointRequest (init ++ [sv]) p.indyVar as i st) (some fv) r → AskedFor f (p.config p.axis₁) r := by
    intro as i st r ha hi hst hr
    refine ⟨as ++ [i, st], ?_, ?_⟩
    · rw [requested_eq R, show as ++ [i, st] = as ++ [i] ++ [st] by simp]
      exact List.rel_append (List.rel_append ha (.cons hi .nil)) (.cons hst .nil)
    · rw [zip_request R ha, show (p.config p.axis₁).fcstVars.head? = some fv by simp [AggParams.config, R.fcst]]
      exact hr
  have hcmp : ∀ {as i st}, List.Forall₂ (fun x q => x ∈ q.2) as (init ++ [sv]) → i ∈ p.indyVals → st ∈ p.axis₁.stats →
      comparedRows ⟨f.cols, rows'⟩ (init ++ [sv]) parts fix fv p.indyVar key as i st =
        comparedRows f (init ++ [sv]) parts fix fv p.indyVar key as i st := by
    intro as i st ha hi hst
    unfold comparedRows
    have e : ∀ r, RowOf ⟨f.cols, rows'⟩ (pointRequest (init ++ [sv]) p.indyVar as i st) (some fv) r ↔
      RowOf f (pointRequest (init ++ [sv]) p.indyVar as i st) (some fv) r := fun _ => Iff.rfl
    have hcom : ∀ r, RowOf f (pointRequest (init ++ [sv]) p.indyVar as i st) (some fv) r → r ∈ f.rows →
        (CommonToAll ⟨f.cols, rows'⟩ (init ++ [sv]) parts fix fv st key r ↔
          CommonToAll f (init ++ [sv]) parts fix fv st key r) := by
      intro r hr hrf
      have hr' := (hmem r (hask ha hi hst hr)).mpr hrf
      constructor
      · exact common_other R ht key (rows₁ := rows') (rows₂ := f.rows) (fun r h1 h2 => (hmem r h2).mp h1)
          (fun r₁ h1 r₂ h2 => hsame r₁ (List.mem_append_right _ h1) r₂ (List.mem_append_right _ h2)) hi hst hr' hr
      · exact common_other R ht key (rows₁ := f.rows) (rows₂ := rows') (fun r h1 h2 => (hmem r h2).mpr h1)
          (fun r₁ h1 r₂ h2 => hsame r₁ (List.mem_append_left _ h1) r₂ (List.mem_append_left _ h2)) hi hst hrf hr
    have split : ∀ (zs : List (List Val)) (P : List Val → Prop), zs.filter (fun r => decide
        (RowOf f (pointRequest (init ++ [sv]) p.indyVar as i st) (some fv) r ∧ P r)) =
        ((zs.filter (fun r => decide (AskedFor f (p.config p.axis₁) r))).filter (fun r => decide
          (RowOf f (pointRequest (init ++ [sv]) p.indyVar as i st) (some fv) r ∧ P r))) := by
      intro zs P
      rw [List.filter_filter]
      apply List.filter_congr
      intro r _
      rw [Bool.eq_iff_iff]
      simp only [Bool.and_eq_true, decide_eq_true_eq]
      exact ⟨fun hr => ⟨hr, hask ha hi hst hr.1⟩, fun hr => hr.1⟩
    simp only [e]
    rw [split rows', split f.rows, h]
    apply List.filter_congr
    intro r hr
    have hrf := (List.mem_filter.mp hr).1
    rw [Bool.eq_iff_iff]
    simp only [decide_eq_true_eq]
    exact ⟨fun h1 => ⟨h1.1, (hcom r h1.1 hrf).mp h1.2⟩, fun h1 => ⟨h1.1, (hcom r h1.1 hrf).mpr h1.2⟩⟩
  have hg := equalize_ok R key (fun r hr => hkey r (List.mem_append_left _ hr))
  have hg' := equalize_ok R' key (fun r hr => hkey r (List.mem_append_right _ hr))
  generalize hG : (p.axis₁.fcstVarVal.flatMap (fun q => q.2.map (fun s => (q.1, s)))).flatMap
      (keptRows f sv ((init ++ [sv]).map (fun x => (x.1, x.2.flatMap parts)) ++ fix) key) = G at hg
  generalize hG' : (p.axis₁.fcstVarVal.flatMap (fun q => q.2.map (fun s => (q.1, s)))).flatMap
      (keptRows ⟨f.cols, rows'⟩ sv ((init ++ [sv]).map (fun x => (x.1, x.2.flatMap parts)) ++ fix) key) = G' at hg'
  have hsub : ∀ r ∈ G, r ∈ f.rows := by
    intro r hr
    rw [← hG] at hr
    unfold keptRows at hr
    simp only [List.mem_flatMap, List.mem_filter] at hr
    obtain ⟨_, _, h3⟩ := hr
    exact h3.1.1
  have hsub' : ∀ r ∈ G', r ∈ rows' := by
    intro r hr
    rw [← hG'] at hr
    unfold keptRows at hr
    simp only [List.mem_flatMap, List.mem_filter] at hr
    obtain ⟨_, _, h3⟩ := hr
    exact h3.1.1
  obtain ⟨hreq, -⟩ := run_request R hsub
  obtain ⟨hreq', -⟩ := run_request R' hsub'
  have hpts : ∀ {as i st}, List.Forall₂ (fun x q => x ∈ q.2) as (init ++ [sv]) → i ∈ p.indyVals → st ∈ p.axis₁.stats →
      pointRows ⟨f.cols, G⟩ (((p.config p.axis₁).fields.map Prod.fst).zip (as ++ [i, st])) (p.config p.axis₁).fcstVars.head? =
        .ok (comparedRows f (init ++ [sv]) parts fix fv p.indyVar key as i st) ∧
      pointRows ⟨f.cols, G'⟩ (((p.config p.axis₁).fields.map Prod.fst).zip (as ++ [i, st])) (p.config p.axis₁).fcstVars.head? =
        .ok (comparedRows f (init ++ [sv]) parts fix fv p.indyVar key as i st) := by
    intro as i st ha hi hst
    have hz : ∀ zs, ∃ l, pointRows ⟨f.cols, zs⟩ (((p.config p.axis₁).fields.map Prod.fst).zip (as ++ [i, st]))
        (p.config p.axis₁).fcstVars.head? = .ok l := by
      intro zs
      unfold pointRows
      rw [if_neg]
      · exact ⟨_, rfl⟩
      · unfold pointFilters
        obtain ⟨j, hj⟩ := Frame.idx?_of_mem (f := ⟨f.cols, zs⟩) R.forecast
        rw [show (p.config p.axis₁).fcstVars.head? = some fv by simp [AggParams.config, R.fcst], hj]
        simp
    obtain ⟨l, hl⟩ := hz G
    obtain ⟨l', hl'⟩ := hz G'
    rw [hl, hl', equalized_rows R key hG hreq ha hi hst hl, equalized_rows R' key hG' hreq' ha hi hst hl', hcmp ha hi hst]
    exact ⟨rfl, rfl⟩
  have hnonempty : G ≠ [] ∧ G' ≠ [] := by
    obtain ⟨as, i, st, ha, hi, hst, hr⟩ := hsome
    obtain ⟨h1, h2⟩ := hpts ha hi hst
    constructor
    · rintro rfl
      unfold pointRows at h1
      split_ifs at h1
      exact hr (by simpa using h1.symm)
    · rintro rfl
      unfold pointRows at h2
      split_ifs at h2
      exact hr (by simpa using h2.symm)
  have hall : ∀ point ∈ (p.config p.axis₁).plainPoints,
      pointRows ⟨f.cols, G'⟩ (((p.config p.axis₁).fields.map Prod.fst).zip point) (p.config p.axis₁).fcstVars.head? =
      pointRows ⟨f.cols, G⟩ (((p.config p.axis₁).fields.map Prod.fst).zip point) (p.config p.axis₁).fcstVars.head? := by
    intro point hpt
    have hfo : List.Forall₂ (fun x l => x ∈ l) point ((requestedValues (p.config p.axis₁)).map Prod.snd) := by
      rw [AggConfig.plainPoints, mem_product, fields_eq hreq.fields] at hpt
      exact hpt
    rw [List.forall₂_map_right_iff, requested_eq R] at hfo
    obtain ⟨l, st, rfl, h1, hst⟩ := forall₂_snoc hfo
    obtain ⟨as, i, rfl, h2, hi⟩ := forall₂_snoc h1
    rw [List.append_assoc]
    obtain ⟨e1, e2⟩ := hpts h2 hi hst
    exact e2.trans e1.symm
  have hon : truthy (parseBool p.eventEqual) = true := by rw [R.on]; rfl
  constructor
  · unfold aggRun
    simp only [hon, if_true, R.second, List.isEmpty_nil, hg, hg', bind, Except.bind]
    rw [aggAxis_local hreq.fields hnonempty.1 hnonempty.2 hall]
  · unfold bootRun
    simp only [hon, if_true, R.second, List.isEmpty_nil, hg, hg', bind, Except.bind]
    rw [bootAxis_local hreq.fields hnonempty.1 hnonempty.2 hall]

end

/-! ### Examples -/

/-- Whether a line is asked for can be calculated. -/
theorem asked_iff {cols : List String} {rows : List (List Val)} {c : AggConfig} (R : BootRequest ⟨cols, rows⟩ c) {r : List Val}
    (hr : r.length = cols.length) : AskedFor ⟨cols, rows⟩ c r ↔
      ∃ point ∈ c.plainPoints, (pointFilters ⟨cols, rows⟩ ((c.fields.map Prod.fst).zip point) c.fcstVars.head?).all (fun q => q r) = true := by
  have hfe := fields_eq R.fields
  have key : ∀ point, List.Forall₂ (fun x q => x ∈ q.2) point (requestedValues c) →
      ((pointFilters ⟨cols, rows⟩ ((c.fields.map Prod.fst).zip point) c.fcstVars.head?).all (fun q => q r) = true ↔
        RowOf ⟨cols, rows⟩ (((requestedValues c).map Prod.fst).zip point) c.fcstVars.head? r) := by
    intro point hpt
    have := pointFilters_iff (f := ⟨cols, [r]⟩) (request := ((c.fields.map Prod.fst).zip point)) (fcst := c.fcstVars.head?) (r := r)
      (by intro x hx; rw [List.mem_singleton.mp hx]; exact hr) (by
        rw [hfe]
        intro q hq
        obtain ⟨l, hl, hx⟩ := forall₂_mem_any (List.forall₂_map_right_iff.mpr hpt :
          List.Forall₂ (fun x l => x ∈ l) point ((requestedValues c).map Prod.snd)) (List.of_mem_zip hq).2
        obtain ⟨w, hw, rfl⟩ := List.mem_map.mp hl
        exact R.values w hw _ hx) (by simp)
    rw [hfe] at this ⊢
    exact this
  have hmem : ∀ point, point ∈ c.plainPoints ↔ List.Forall₂ (fun x q => x ∈ q.2) point (requestedValues c) := by
    intro point
    rw [AggConfig.plainPoints, mem_product, hfe, List.forall₂_map_right_iff]
  unfold AskedFor
  refine exists_congr fun point => ?_
  rw [hmem]
  exact ⟨fun h => ⟨h.1, (key point h.1).mpr h.2⟩, fun h => ⟨h.1, (key point h.1).mp h.2⟩⟩

open Classical in
/-- Lines added before and after the others that are not asked for. -/
theorem filter_others {cols : List String} {rows before after : List (List Val)} {c : AggConfig} (R : BootRequest ⟨cols, rows⟩ c)
    (hwf : ∀ r ∈ before ++ after, r.length = cols.length)
    (h : ∀ r ∈ before ++ after, ∀ point ∈ c.plainPoints,
      (pointFilters ⟨cols, rows⟩ ((c.fields.map Prod.fst).zip point) c.fcstVars.head?).all (fun q => q r) = false) :
    (before ++ rows ++ after).filter (fun r => decide (AskedFor ⟨cols, rows⟩ c r)) =
      rows.filter (fun r => decide (AskedFor ⟨cols, rows⟩ c r)) := by
  have hn : ∀ r ∈ before ++ after, ¬ AskedFor ⟨cols, rows⟩ c r := by
    intro r hr hh
    obtain ⟨point, h1, h2⟩ := (asked_iff R (hwf r hr)).mp hh
    rw [h r hr point h1] at h2
    simp at h2
  have h1 : before.filter (fun r => decide (AskedFor ⟨cols, rows⟩ c r)) = [] := by
    rw [List.filter_eq_nil_iff]
    intro r hr
    simpa using hn r (List.mem_append_left _ hr)
  have h2 : after.filter (fun r => decide (AskedFor ⟨cols, rows⟩ c r)) = [] := by
    rw [List.filter_eq_nil_iff]
    intro r hr
    simpa using hn r (List.mem_append_right _ hr)
  rw [List.filter_append, List.filter_append, h1, h2]
  simp

/-- The lines of `exMixed` with a line of another model, one of another lead and one of another forecast variable: the same table,
with the same limits. -/
example : bootRun meanOfX (fun _ _ => .none) ⟨1 / 2, .perc, false⟩ threeDraws threeDraws
    ⟨exMixed.cols, [[.str "C", .str "TMP", .str "ME", .str "t1", .num 12 "12", .num 50 "50"],
      [.str "A", .str "TMP", .str "ME", .str "t1", .num 24 "24", .num 60 "60"]] ++ exMixed.rows ++
      [[.str "B", .str "RH", .str "ME", .str "t4", .num 12 "12", .num 70 "70"]]⟩ exMixedParams =
    bootRun meanOfX (fun _ _ => .none) ⟨1 / 2, .perc, false⟩ threeDraws threeDraws exMixed exMixedParams := by
  refine (C268_plain_partial _ _ _ _ _ exMixed.cols exMixed.rows _ exMixedParams (Or.inl rfl) exMixed_request (by decide) (by decide)
    (by simp) ?_).2
  intro a ha
  refine filter_others (exMixed_request a ha) (by decide) ?_
  revert a
  decide +kernel

/-- The lines of the example of C201 with further ones. -/
def exRunMore : List (List Val) :=
  [[.str "t2", .num 6 "6", .str "C", .str "TMP", .str "ME"]] ++ exRunFrame.rows ++
    [[.str "t2", .num 12 "12", .str "B", .str "TMP", .str "ME"]]

theorem exRunMore_cells : ∀ r ∈ exRunFrame.rows ++ exRunMore, HasCell exRunFrame r "fcst_valid_beg" (r.getD 0 .null) ∧
    HasCell exRunFrame r "fcst_lead" (r.getD 1 .null) := by
  intro r hr
  have h0 : ∀ r ∈ exRunFrame.rows ++ exRunMore, r[0]? = some (r.getD 0 .null) ∧ r[1]? = some (r.getD 1 .null) := by decide
  obtain ⟨e0, e1⟩ := h0 r hr
  exact ⟨⟨0, by decide, by simp, e0⟩, ⟨1, by decide, by decide, e1⟩⟩

/-- The example of C201 (model B has no line at the second time) with a line of another model and one of another lead. -/
example : aggRun countStat (fun _ _ => .none)
    ⟨exRunFrame.cols, exRunMore⟩ exRunParams =
    .ok [⟨["A", "6", "ME"], some "TMP", .num 2, 2⟩, ⟨["B", "6", "ME"], some "TMP", .num 2, 2⟩] := by
  rw [← exRun_result]
  have hreq := (run_request exRun_input (G := exRunFrame.rows) (fun _ h => h)).1
  refine (C268_equalized_partial countStat (fun _ _ => .none) ⟨1 / 2, .perc, false⟩ threeDraws threeDraws exRun_input exSl_read exRunKey
    exRunMore (by decide) ?_ ?_ ?_ (filter_others hreq (by decide) (by decide +kernel))).1
  · intro r hr
    obtain ⟨h0, h1⟩ := exRunMore_cells r hr
    refine ⟨_, _, h0, h1, ?_⟩
    rw [if_neg (by decide)]
    rfl
  · intro r hr r' hr' hk v hv
    have h1 := (exRunMore_cells r hr).2
    have h2 := (exRunMore_cells r' hr').2
    rw [hasCell_eq (f := exRunFrame) (by decide) hv h1]
    have : ∀ r ∈ exRunFrame.rows ++ exRunMore, ∀ r' ∈ exRunFrame.rows ++ exRunMore, exRunKey r = exRunKey r' →
      r.getD 1 .null = r'.getD 1 .null := by decide +kernel
    rw [this r hr r' hr' hk]
    exact h2
  · refine ⟨["A"], "6", "ME", .cons (by simp) .nil, by simp [exRunParams], by simp [exRunParams], ?_⟩
    intro h0
    rcases C201_values_partial countStat (fun _ _ => .none) _ exRun_input exRunKey exRun_key exRun_result with ⟨h, -⟩ | ⟨plain, derived, h1, h2, h3⟩
    · simp at h
    · have hm := (h2 ["A", "6", "ME"]).mpr ⟨["A"], .cons (by simp) .nil, "6", by simp [exRunParams], "ME", by simp [exRunParams], rfl⟩
      obtain ⟨o, ho, hpt⟩ := List.mem_map.mp hm
      have hlen := (h3 o ho ["A"] "6" "ME" hpt _ rfl).1
      have hz : o.nstats = 0 := by
        unfold comparedRows at h0
        rw [hlen]
        exact congrArg List.length h0
      have hin : o ∈ plain ++ derived := List.mem_append_left _ ho
      rw [← h1] at hin
      simp only [List.mem_cons, List.not_mem_nil, or_false] at hin
      rcases hin with rfl | rfl <;> simp at hz

/-- Fixed values do not restrict the lines: with the region EAST as fixed value, lines of the region WEST count, with and without
event equalization. -/
theorem C268_fixed_counterexample :
    let line := fun (t m v : String) => [.str t, .num 6 "6", .str m, .str "TMP", .str "ME", .str v]
    let east := [line "t1" "A" "EAST", line "t1" "B" "EAST"]
    let cols := ["fcst_valid_beg", "fcst_lead", "model", "fcst_var", "stat_name", "vx_mask"]
    ∀ on ∈ ["True", "False"],
      aggRun countStat (fun _ _ => .none) ⟨cols, east⟩ { exRunParams with eventEqual := on, fixed := [("vx_mask", [["EAST"]])] } =
        .ok [⟨["A", "6", "ME"], some "TMP", .num 1, 1⟩, ⟨["B", "6", "ME"], some "TMP", .num 1, 1⟩] ∧
      aggRun countStat (fun _ _ => .none) ⟨cols, east ++ [line "t1" "A" "WEST"]⟩
          { exRunParams with eventEqual := on, fixed := [("vx_mask", [["EAST"]])] } =
        .ok [⟨["A", "6", "ME"], some "TMP", .num 2, 2⟩, ⟨["B", "6", "ME"], some "TMP", .num 1, 1⟩] := by
  decide +kernel

/-- Without any line the table is empty; with a line that is not asked for it has a row without value for every point. -/
theorem C268_empty_counterexample :
    aggRun countStat (fun _ _ => .none) ⟨exMixed.cols, []⟩ exMixedParams = .ok [] ∧
    aggRun countStat (fun _ _ => .none) ⟨exMixed.cols, [[.str "C", .str "TMP", .str "ME", .str "t1", .num 12 "12", .num 50 "50"]]⟩
      exMixedParams = .ok [⟨["A", "12", "ME"], some "TMP", .none, 0⟩, ⟨["B", "12", "ME"], some "TMP", .none, 0⟩] := by
  decide +kernel

end Metcalcpy.Props
