/-
C84  Equalization of two axes with the same series: it is the equalization of each axis, put together.
C201 Event equalization in a run with two axes.
-/
import Verif.Props.C201_AggRun

namespace Metcalcpy.Props
open Metcalcpy Spec

/-! ### Specification -/

/-- The pairs (forecast variable, statistic) listed for an axis. -/
def axisPairs (fcst : List (String × List String)) : List (String × String) :=
  fcst.flatMap (fun q => q.2.map (fun s => (q.1, s)))

/-- The parameters of a run of the first axis alone, and of the second axis alone. -/
def AggParams.firstOnly (p : AggParams) : AggParams := { p with axis₂ := ⟨[], [], [], []⟩ }
@[inherit_doc AggParams.firstOnly]
def AggParams.secondOnly (p : AggParams) : AggParams := { p with axis₁ := p.axis₂, axis₂ := ⟨[], [], [], []⟩ }

/-- A run with event equalization on two axes with the same series variables and values.  Each axis alone would be a run
on one axis, no value is listed twice for a variable, and the forecast variable and statistic of a point of one axis are
not listed for the other axis. -/
structure TwoAxisRun (f : Frame) (p : AggParams) (init : List (String × List String)) (sv : String × List String)
    (parts : String → List String) (fix : List (String × List String)) (fv₁ : String) (sts₁ : List String)
    (rest₁ : List (String × List String)) (fv₂ : String) (sts₂ : List String) (rest₂ : List (String × List String)) :
    Prop where
  first : OneAxisRun f (AggParams.firstOnly p) init sv parts fix fv₁ sts₁ rest₁
  second : OneAxisRun f (AggParams.secondOnly p) init sv parts fix fv₂ sts₂ rest₂
  values : ∀ x ∈ init ++ [sv], x.2.Nodup
  apart₁ : ∀ st ∈ p.axis₁.stats, (fv₁, st) ∉ axisPairs p.axis₂.fcstVarVal
  apart₂ : ∀ st ∈ p.axis₂.stats, (fv₂, st) ∉ axisPairs p.axis₁.fcstVarVal

open Classical in
/-- What C201 claims for the table `t` of an axis with the statistics `stats` and the first forecast variable `fv`: it
begins with one row for every combination of series values, independent value and statistic, and that row counts and
summarises exactly the input rows with these values whose case is common to all series. -/
def EqualizedTable (statOf : String → List (List Val) → Except PyErr PyNum) (f : Frame) (p : AggParams)
    (series : List (String × List String)) (parts : String → List String) (fix : List (String × List String))
    (key : List Val → String) (stats : List String) (fv : String) (t : List AggOut) : Prop :=
  ∃ plain derived, t = plain ++ derived ∧
    (∀ pt, pt ∈ plain.map AggOut.point ↔
      ∃ as, List.Forall₂ (fun x q => x ∈ q.2) as series ∧ ∃ i ∈ p.indyVals, ∃ st ∈ stats, pt = as ++ [i, st]) ∧
    plain.length = (series.map (fun q => q.2.length)).prod * (p.indyVals.length * stats.length) ∧
    ∀ o ∈ plain, ∀ as i st, o.point = as ++ [i, st] → ∀ rows, rows = f.rows.filter (fun r =>
        decide (RowOf f (pointRequest series p.indyVar as i st) (some fv) r ∧
          CommonToAll f series parts fix fv st key r)) →
      o.nstats = rows.length ∧ (rows = [] → o.value = .none) ∧ (rows ≠ [] → statOf (lower st) rows = .ok o.value)

/-! ### Lemmas -/

theorem dictSet_same {d : List (String × List String)} (hn : (d.map Prod.fst).Nodup) {x : String × List String}
    (hx : x ∈ d) : dictSet d x.1 x.2 = d := by
  unfold dictSet
  rw [if_pos (List.any_eq_true.mpr ⟨x, hx, by simp⟩)]
  conv_rhs => rw [← List.map_id d]
  apply List.map_congr_left
  intro y hy
  by_cases e : y.1 = x.1
  · have : y = x := List.inj_on_of_nodup_map hn hy hx e
    subst this
    simp
  · simp [e]

theorem mergedSeries_same {s : List (String × List String)} (hn : (s.map Prod.fst).Nodup)
    (hv : ∀ x ∈ s, x.2.Nodup) : mergedSeries s s = s := by
  unfold mergedSeries
  have : ∀ l : List (String × List String), (∀ x ∈ l, x ∈ s) →
      l.foldl (fun d p => dictSet d p.1 p.2) s = s := by
    intro l
    induction l with
    | nil => intro _; rfl
    | cons a t ih =>
      intro h
      rw [List.foldl_cons, dictSet_same hn (h a (by simp))]
      exact ih (fun x hx => h x (by simp [hx]))
  rw [this s (fun x hx => hx)]
  conv_rhs => rw [← List.map_id s]
  apply List.map_congr_left
  intro x hx
  rw [(hv x hx).dedup]
  rfl

/-- A kept row is kept again when the data is equalized once more, also together with other rows. -/
theorem keptRows_stable {f : Frame} {sv : String × List String} {vars : List (String × List String)}
    {key : List Val → String} {ps : List (String × String)} {g : Frame} (hc : g.cols = f.cols)
    (hsub : ∀ r ∈ ps.flatMap (keptRows f sv vars key), r ∈ g.rows) {r : List Val}
    (hr : r ∈ ps.flatMap (keptRows f sv vars key)) : IsCommonCase g vars key r := by
  classical
  obtain ⟨q, hq, hr⟩ := List.mem_flatMap.mp hr
  have hr' := hr
  unfold keptRows at hr'
  simp only [List.mem_filter, decide_eq_true_eq] at hr'
  obtain ⟨-, hcom⟩ := hr'
  intro c hch
  obtain ⟨r', h1, h2, h3⟩ := hcom c hch
  refine ⟨r', hsub r' (List.mem_flatMap.mpr ⟨q, hq, ?_⟩), ?_, h3⟩
  · unfold keptRows
    refine List.mem_filter.mpr ⟨h1, ?_⟩
    simp only [decide_eq_true_eq]
    intro c' hc'
    obtain ⟨r'', g1, g2, g3⟩ := hcom c' hc'
    exact ⟨r'', g1, g2, g3.trans h3.symm⟩
  · intro y hy
    obtain ⟨v, hv, hvi⟩ := h2 y hy
    refine ⟨v, ?_, hvi⟩
    unfold HasCell at hv ⊢
    rw [hc]
    exact hv

section
variable {f : Frame} {p : AggParams} {init : List (String × List String)} {sv : String × List String}
  {parts : String → List String}
  {fix : List (String × List String)} {fv₁ : String} {sts₁ : List String} {rest₁ : List (String × List String)}
  {fv₂ : String} {sts₂ : List String} {rest₂ : List (String × List String)}

/-- C84 for two axes with the same series: equalizing both axes together removes nothing more, so the result is the
equalized data of the first axis followed by the equalized data of the second. -/
theorem C84_same_series_partial
    (R : TwoAxisRun f p init sv parts fix fv₁ sts₁ rest₁ fv₂ sts₂ rest₂) (key : List Val → String)
    (hkey : ∀ r ∈ f.rows, IsCaseKey f p.indyVar true r (key r)) :
    ∃ G₁ G₂, (AggParams.firstOnly p).equalize f = .ok ⟨f.cols, G₁⟩ ∧
      (AggParams.secondOnly p).equalize f = .ok ⟨f.cols, G₂⟩ ∧ p.equalize f = .ok ⟨f.cols, G₁ ++ G₂⟩ := by
  have e₁ := equalize_ok R.first key hkey
  have e₂ := equalize_ok R.second key hkey
  refine ⟨_, _, e₁, e₂, ?_⟩
  have hs₁ : p.axis₁.series = init ++ [sv] := R.first.series
  have hs₂ : p.axis₂.series = init ++ [sv] := R.second.series
  generalize hG₁ : ((AggParams.firstOnly p).axis₁.fcstVarVal.flatMap (fun q => q.2.map (fun s => (q.1, s)))).flatMap
      (keptRows f sv ((init ++ [sv]).map (fun x => (x.1, x.2.flatMap parts)) ++ fix) key) = G₁ at e₁
  generalize hG₂ : ((AggParams.secondOnly p).axis₁.fcstVarVal.flatMap (fun q => q.2.map (fun s => (q.1, s)))).flatMap
      (keptRows f sv ((init ++ [sv]).map (fun x => (x.1, x.2.flatMap parts)) ++ fix) key) = G₂ at e₂
  unfold AggParams.equalize at e₁ e₂ ⊢
  have hne : (init ++ [sv]).isEmpty = false := by cases init <;> rfl
  rw [hs₁, hs₂, hne, if_neg (by simp)]
  rw [if_pos (by rfl)] at e₁ e₂
  obtain ⟨n1, n2⟩ := fixVals_single fix p R.first.fixed
  have hsub : ∀ (ps : List (String × String)), ∀ r ∈ ps.flatMap
      (keptRows f sv ((init ++ [sv]).map (fun x => (x.1, x.2.flatMap parts)) ++ fix) key), r ∈ f.rows := by
    intro ps r hr
    unfold keptRows at hr
    simp only [List.mem_flatMap, List.mem_filter] at hr
    obtain ⟨_, _, h3⟩ := hr
    exact h3.1.1
  have hmerge : mergedSeries (init ++ [sv]) (init ++ [sv]) = init ++ [sv] := by
    refine mergedSeries_same ?_ R.values
    have := R.first.names
    rw [List.map_append] at this
    exact (List.nodup_append.mp this).1
  have hvars := C01_variables (init ++ [sv]) fix parts (by
    intro x hx _ v hv
    exact (R.first.groups x hx v hv).1) R.first.names
  have hf1 : (init ++ [sv]).filter (fun x => decide (x.1 ∉ timeColumns)) = init ++ [sv] := by
    rw [List.filter_eq_self]
    intro x hx
    simpa using (R.first.columns x (List.mem_append_left _ hx)).2.1
  have hf2 : fix.filter (fun x => decide (x.1 ∉ timeColumns)) = fix := by
    rw [List.filter_eq_self]
    intro x hx
    simpa using (R.first.columns x (List.mem_append_right _ hx)).2.1
  rw [hf1, hf2] at hvars
  have e₁' : equalizeAxis f p.indyVar p.axis₁.fcstVarVal (init ++ [sv]) (p.fixed.map Prod.fst) p.fixVals =
      .ok ⟨f.cols, G₁⟩ := by rw [← hs₁]; exact e₁
  have e₂' : equalizeAxis f p.indyVar p.axis₂.fcstVarVal (init ++ [sv]) (p.fixed.map Prod.fst) p.fixVals =
      .ok ⟨f.cols, G₂⟩ := by rw [← hs₂]; exact e₂
  rw [C84_result f p.indyVar _ _ _ _ _ _
    ((init ++ [sv]).map (fun x => (x.1, x.2.flatMap parts)) ++ fix) key _ _ _ R.first.input e₁' e₂' (by
      intro r hr
      rcases List.mem_append.mp hr with hr | hr
      · exact hsub _ r (hG₁ ▸ hr)
      · exact hsub _ r (hG₂ ▸ hr)) (by rw [hmerge, n1, n2]; exact hvars) (by
      intro v hv
      rcases List.mem_append.mp hv with hv | hv
      · obtain ⟨x, hx, rfl⟩ := List.mem_map.mp hv
        exact (R.first.columns x (List.mem_append_left _ hx)).1
      · exact (R.first.columns v (List.mem_append_right _ hv)).1) (by
      intro v hv
      rcases List.mem_append.mp hv with hv | hv
      · obtain ⟨x, hx, rfl⟩ := List.mem_map.mp hv
        obtain ⟨a, ha⟩ := List.exists_mem_of_ne_nil _ (R.first.columns x (List.mem_append_left _ hx)).2.2
        obtain ⟨w, hw⟩ := List.exists_mem_of_ne_nil _ (R.first.groups x hx a ha).1.1
        exact List.ne_nil_of_mem (List.mem_flatMap.mpr ⟨a, ha, hw⟩)
      · exact (R.first.columns v (List.mem_append_right _ hv)).2.2) hkey rfl]
  congr 2
  rw [List.filter_eq_self]
  intro r hr
  simp only [decide_eq_true_eq]
  rcases List.mem_append.mp hr with hr | hr
  · rw [← hG₁] at hr
    exact keptRows_stable (f := f) (g := ⟨f.cols, G₁ ++ G₂⟩) rfl (fun r' hr' => List.mem_append_left _ (hG₁ ▸ hr')) hr
  · rw [← hG₂] at hr
    exact keptRows_stable (f := f) (g := ⟨f.cols, G₁ ++ G₂⟩) rfl (fun r' hr' => List.mem_append_right _ (hG₂ ▸ hr')) hr

open Classical in
/-- The table of one axis computed from data in which the rows of every point are those of the common cases. -/
theorem axis_table {p' : AggParams} {fv : String} {sts : List String} {rest : List (String × List String)}
    (statOf : String → List (List Val) → Except PyErr PyNum) (etb : List PyNum → List PyNum → PyNum)
    (R : OneAxisRun f p' init sv parts fix fv sts rest) (key : List Val → String) (G : List (List Val))
    (gr : List (String × String)) (t : List AggOut) (hsub : ∀ r ∈ G, r ∈ f.rows) (hG : G ≠ [])
    (hrow : ∀ as a i st, as.length = init.length → a ∈ sv.2 → st ∈ p'.axis₁.stats →
      G.filter (fun r => decide (RowOf f (pointRequest (init ++ [sv]) p'.indyVar (as ++ [a]) i st) (some fv) r)) =
      f.rows.filter (fun r => decide (RowOf f (pointRequest (init ++ [sv]) p'.indyVar (as ++ [a]) i st) (some fv) r ∧
        CommonToAll f (init ++ [sv]) parts fix fv st key r)))
    (h : aggAxis statOf etb ⟨f.cols, G⟩ { p'.config p'.axis₁ with groups := gr } = .ok t) :
    EqualizedTable statOf f p' (init ++ [sv]) parts fix key p'.axis₁.stats fv t := by
  have hrv : requestedValues { p'.config p'.axis₁ with groups := gr } =
      init ++ [sv] ++ [(p'.indyVar, p'.indyVals)] ++ [("stat_name", p'.axis₁.stats)] := requested_eq R
  have hfd : FieldsDistinct { p'.config p'.axis₁ with groups := gr } := config_fields R
  obtain ⟨plain, derived, e, hpts, hlen, hrows, -⟩ := C99_rows statOf etb ⟨f.cols, G⟩ _ t
    (fun r hr => R.input.wf r (hsub r hr)) ⟨hG, List.ne_nil_of_mem R.forecast⟩ hfd (by
      rw [hrv]
      intro q hq v hv
      rcases List.mem_append.mp hq with hq | hq
      · rcases List.mem_append.mp hq with hq | hq
        · exact ⟨⟨_, standsFor_group (R.groups q hq v hv).1 (R.groups q hq v hv).2⟩, R.plain.1 q hq v hv⟩
        · simp only [List.mem_singleton] at hq
          subst hq
          exact ⟨R.indy.2 v hv, R.plain.2.1 v hv⟩
      · simp only [List.mem_singleton] at hq
        subst hq
        exact ⟨⟨_, plain_standsFor (R.stats v hv).2.1 (R.stats v hv).2.2.1⟩, R.plain.2.2 v hv⟩) h
  have hpts' : ∀ pt, pt ∈ plain.map AggOut.point ↔
      ∃ as, List.Forall₂ (fun x q => x ∈ q.2) as (init ++ [sv]) ∧ ∃ i ∈ p'.indyVals, ∃ st ∈ p'.axis₁.stats,
        pt = as ++ [i, st] := by
    intro pt
    rw [hpts, hrv]
    constructor
    · intro h
      obtain ⟨l₁, st, rfl, h1, hst⟩ := forall₂_snoc h
      obtain ⟨as, i, rfl, h2, hi⟩ := forall₂_snoc h1
      exact ⟨as, h2, i, hi, st, hst, by simp⟩
    · rintro ⟨as, ha, i, hi, st, hs, rfl⟩
      have : as ++ [i, st] = as ++ [i] ++ [st] := by simp
      rw [this]
      exact List.rel_append (List.rel_append ha (.cons hi .nil)) (.cons hs .nil)
  refine ⟨plain, derived, e, hpts', ?_, ?_⟩
  · rw [hlen, hrv]
    simp [List.prod_append, mul_assoc]
  intro o ho' as i st hpt rows hr
  obtain ⟨as', ha, i', hi, st', hst, e'⟩ := (hpts' o.point).mp (List.mem_map_of_mem ho')
  rw [hpt] at e'
  obtain ⟨rfl, e4⟩ := List.append_inj' e' (by simp)
  simp only [List.cons.injEq, and_true] at e4
  obtain ⟨rfl, rfl⟩ := e4
  obtain ⟨as, a, rfl, h2, ha⟩ := forall₂_snoc ha
  have heq := hrow as a i st h2.length_eq ha hst
  have hhead : (p'.config p'.axis₁).fcstVars.head? = some fv := by simp [AggParams.config, R.fcst]
  obtain ⟨-, h1, h2', h3⟩ := hrows o ho' rows (by
    rw [hr, ← heq, hrv, hpt]
    show _ = List.filter (fun r => decide (RowOf _ _ (p'.config p'.axis₁).fcstVars.head? r)) G
    rw [hhead]
    have hz : ((init ++ [sv] ++ [(p'.indyVar, p'.indyVals)] ++ [("stat_name", p'.axis₁.stats)]).map Prod.fst).zip
        (as ++ [a] ++ [i, st]) = pointRequest (init ++ [sv]) p'.indyVar (as ++ [a]) i st := by
      unfold pointRequest
      rw [List.append_assoc, List.map_append, List.zip_append (by simp [h2.length_eq])]
      rfl
    rw [hz]
    rfl)
  refine ⟨h1, h2', fun hne => ?_⟩
  obtain ⟨s, hs, hv⟩ := h3 hne
  rw [hpt] at hs
  simp only [List.getLast?_append, List.getLast?_cons_cons, List.getLast?_singleton, Option.some.injEq,
    Option.or_some, Option.some_or] at hs
  subst hs
  exact hv

open Classical in
/-- The rows kept for pairs other than that of a point do not belong to the point. -/
theorem apart_point {p' : AggParams} {fv : String} {sts : List String} {rest : List (String × List String)}
    (R : OneAxisRun f p' init sv parts fix fv sts rest) (key : List Val → String) (ps : List (String × String))
    (bs : List String) (i st : String) (hst : st ∈ p'.axis₁.stats) (hap : (fv, st) ∉ ps) :
    (ps.flatMap (keptRows f sv ((init ++ [sv]).map (fun x => (x.1, x.2.flatMap parts)) ++ fix) key)).filter
      (fun r => decide (RowOf f (pointRequest (init ++ [sv]) p'.indyVar bs i st) (some fv) r)) = [] := by
  obtain ⟨hs1, hs2, hs3, hs4⟩ := R.stats st hst
  rw [List.filter_eq_nil_iff]
  intro r hr hd
  simp only [decide_eq_true_eq] at hd
  obtain ⟨q, hq, hr⟩ := List.mem_flatMap.mp hr
  unfold keptRows at hr
  simp only [List.mem_filter, decide_eq_true_eq] at hr
  have h5 : HasCell f r "stat_name" (.str st) := by
    obtain ⟨v, hv, hc⟩ := hd.1 ("stat_name", st) (by simp [pointRequest]) R.statistic
    obtain ⟨w, hw, rfl⟩ := (cellAmong_text (plain_standsFor hs2 hs3) (by simpa using hs4)).mp hc
    simp only [List.mem_singleton] at hw
    subst hw
    exact hv
  have e1 := hasCell_eq R.forecast (hd.2 fv rfl R.forecast) (hr.1.2.2.1 R.forecast)
  have e2 := hasCell_eq R.statistic h5 (hr.1.2.2.2 R.statistic)
  simp only [Val.str.injEq] at e1 e2
  exact hap (by rw [e1, e2]; exact hq)

/-- A run on one axis. -/
theorem one_axis_table {fv : String} {sts : List String} {rest : List (String × List String)}
    (statOf : String → List (List Val) → Except PyErr PyNum) (etb : List PyNum → List PyNum → PyNum) (out : List AggOut)
    (R : OneAxisRun f p init sv parts fix fv sts rest) (key : List Val → String)
    (hkey : ∀ r ∈ f.rows, IsCaseKey f p.indyVar true r (key r)) (h : aggRun statOf etb f p = .ok out) (hne : out ≠ []) :
    (∃ G : List (List Val), G ≠ [] ∧ aggAxis statOf etb ⟨f.cols, G⟩ (p.config p.axis₁) = .ok out) ∧
      EqualizedTable statOf f p (init ++ [sv]) parts fix key p.axis₁.stats fv out := by
  classical
  have hg := equalize_ok R key hkey
  generalize hG : (p.axis₁.fcstVarVal.flatMap (fun q => q.2.map (fun s => (q.1, s)))).flatMap
      (keptRows f sv ((init ++ [sv]).map (fun x => (x.1, x.2.flatMap parts)) ++ fix) key) = G at hg
  unfold aggRun at h
  rw [R.on, R.second] at h
  have ht : truthy (parseBool "True") = true := rfl
  rw [ht, if_pos rfl, hg] at h
  simp only [bind, Except.bind, List.isEmpty_nil, if_true] at h
  obtain ⟨o₁, ho, e⟩ : ∃ o₁, aggAxis statOf etb ⟨f.cols, G⟩ (p.config p.axis₁) = .ok o₁ ∧ o₁ = out := by
    split at h
    · simp at h
    · next o₁ ho => exact ⟨o₁, ho, by simpa using h⟩
  subst e
  have hGe : G ≠ [] := by
    rintro rfl
    unfold aggAxis at ho
    rw [if_pos (by simp [Frame.isEmpty])] at ho
    exact hne (by simpa using ho.symm)
  refine ⟨⟨G, hGe, ho⟩, ?_⟩
  refine axis_table statOf etb R key G p.groups o₁ ?_ hGe ?_ ho
  · intro r hr
    rw [← hG] at hr
    unfold keptRows at hr
    simp only [List.mem_flatMap, List.mem_filter] at hr
    obtain ⟨_, _, h3⟩ := hr
    exact h3.1.1
  · intro as a i st hl ha hst
    rw [← hG]
    exact equalized_point R key as a i st hl ha hst

/-- C201 for two axes with the same series: the table is the table of the first axis followed by that of the second, and
both have the values that C201 claims, each for its own statistics and forecast variable. -/
theorem C201_two_axes_partial (statOf : String → List (List Val) → Except PyErr PyNum)
    (etb : List PyNum → List PyNum → PyNum) (out : List AggOut)
    (R : TwoAxisRun f p init sv parts fix fv₁ sts₁ rest₁ fv₂ sts₂ rest₂) (key : List Val → String)
    (hkey : ∀ r ∈ f.rows, IsCaseKey f p.indyVar true r (key r)) (h : aggRun statOf etb f p = .ok out)
    (hne : out ≠ []) :
    ∃ t₁ t₂, out = t₁ ++ t₂ ∧
      EqualizedTable statOf f p (init ++ [sv]) parts fix key p.axis₁.stats fv₁ t₁ ∧
      EqualizedTable statOf f p (init ++ [sv]) parts fix key p.axis₂.stats fv₂ t₂ := by
  classical
  obtain ⟨G₁, G₂, e₁, e₂, e⟩ := C84_same_series_partial R key hkey
  rw [equalize_ok R.first key hkey] at e₁
  rw [equalize_ok R.second key hkey] at e₂
  simp only [Except.ok.injEq, Frame.mk.injEq, true_and] at e₁ e₂
  have hon : p.eventEqual = "True" := R.first.on
  have hs₂ : p.axis₂.series.isEmpty = false := by
    have : p.axis₂.series = init ++ [sv] := R.second.series
    rw [this]
    cases init <;> rfl
  unfold aggRun at h
  have ht : truthy (parseBool "True") = true := rfl
  rw [hon, ht, if_pos rfl, e, hs₂] at h
  simp only [bind, Except.bind, Bool.false_eq_true, if_false] at h
  split at h
  · simp at h
  next o₁ ho₁ =>
  split at h
  · simp at h
  next o₂ ho₂ =>
  simp only [Except.ok.injEq] at h
  have hGne : G₁ ++ G₂ ≠ [] := by
    intro hG
    apply hne
    rw [← h]
    rw [hG] at ho₁ ho₂
    unfold aggAxis at ho₁ ho₂
    rw [if_pos (by simp [Frame.isEmpty])] at ho₁ ho₂
    simp only [Except.ok.injEq] at ho₁ ho₂
    rw [← ho₁, ← ho₂]
    rfl
  have hsub : ∀ r ∈ G₁ ++ G₂, r ∈ f.rows := by
    have : ∀ (ps : List (String × String)), ∀ r ∈ ps.flatMap
        (keptRows f sv ((init ++ [sv]).map (fun x => (x.1, x.2.flatMap parts)) ++ fix) key), r ∈ f.rows := by
      intro ps r hr
      unfold keptRows at hr
      simp only [List.mem_flatMap, List.mem_filter] at hr
      obtain ⟨_, _, h3⟩ := hr
      exact h3.1.1
    intro r hr
    rcases List.mem_append.mp hr with hr | hr
    · exact this _ r (e₁ ▸ hr)
    · exact this _ r (e₂ ▸ hr)
  refine ⟨o₁, o₂, h.symm, ?_, ?_⟩
  · refine axis_table statOf etb R.first key (G₁ ++ G₂) p.groups o₁ hsub hGne ?_ ho₁
    intro as a i st hl ha hst
    have hz := apart_point R.first key (axisPairs p.axis₂.fcstVarVal) (as ++ [a]) i st hst (R.apart₁ st hst)
    have e₂' : (axisPairs p.axis₂.fcstVarVal).flatMap
      (keptRows f sv ((init ++ [sv]).map (fun x => (x.1, x.2.flatMap parts)) ++ fix) key) = G₂ := e₂
    rw [e₂'] at hz
    rw [List.filter_append, hz, List.append_nil, ← e₁]
    exact equalized_point R.first key as a i st hl ha hst
  · refine axis_table statOf etb R.second key (G₁ ++ G₂) p.groups o₂ hsub hGne ?_ ho₂
    intro as a i st hl ha hst
    have hz := apart_point R.second key (axisPairs p.axis₁.fcstVarVal) (as ++ [a]) i st hst (R.apart₂ st hst)
    have e₁' : (axisPairs p.axis₁.fcstVarVal).flatMap
      (keptRows f sv ((init ++ [sv]).map (fun x => (x.1, x.2.flatMap parts)) ++ fix) key) = G₁ := e₁
    rw [e₁'] at hz
    rw [List.filter_append, hz, List.nil_append, ← e₂]
    exact equalized_point R.second key as a i st hl ha hst

end

/-! ### Example -/

/-- Two models and two statistics, on one axis each; model B has no error score for the second time, and no bias for the
third. -/
def exTwoFrame : Frame :=
  { cols := ["fcst_valid_beg", "fcst_lead", "model", "fcst_var", "stat_name"],
    rows := [[.str "t1", .num 6 "6", .str "A", .str "TMP", .str "ME"],
      [.str "t2", .num 6 "6", .str "A", .str "TMP", .str "ME"],
      [.str "t1", .num 6 "6", .str "B", .str "TMP", .str "ME"],
      [.str "t3", .num 6 "6", .str "A", .str "TMP", .str "ME"],
      [.str "t3", .num 6 "6", .str "B", .str "TMP", .str "ME"],
      [.str "t1", .num 6 "6", .str "A", .str "TMP", .str "FBIAS"],
      [.str "t1", .num 6 "6", .str "B", .str "TMP", .str "FBIAS"],
      [.str "t3", .num 6 "6", .str "A", .str "TMP", .str "FBIAS"]] }

def exTwoParams : AggParams where
  eventEqual := "True"
  indyVar := "fcst_lead"
  indyVals := ["6"]
  fixed := []
  axis₁ := ⟨[("model", ["A", "B"])], ["ME"], [], [("TMP", ["ME"])]⟩
  axis₂ := ⟨[("model", ["A", "B"])], ["FBIAS"], [], [("TMP", ["FBIAS"])]⟩

theorem exTwo_result : aggRun countStat (fun _ _ => .none) exTwoFrame exTwoParams =
    .ok [⟨["A", "6", "ME"], some "TMP", .num 2, 2⟩, ⟨["B", "6", "ME"], some "TMP", .num 2, 2⟩,
      ⟨["A", "6", "FBIAS"], some "TMP", .num 1, 1⟩, ⟨["B", "6", "FBIAS"], some "TMP", .num 1, 1⟩] := by
  decide +kernel

theorem exTwo_axis (st : String) (hst : st = "ME" ∨ st = "FBIAS") :
    OneAxisRun exTwoFrame { exTwoParams with axis₁ := ⟨[("model", ["A", "B"])], [st], [], [("TMP", [st])]⟩,
                                             axis₂ := ⟨[], [], [], []⟩ }
      [] ("model", ["A", "B"]) (fun v => [v]) [] "TMP" [st] [] where
  input := ⟨by unfold FrameWF; decide, by decide, by decide, by decide, by
    intro _ h; exact absurd (show "fcst_lead" ∈ timeColumns by decide) h⟩
  forecast := by decide
  statistic := by decide
  on := rfl
  series := rfl
  second := rfl
  fixed := rfl
  names := exRun_input.names
  columns := exRun_input.columns
  groups := exRun_input.groups
  texts := exRun_input.texts
  fcst := rfl
  pairs := by simp
  stats := by
    intro s hs
    obtain rfl : s = st := by simpa using hs
    rcases hst with rfl | rfl <;>
      exact ⟨by simp, by decide, by decide, plainText_of (by decide) (by decide) (by decide)⟩
  indy := exRun_input.indy
  somestat := by simp
  distinct := exRun_input.distinct
  plain := ⟨exRun_input.plain.1, exRun_input.plain.2.1, by
    rcases hst with rfl | rfl <;> decide +kernel⟩

theorem exTwo_input : TwoAxisRun exTwoFrame exTwoParams [] ("model", ["A", "B"]) (fun v => [v]) [] "TMP" ["ME"] []
    "TMP" ["FBIAS"] [] where
  first := exTwo_axis "ME" (Or.inl rfl)
  second := exTwo_axis "FBIAS" (Or.inr rfl)
  values := by decide
  apart₁ := by decide
  apart₂ := by decide

theorem exTwo_key : ∀ r ∈ exTwoFrame.rows, IsCaseKey exTwoFrame "fcst_lead" true r (exRunKey r) := by
  intro r hr
  have h0 : ∀ r ∈ exTwoFrame.rows, r[0]? = some (r.getD 0 .null) ∧ r[1]? = some (r.getD 1 .null) := by decide
  obtain ⟨e0, e1⟩ := h0 r hr
  refine ⟨r.getD 0 .null, r.getD 1 .null, ⟨0, by decide, by simp, e0⟩, ⟨1, by decide, by decide, e1⟩, ?_⟩
  rw [if_neg (by decide)]
  rfl

/-- The example meets the hypotheses. -/
example := C201_two_axes_partial countStat (fun _ _ => .none) _ exTwo_input exRunKey exTwo_key exTwo_result (by simp)

end Metcalcpy.Props
