/-
C209 With event equalization the table of economic values has, for every series, the value curve of the pooled counts of its
     input rows whose case is common to all series.
C211 A group of values is not a series of the economic values.
C210 The compared curves of economic value are computed over the same cases.
-/
import Verif.Model.AggEclvRun
import Verif.Props.C115_AggEclv
import Verif.Props.C201_AggRun

namespace Metcalcpy.Props
open Metcalcpy Spec

/-! ### Specification -/

/-- A run of the economic values of contingency counts with event equalization, with the fixed variables `fix`; the listed values
of the series are single values. -/
structure EclvRun (f : Frame) (p : EclvParams) (byIndep : Bool) (fix : List (String × List String)) : Prop where
  input : EqInput f "stat_name" byIndep
  on : p.eventEqual = "True"
  indep : p.byIndep = if byIndep then "True" else "False"
  line : p.lineType = "ctc"
  step : 0 < p.step
  noThreshold : "thresh_i" ∉ f.cols
  counts : ∀ c ∈ ["total", "fy_oy", "fy_on", "fn_oy", "fn_on"], c ∈ f.cols
  fixed : p.fixed = fix.map (fun q => (q.1, [q.2]))
  names : ((p.series ++ fix).map Prod.fst).Nodup
  some : p.series ≠ []
  columns : ∀ v ∈ p.series ++ fix, v.1 ∈ f.cols ∧ v.1 ∉ timeColumns ∧ v.2 ≠ []
  single : ∀ x ∈ p.series, ∀ v ∈ x.2, ':' ∉ v.toList

open Classical in
/-- The input rows of a series whose case is common to all series: for every choice of one value for each series variable and
each fixed variable there is an input row with these values and the same case. -/
noncomputable def commonRowsOf (f : Frame) (p : EclvParams) (fix : List (String × List String)) (key : List Val → String)
    (point : List String) : List (List Val) :=
  f.rows.filter (fun r => decide (RowOfSeries f ((p.series.map Prod.fst).zip point) r ∧
    IsCommonCase f (p.series ++ fix) key r))

/-! ### Lemmas -/

/-- The equalized frame of a run. -/
theorem eclv_equalized {f : Frame} {p : EclvParams} {b : Bool} {fix : List (String × List String)} (R : EclvRun f p b fix)
    (key : List Val → String) (hkey : ∀ r ∈ f.rows, IsCaseKey f "stat_name" b r (key r)) :
    ∃ g, p.equalize f = .ok g ∧ g.cols = f.cols ++ ["equalize"] ∧
      (open Classical in g.rows = (f.rows.filter (fun r => decide (IsCommonCase f (p.series ++ fix) key r))).map
        (fun r => r ++ [.str (key r)])) := by
  classical
  have hv := C01_variables_plain p.series fix (fun x hx => (R.columns x (List.mem_append_left _ hx)).2.1)
    (fun x hx => (R.columns x (List.mem_append_right _ hx)).2.1) R.names R.single
  obtain ⟨f', out, h1, h2, h3, -, h5⟩ := C01_keeps_exactly_common_cases f "stat_name" b p.series (fix.map Prod.fst)
    (fix.map Prod.snd) (p.series ++ fix) key R.input hv (fun v hv => (R.columns v hv).1) (fun v hv => (R.columns v hv).2.2) hkey
  refine ⟨out, ?_, h3.trans h2, ?_⟩
  · unfold EclvParams.equalize
    have e1 : p.fixed.map Prod.fst = fix.map Prod.fst := by rw [R.fixed, List.map_map]; rfl
    have e2 : p.fixed.map (fun q => (product q.2).flatten) = fix.map Prod.snd := by
      rw [R.fixed, List.map_map]
      apply List.map_congr_left
      intro q _
      show (product [q.2]).flatten = q.2
      simp only [product, List.map_cons, List.map_nil]
      induction q.2 with
      | nil => rfl
      | cons a t ih => rw [List.flatMap_cons, List.flatten_append, ih]; rfl
    have e3 : truthy (parseBool p.byIndep) = b := by
      rw [R.indep]
      cases b <;> decide
    rw [e1, e2, e3, h1]
    rfl
  · rw [h5]

theorem columnNumbers_key {f : Frame} {key : List Val → String} {name : String} (h : name ∈ f.cols)
    {rows : List (List Val)} (hr : ∀ r ∈ rows, r.length = f.cols.length) {g : Frame} (hg : g.cols = f.cols ++ ["equalize"])
    {xs : List ℚ} (hx : ColumnNumbers f rows name xs) :
    ColumnNumbers g (rows.map (fun r => r ++ [.str (key r)])) name xs := by
  unfold ColumnNumbers at *
  induction hx with
  | nil => exact .nil
  | @cons r x rows xs h1 h2 ih =>
    refine .cons ?_ (ih (fun r hr' => hr r (by simp [hr'])))
    obtain ⟨t, ht⟩ := h1
    refine ⟨t, ?_⟩
    have := (hasCell_withKey (key := key) h (hr r (by simp)) (x := .str (key r))).mpr ht
    unfold HasCell at *
    rw [hg]
    exact this

open Classical in
/-- The rows of a series in the equalized frame. -/
theorem eclv_rows {f g : Frame} {p : EclvParams} {b : Bool} {fix : List (String × List String)} (R : EclvRun f p b fix)
    (key : List Val → String) (hc : g.cols = f.cols ++ ["equalize"])
    (hr : g.rows = (f.rows.filter (fun r => decide (IsCommonCase f (p.series ++ fix) key r))).map
        (fun r => r ++ [.str (key r)])) (pt : List String) :
    seriesRows g ((p.series.map Prod.fst).zip pt) = (commonRowsOf f p fix key pt).map (fun r => r ++ [.str (key r)]) := by
  unfold seriesRows commonRowsOf
  rw [hr, List.filter_map, List.filter_filter]
  congr 1
  apply List.filter_congr
  intro r hrr
  have hlen := R.input.wf r hrr
  rw [Bool.eq_iff_iff]
  simp only [Function.comp_apply, Bool.and_eq_true, decide_eq_true_eq]
  refine and_congr_left fun _ => ?_
  unfold RowOfSeries
  refine forall₂_congr fun q hq => ?_
  have hmem : q.1 ∈ f.cols := by
    have := (List.of_mem_zip hq).1
    obtain ⟨x, hx, e⟩ := List.mem_map.mp this
    rw [← e]
    exact (R.columns x (List.mem_append_left _ hx)).1
  have e : ∀ v, HasCell g (r ++ [.str (key r)]) q.1 v ↔ HasCell f r q.1 v := by
    intro v
    have := hasCell_withKey (key := key) hmem hlen (x := .str (key r)) (v := v)
    unfold HasCell at *
    rw [hc]
    exact this
  simp only [e, hc, List.mem_append, hmem, true_or]

open Classical in
/-- C209: with event equalization the table of economic values of contingency counts lists, for every series and cost/loss ratio,
the value of the summed counts of the rows of that series whose case is common to all series, and the number of these rows.  If
some rows are left but one series has no events or no non-events among them, the run is a TypeError; if no case is
common the table is empty. -/
theorem C209_curves (npf : Bool) {f : Frame} {p : EclvParams} {b : Bool} {fix : List (String × List String)}
    (R : EclvRun f p b fix) {steps : List ℚ} (hs : IsSteps p.step steps) (key : List Val → String)
    (hkey : ∀ r ∈ f.rows, IsCaseKey f "stat_name" b r (key r)) (counts : List String → Counts)
    (hk : ∀ pt ∈ product (p.series.map Prod.snd), CountsOf f (commonRowsOf f p fix key pt) (counts pt)) :
    ((∀ r ∈ f.rows, ¬ IsCommonCase f (p.series ++ fix) key r) → aggEclvRun npf f p = .ok []) ∧
    ((∃ r ∈ f.rows, IsCommonCase f (p.series ++ fix) key r) →
      ((∀ pt ∈ product (p.series.map Prod.snd), (counts pt).both) →
        aggEclvRun npf f p = .ok ((product (p.series.map Prod.snd)).flatMap (fun pt => steps.map (fun x =>
          ⟨pt, 0, x, (counts pt).value x, (commonRowsOf f p fix key pt).length⟩)))) ∧
      ((∃ pt ∈ product (p.series.map Prod.snd), ¬ (counts pt).both) → aggEclvRun npf f p = .error .typeError)) := by
  obtain ⟨g, hg, hc, hr⟩ := eclv_equalized R key hkey
  obtain ⟨l, hl, -⟩ := clSteps_spec R.step
  have hrun : aggEclvRun npf f p = aggEclv npf "ctc" p.step p.series g := by
    have ht : truthy (parseBool p.eventEqual) = true := by rw [R.on]; decide
    have hcol : eclvColumns "ctc" = .ok ["total", "fy_oy", "fy_on", "fn_oy", "fn_on"] := by decide
    unfold aggEclvRun
    rw [hl, R.line, hcol, ht, if_pos rfl, hg]
    rfl
  rw [hrun]
  constructor
  · intro h
    have : g.rows = [] := by
      rw [hr, List.map_eq_nil_iff, List.filter_eq_nil_iff]
      intro r hr
      simpa using h r hr
    have he : g.isEmpty = true := by simp [Frame.isEmpty, this]
    have hcol : eclvColumns "ctc" = .ok ["total", "fy_oy", "fy_on", "fn_oy", "fn_on"] := by decide
    unfold aggEclv
    rw [hl, hcol]
    simp only [bind, Except.bind, he, if_true]
  · rintro ⟨r, hrr, hcom⟩
    have hne : g.rows ≠ [] := by
      rw [hr]
      intro h
      rw [List.map_eq_nil_iff, List.filter_eq_nil_iff] at h
      exact h r hrr (by simpa using hcom)
    have hwf : FrameWF g := by
      intro x hx
      rw [hr] at hx
      obtain ⟨y, hy, rfl⟩ := List.mem_map.mp hx
      rw [hc]
      simp [R.input.wf y (List.mem_of_mem_filter hy)]
    have hth : "thresh_i" ∉ g.cols := by
      rw [hc]
      simpa using R.noThreshold
    obtain ⟨x, hx⟩ := List.exists_mem_of_ne_nil _ R.some
    have hcol : ∃ q ∈ p.series, q.1 ∈ g.cols :=
      ⟨x, hx, by rw [hc]; exact List.mem_append_left _ (R.columns x (List.mem_append_left _ hx)).1⟩
    have hk' : ∀ pt ∈ product (p.series.map Prod.snd), CountsOf g (seriesRows g ((p.series.map Prod.fst).zip pt)) (counts pt) := by
      intro pt hpt
      rw [eclv_rows R key hc hr]
      obtain ⟨n, h, a, m, c, h1, h2, h3, h4, h5, h6, h7⟩ := hk pt hpt
      have hlen : ∀ r ∈ commonRowsOf f p fix key pt, r.length = f.cols.length :=
        fun r hr => R.input.wf r (List.mem_of_mem_filter hr)
      exact ⟨n, h, a, m, c, columnNumbers_key (R.counts _ (by simp)) hlen hc h1,
        columnNumbers_key (R.counts _ (by simp)) hlen hc h2, columnNumbers_key (R.counts _ (by simp)) hlen hc h3,
        columnNumbers_key (R.counts _ (by simp)) hlen hc h4, columnNumbers_key (R.counts _ (by simp)) hlen hc h5, h6, h7⟩
    have := C115_curves_partial npf R.step hs hwf hne hth p.series hcol counts hk'
    refine ⟨fun h => ?_, this.2⟩
    rw [this.1 h]
    congr 1
    apply List.flatMap_congr
    intro pt _
    rw [eclv_rows R key hc hr, List.length_map]

/-- C209: a row of the compared series belongs to the input and has all the values of its series and, for every other
combination of values, a partner of the same case. -/
theorem C209_rows {f : Frame} {p : EclvParams} {fix : List (String × List String)} {key : List Val → String}
    {pt : List String} {r : List Val} :
    r ∈ commonRowsOf f p fix key pt ↔ r ∈ f.rows ∧ RowOfSeries f ((p.series.map Prod.fst).zip pt) r ∧
      ∀ q, Choice (p.series ++ fix) q → ∃ r' ∈ f.rows, InSeries f q r' ∧ key r' = key r := by
  classical
  unfold commonRowsOf IsCommonCase
  simp only [List.mem_filter, decide_eq_true_eq]

theorem product_forall₂ {ls : List (List String)} {pt : List String} (h : pt ∈ product ls) :
    List.Forall₂ (fun x l => x ∈ l) pt ls := by
  induction ls generalizing pt with
  | nil =>
    simp only [product, List.mem_singleton] at h
    subst h
    exact .nil
  | cons l ls ih =>
    simp only [product, List.mem_flatMap, List.mem_map] at h
    obtain ⟨a, ha, q, hq, rfl⟩ := h
    exact .cons ha (ih hq)

/-- C210: all curves of a run with event equalization are computed over the same cases: the rows behind the curves of any two
series have the same cases, and if no case occurs twice in a series they are equally many. -/
theorem C210_same_cases {f : Frame} {p : EclvParams} {b : Bool} {fix : List (String × List String)}
    (R : EclvRun f p b fix) (key : List Val → String)
    (hread : ∀ x ∈ p.series, ∀ v ∈ x.2, ReadAlike v) {pt qt : List String}
    (hp : pt ∈ product (p.series.map Prod.snd)) (hq : qt ∈ product (p.series.map Prod.snd)) :
    (∀ k, k ∈ (commonRowsOf f p fix key pt).map key ↔ k ∈ (commonRowsOf f p fix key qt).map key) ∧
    (((commonRowsOf f p fix key pt).map key).Nodup → ((commonRowsOf f p fix key qt).map key).Nodup →
      (commonRowsOf f p fix key pt).length = (commonRowsOf f p fix key qt).length) := by
  have sub : ∀ pt qt, qt ∈ product (p.series.map Prod.snd) → ∀ k, k ∈ (commonRowsOf f p fix key pt).map key →
      k ∈ (commonRowsOf f p fix key qt).map key := by
    intro pt qt hq k hk
    obtain ⟨r, hr, rfl⟩ := List.mem_map.mp hk
    obtain ⟨hr, -, hcom⟩ := C209_rows.mp hr
    have choice : ∀ (s : List (String × List String)) (as : List String), List.Forall₂ (fun x l => x ∈ l) as (s.map Prod.snd) →
        (∀ x ∈ s, ∀ v ∈ x.2, ReadAlike v) → Choice s ((s.map Prod.fst).zip as) ∧
          ∀ y ∈ (s.map Prod.fst).zip as, ReadAlike y.2 := by
      intro s
      induction s with
      | nil =>
        intro as h _
        cases h
        exact ⟨.nil, by simp⟩
      | cons x s ih =>
        intro as h hr
        cases h with
        | cons h1 h2 =>
          obtain ⟨g1, g2⟩ := ih _ h2 (fun y hy => hr y (by simp [hy]))
          refine ⟨.cons ⟨rfl, h1⟩ g1, ?_⟩
          intro y hy
          rw [List.map_cons, List.zip_cons_cons] at hy
          rcases List.mem_cons.mp hy with rfl | hy
          · exact hr x (by simp) _ h1
          · exact g2 y hy
    obtain ⟨c, hc⟩ := choice p.series qt (product_forall₂ hq) hread
    obtain ⟨d, hd⟩ := choice_exists fix (fun v hv => (R.columns v (List.mem_append_right _ hv)).2.2)
    obtain ⟨r', h1, h2, h3⟩ := hcom _ (List.rel_append c hd)
    refine List.mem_map.mpr ⟨r', C209_rows.mpr ⟨h1, ?_, ?_⟩, h3⟩
    · intro y hy _
      obtain ⟨v, hv, hvi⟩ := h2 y (List.mem_append_left _ hy)
      exact ⟨v, hv, cellIs_of_valueIs (hc y hy) hvi⟩
    · intro q hq
      obtain ⟨s, g1, g2, g3⟩ := hcom q hq
      exact ⟨s, g1, g2, g3.trans h3.symm⟩
  refine ⟨fun k => ⟨sub pt qt hq k, sub qt pt hp k⟩, fun n1 n2 => ?_⟩
  have := (List.perm_ext_iff_of_nodup n1 n2).mpr fun k => ⟨sub pt qt hq k, sub qt pt hp k⟩
  simpa using this.length_eq

/-- C209: without event equalization the input is aggregated as it is. -/
theorem C209_off (npf : Bool) {f : Frame} {p : EclvParams} (hoff : p.eventEqual = "False") :
    aggEclvRun npf f p = aggEclv npf p.lineType p.step p.series f := by
  have ht : truthy (parseBool p.eventEqual) = false := by rw [hoff]; decide
  unfold aggEclvRun
  rw [ht]
  simp only [Bool.false_eq_true, if_false, bind, Except.bind]
  cases hs : clSteps p.step with
  | error e =>
    unfold aggEclv
    simp only [hs, bind, Except.bind]
  | ok s =>
    cases hc : eclvColumns p.lineType with
    | error e =>
      unfold aggEclv
      simp only [hs, hc, bind, Except.bind]
    | ok c => simp only

/-- C209: equalization by the independent variable needs a column 'stat_name'. -/
theorem C209_needs_statistic_name (npf : Bool) {f : Frame} {p : EclvParams} (hs : 0 < p.step)
    (hline : p.lineType = "ctc" ∨ p.lineType = "pct") (hon : p.eventEqual = "True") (hby : p.byIndep = "True")
    (hkey : "equalize" ∉ f.cols) (hv : "fcst_valid_beg" ∈ f.cols) (hl : "fcst_lead" ∈ f.cols) (hn : "stat_name" ∉ f.cols) :
    aggEclvRun npf f p = .error .keyError := by
  obtain ⟨l, hst, -⟩ := clSteps_spec hs
  obtain ⟨c, hc⟩ : ∃ c, eclvColumns p.lineType = .ok c := by
    rcases hline with h | h <;> rw [h] <;> exact ⟨_, rfl⟩
  have h1 : truthy (parseBool p.eventEqual) = true := by rw [hon]; decide
  have h2 : truthy (parseBool p.byIndep) = true := by rw [hby]; decide
  obtain ⟨v, hvi⟩ := Frame.idx?_of_mem hv
  obtain ⟨m, hli⟩ := Frame.idx?_of_mem hl
  have hcv : f.col "fcst_valid_beg" = .ok v := by simp [Frame.col, hvi]
  have hcl : f.col "fcst_lead" = .ok m := by simp [Frame.col, hli]
  have hnv : f.setCol "equalize" (fun r => .str ((cellAt r v).text ++ " " ++ (cellAt r m).text)) =
      withKey f (fun r => (cellAt r v).text ++ " " ++ (cellAt r m).text) := by
    simp [Frame.setCol, Frame.idx?_eq_none.mpr hkey, withKey]
  have key : addKeyColumn f "stat_name" true = .error .keyError := by
    unfold addKeyColumn
    rw [if_neg hkey, if_pos hv, hcv, hcl]
    simp only [bind, Except.bind]
    rw [hnv, if_pos (by decide)]
    generalize (fun r : List Val => (cellAt r v).text ++ " " ++ (cellAt r m).text) = k
    have e1 : (withKey f k).col "equalize" = .ok f.cols.length := by
      unfold Frame.col
      rw [withKey_key hkey]
    have e2 : (withKey f k).col "stat_name" = .error .keyError := by
      have : (withKey f k).idx? "stat_name" = none := by
        rw [Frame.idx?_eq_none]
        intro h
        rcases List.mem_append.mp h with h | h
        · exact hn h
        · revert h; decide
      unfold Frame.col
      rw [this]
    rw [e1, e2]
  unfold aggEclvRun EclvParams.equalize eventEqualize
  rw [hst, hc, h1, h2, if_pos rfl, key]
  rfl

/-! ### C211 -/

theorem mem_product_of_forall₂ {ls : List (List String)} {pt : List String} (h : List.Forall₂ (fun x l => x ∈ l) pt ls) :
    pt ∈ product ls := by
  induction h with
  | nil => simp [product]
  | cons h1 _ ih =>
    simp only [product, List.mem_flatMap, List.mem_map]
    exact ⟨_, h1, _, ih, rfl⟩

theorem mapM_ok_at {α β : Type} (g : α → Except PyErr β) : ∀ (l : List α) (r : List β), l.mapM g = .ok r →
    ∀ x ∈ l, ∃ y, g x = .ok y
  | [], _, _, _, hx => by simp at hx
  | a :: l, r, h, x, hx => by
    rw [List.mapM_cons] at h
    cases ha : g a with
    | error e => rw [ha] at h; cases h
    | ok b =>
      rcases List.mem_cons.mp hx with rfl | hx
      · exact ⟨b, ha⟩
      · cases hl : l.mapM g with
        | error e => rw [ha, hl] at h; cases h
        | ok t => exact mapM_ok_at g l t hl x hx

/-- C211: a run has no table when one of the listed values (of a field that is a column) is the value of no row; a group such as
"A:B" is never split. -/
theorem C211_absent_value_fails (npf : Bool) {f : Frame} (hf : FrameWF f) (hr : f.rows ≠ []) (hth : "thresh_i" ∉ f.cols)
    (lineType : String) (step : ℚ) (series : List (String × List String)) (hne : ∀ x ∈ series, x.2 ≠ [])
    {x : String × List String} (hx : x ∈ series) (hcol : x.1 ∈ f.cols) {v : String} (hv : v ∈ x.2)
    (habs : ∀ r ∈ f.rows, ∀ c, HasCell f r x.1 c → ¬ CellIs c v) (out : List EclvOut) :
    aggEclv npf lineType step series f ≠ .ok out := by
  classical
  intro h
  obtain ⟨pt, hpt, hmem⟩ : ∃ pt, List.Forall₂ (fun a l => a ∈ l) pt (series.map Prod.snd) ∧
      (x.1, v) ∈ (series.map Prod.fst).zip pt := by
    clear h habs
    induction series with
    | nil => simp at hx
    | cons y s ih =>
      rcases List.mem_cons.mp hx with rfl | hx
      · have : ∀ s : List (String × List String), (∀ x ∈ s, x.2 ≠ []) →
            ∃ pt, List.Forall₂ (fun a l => a ∈ l) pt (s.map Prod.snd) := by
          intro s
          induction s with
          | nil => exact fun _ => ⟨[], .nil⟩
          | cons y s ih =>
            intro h
            obtain ⟨pt, hp⟩ := ih (fun z hz => h z (by simp [hz]))
            obtain ⟨a, ha⟩ := List.exists_mem_of_ne_nil _ (h y (by simp))
            exact ⟨a :: pt, .cons ha hp⟩
        obtain ⟨pt, hp⟩ := this s (fun z hz => hne z (by simp [hz]))
        exact ⟨v :: pt, .cons hv hp, by simp⟩
      · obtain ⟨pt, h1, h2⟩ := ih (fun z hz => hne z (by simp [hz])) hx
        obtain ⟨a, ha⟩ := List.exists_mem_of_ne_nil _ (hne y (by simp))
        exact ⟨a :: pt, .cons ha h1, by simp [h2]⟩
  have hrows : seriesRows f ((series.map Prod.fst).zip pt) = [] := by
    unfold seriesRows
    rw [List.filter_eq_nil_iff]
    intro r hr hd
    simp only [decide_eq_true_eq] at hd
    obtain ⟨c, h1, h2⟩ := hd _ hmem hcol
    exact habs r hr c h1 h2
  have herr : ∀ cols steps, eclvPoint npf lineType cols steps f (series.map Prod.fst) pt = .error .typeError := by
    intro cols steps
    have e : eclvRows f ((series.map Prod.fst).zip pt) = .ok [] := by
      rw [eclvRows_eq hf ⟨_, hmem, hcol⟩]
      exact congrArg _ hrows
    unfold eclvPoint
    rw [e]
    have ht : eclvThresholds f [] = [0] := by
      unfold eclvThresholds
      rw [Frame.idx?_eq_none.mpr hth]
    simp only [bind, Except.bind, ht, List.isEmpty_nil, if_true, List.isEmpty_cons, Bool.false_eq_true, if_false]
  unfold aggEclv at h
  cases hs : clSteps step with
  | error e => rw [hs] at h; cases h
  | ok steps =>
    cases hc : eclvColumns lineType with
    | error e => rw [hs, hc] at h; cases h
    | ok cols =>
      rw [hs, hc] at h
      have he : f.isEmpty = false := by
        simp [Frame.isEmpty, hr, List.ne_nil_of_mem hcol]
      simp only [bind, Except.bind, he, Bool.false_eq_true, if_false] at h
      cases hm : (product (series.map Prod.snd)).mapM (eclvPoint npf lineType cols steps f (series.map Prod.fst)) with
      | error e => rw [hm] at h; cases h
      | ok parts =>
        obtain ⟨y, hy⟩ := mapM_ok_at _ _ _ hm pt (mem_product_of_forall₂ hpt)
        rw [herr] at hy
        cases hy

/-! ### Examples -/

/-- Model A has a third time without a partner. -/
def exEclvFrame : Frame :=
  { cols := ["fcst_valid_beg", "fcst_lead", "stat_name", "model", "total", "fy_oy", "fy_on", "fn_oy", "fn_on"]
    rows := [[.str "t1", .num 6 "6", .str "ECLV", .str "A", .num 10 "10", .num 2 "2", .num 1 "1", .num 1 "1", .num 6 "6"],
             [.str "t2", .num 6 "6", .str "ECLV", .str "A", .num 10 "10", .num 1 "1", .num 1 "1", .num 0 "0", .num 8 "8"],
             [.str "t3", .num 6 "6", .str "ECLV", .str "A", .num 10 "10", .num 9 "9", .num 0 "0", .num 1 "1", .num 0 "0"],
             [.str "t1", .num 6 "6", .str "ECLV", .str "B", .num 10 "10", .num 2 "2", .num 2 "2", .num 1 "1", .num 5 "5"],
             [.str "t2", .num 6 "6", .str "ECLV", .str "B", .num 10 "10", .num 1 "1", .num 0 "0", .num 0 "0", .num 9 "9"]] }

def exEclvParams : EclvParams := ⟨"True", "True", "ctc", 1 / 4, [("model", ["A", "B"])], []⟩

theorem exEclv_run : EclvRun exEclvFrame exEclvParams true [] where
  input := ⟨by unfold FrameWF; decide, by decide, by decide, by decide, by intro _ _; decide⟩
  on := rfl
  indep := rfl
  line := rfl
  step := by norm_num [exEclvParams]
  noThreshold := by decide
  counts := by decide
  fixed := rfl
  names := by decide
  some := by simp [exEclvParams]
  columns := by decide
  single := by decide

def exEclvKey (r : List Val) : String :=
  (r.getD 0 .null).text ++ " " ++ (r.getD 1 .null).text ++ " " ++ (r.getD 2 .null).text

theorem exEclv_key : ∀ r ∈ exEclvFrame.rows, IsCaseKey exEclvFrame "stat_name" true r (exEclvKey r) := by
  intro r hr
  have h0 : ∀ r ∈ exEclvFrame.rows, r[0]? = some (r.getD 0 .null) ∧ r[1]? = some (r.getD 1 .null) ∧
      r[2]? = some (r.getD 2 .null) := by decide
  obtain ⟨e0, e1, e2⟩ := h0 r hr
  refine ⟨r.getD 0 .null, r.getD 1 .null, ⟨0, by decide, by simp, e0⟩, ⟨1, by decide, by decide, e1⟩, ?_⟩
  rw [if_pos (by decide)]
  exact ⟨r.getD 2 .null, ⟨2, by decide, by decide, e2⟩, rfl⟩

/-- The rows of a model that are compared, read off the equalized frame. -/
theorem exEclv_rows (m : String) (rows : List (List Val))
    (h : (do let g ← exEclvParams.equalize exEclvFrame; eclvRows g [("model", m)]) = .ok rows) :
    commonRowsOf exEclvFrame exEclvParams [] exEclvKey [m] = rows.map List.dropLast := by
  classical
  obtain ⟨g, hg, hc, hr⟩ := eclv_equalized exEclv_run exEclvKey exEclv_key
  have hwf : FrameWF g := by
    intro x hx
    rw [hr] at hx
    obtain ⟨y, hy, rfl⟩ := List.mem_map.mp hx
    rw [hc]
    simp [exEclv_run.input.wf y (List.mem_of_mem_filter hy)]
  rw [hg] at h
  have h1 : eclvRows g [("model", m)] = .ok rows := h
  have h2 := eclvRows_eq hwf (request := [("model", m)]) ⟨("model", m), by simp, by rw [hc]; show "model" ∈ _; decide⟩
  have h3 : seriesRows g [("model", m)] = rows := Except.ok.inj (h2.symm.trans h1)
  have h4 := eclv_rows exEclv_run exEclvKey hc hr [m]
  have h5 : (exEclvParams.series.map Prod.fst).zip [m] = [("model", m)] := rfl
  rw [h5, h3] at h4
  rw [h4, List.map_map]
  simp [Function.comp_def]

theorem exEclv_A : commonRowsOf exEclvFrame exEclvParams [] exEclvKey ["A"] =
    [[.str "t1", .num 6 "6", .str "ECLV", .str "A", .num 10 "10", .num 2 "2", .num 1 "1", .num 1 "1", .num 6 "6"],
     [.str "t2", .num 6 "6", .str "ECLV", .str "A", .num 10 "10", .num 1 "1", .num 1 "1", .num 0 "0", .num 8 "8"]] :=
  exEclv_rows "A"
    [[.str "t1", .num 6 "6", .str "ECLV", .str "A", .num 10 "10", .num 2 "2", .num 1 "1", .num 1 "1", .num 6 "6", .str "t1 6 ECLV"],
     [.str "t2", .num 6 "6", .str "ECLV", .str "A", .num 10 "10", .num 1 "1", .num 1 "1", .num 0 "0", .num 8 "8", .str "t2 6 ECLV"]]
    (by decide +kernel)

theorem exEclv_B : commonRowsOf exEclvFrame exEclvParams [] exEclvKey ["B"] =
    [[.str "t1", .num 6 "6", .str "ECLV", .str "B", .num 10 "10", .num 2 "2", .num 2 "2", .num 1 "1", .num 5 "5"],
     [.str "t2", .num 6 "6", .str "ECLV", .str "B", .num 10 "10", .num 1 "1", .num 0 "0", .num 0 "0", .num 9 "9"]] :=
  exEclv_rows "B"
    [[.str "t1", .num 6 "6", .str "ECLV", .str "B", .num 10 "10", .num 2 "2", .num 2 "2", .num 1 "1", .num 5 "5", .str "t1 6 ECLV"],
     [.str "t2", .num 6 "6", .str "ECLV", .str "B", .num 10 "10", .num 1 "1", .num 0 "0", .num 0 "0", .num 9 "9", .str "t2 6 ECLV"]]
    (by decide +kernel)

theorem exEclv_counts : ∀ pt ∈ product (exEclvParams.series.map Prod.snd),
    CountsOf exEclvFrame (commonRowsOf exEclvFrame exEclvParams [] exEclvKey pt) ⟨3, 2, 1, 14⟩ := by
  intro pt hpt
  have cell : ∀ (r : List Val) (name : String) (i : ℕ) (x : ℚ) (t : String), exEclvFrame.idx? name = some i →
      r[i]? = some (.num x t) → ∃ t, HasCell exEclvFrame r name (.num x t) :=
    fun r name i x t h1 h2 => ⟨t, (hasCell_iff h1 _).mpr h2⟩
  have : pt = ["A"] ∨ pt = ["B"] := by simpa [product, exEclvParams] using hpt
  rcases this with rfl | rfl
  · rw [exEclv_A]
    refine ⟨[10, 10], [2, 1], [1, 1], [1, 0], [6, 8], ?_, ?_, ?_, ?_, ?_, by decide +kernel, by norm_num⟩
    · exact .cons (cell _ _ 4 _ _ (by decide) rfl) (.cons (cell _ _ 4 _ _ (by decide) rfl) .nil)
    · exact .cons (cell _ _ 5 _ _ (by decide) rfl) (.cons (cell _ _ 5 _ _ (by decide) rfl) .nil)
    · exact .cons (cell _ _ 6 _ _ (by decide) rfl) (.cons (cell _ _ 6 _ _ (by decide) rfl) .nil)
    · exact .cons (cell _ _ 7 _ _ (by decide) rfl) (.cons (cell _ _ 7 _ _ (by decide) rfl) .nil)
    · exact .cons (cell _ _ 8 _ _ (by decide) rfl) (.cons (cell _ _ 8 _ _ (by decide) rfl) .nil)
  · rw [exEclv_B]
    refine ⟨[10, 10], [2, 1], [2, 0], [1, 0], [5, 9], ?_, ?_, ?_, ?_, ?_, by decide +kernel, by norm_num⟩
    · exact .cons (cell _ _ 4 _ _ (by decide) rfl) (.cons (cell _ _ 4 _ _ (by decide) rfl) .nil)
    · exact .cons (cell _ _ 5 _ _ (by decide) rfl) (.cons (cell _ _ 5 _ _ (by decide) rfl) .nil)
    · exact .cons (cell _ _ 6 _ _ (by decide) rfl) (.cons (cell _ _ 6 _ _ (by decide) rfl) .nil)
    · exact .cons (cell _ _ 7 _ _ (by decide) rfl) (.cons (cell _ _ 7 _ _ (by decide) rfl) .nil)
    · exact .cons (cell _ _ 8 _ _ (by decide) rfl) (.cons (cell _ _ 8 _ _ (by decide) rfl) .nil)

/-- The example meets the hypotheses of `C209_curves`; the third time of model A does not count. -/
example : aggEclvRun false exEclvFrame exEclvParams = .ok
    [⟨["A"], 0, 1 / 4, 7 / 12, 2⟩, ⟨["A"], 0, 1 / 2, 1 / 4, 2⟩, ⟨["A"], 0, 3 / 4, -3 / 4, 2⟩,
     ⟨["B"], 0, 1 / 4, 7 / 12, 2⟩, ⟨["B"], 0, 1 / 2, 1 / 4, 2⟩, ⟨["B"], 0, 3 / 4, -3 / 4, 2⟩] := by
  have hA : [Val.str "t1", .num 6 "6", .str "ECLV", .str "A", .num 10 "10", .num 2 "2", .num 1 "1", .num 1 "1", .num 6 "6"] ∈
      commonRowsOf exEclvFrame exEclvParams [] exEclvKey ["A"] := by rw [exEclv_A]; simp
  obtain ⟨m, -, hcom⟩ := C209_rows.mp hA
  rw [((C209_curves false exEclv_run quarters exEclvKey exEclv_key (fun _ => ⟨3, 2, 1, 14⟩) exEclv_counts).2 ⟨_, m, hcom⟩).1
    (fun pt _ => by norm_num [Counts.both])]
  have h : product (exEclvParams.series.map Prod.snd) = [["A"], ["B"]] := by decide
  rw [h]
  simp [exEclv_A, exEclv_B, Counts.value, economicValueOf]
  norm_num [expenseClimate, expenseForecast, expensePerfect]

/-- The example meets the hypotheses of `C210_same_cases`. -/
example : (commonRowsOf exEclvFrame exEclvParams [] exEclvKey ["A"]).length =
    (commonRowsOf exEclvFrame exEclvParams [] exEclvKey ["B"]).length :=
  (C210_same_cases exEclv_run exEclvKey (by
    intro x hx v hv
    obtain rfl : x = ("model", ["A", "B"]) := by simpa [exEclvParams] using hx
    have : v = "A" ∨ v = "B" := by simpa using hv
    have plain : PlainText v := by
      rcases this with rfl | rfl <;> exact plainText_of (by decide) (by decide) (by decide)
    exact ⟨plain.2.1, plain.2.2⟩) (pt := ["A"]) (qt := ["B"]) (by decide) (by decide)).2
    (by rw [exEclv_A]; decide) (by rw [exEclv_B]; decide)

/-- Model B has no time in common with model A: the table is empty, and no error is reported. -/
example : aggEclvRun false
    { exEclvFrame with rows := exEclvFrame.rows.drop 2 } { exEclvParams with series := [("model", ["A", "C"])] } = .ok [] := by
  decide +kernel

/-- Hypotheses of `C211_absent_value_fails`: the group of both models; the two models on their own have a table. -/
theorem C211_group_counterexample :
    aggEclvRun false exEclvFrame { exEclvParams with eventEqual := "False", step := 1 / 2 } =
      .ok [⟨["A"], 0, 1 / 2, 5 / 7, 3⟩, ⟨["B"], 0, 1 / 2, 1 / 4, 2⟩] ∧
    ∀ out, aggEclvRun false exEclvFrame { exEclvParams with eventEqual := "False", step := 1 / 2, series := [("model", ["A:B"])] } ≠ .ok out := by
  constructor
  · decide +kernel
  · intro out
    rw [C209_off false rfl]
    refine C211_absent_value_fails false (by unfold FrameWF; decide) (by decide) (by decide) _ _ _ (by simp)
      (x := ("model", ["A:B"])) (by simp) (by decide) (v := "A:B") (by simp) ?_ out
    intro r hr c hc hi
    have plain : PlainText "A:B" := plainText_of (by decide) (by decide) (by decide)
    have h0 : ∀ r ∈ exEclvFrame.rows, r[3]? = some (.str "A") ∨ r[3]? = some (.str "B") := by decide
    have hcc : c = .str "A" ∨ c = .str "B" := by
      rcases h0 r hr with h | h
      · exact Or.inl (hasCell_eq (f := exEclvFrame) (by decide) hc ⟨3, by decide, by decide, h⟩)
      · exact Or.inr (hasCell_eq (f := exEclvFrame) (by decide) hc ⟨3, by decide, by decide, h⟩)
    rcases hi with ⟨z, hz, -⟩ | ⟨q, hq, -⟩ | ⟨-, -, e⟩
    · exact plain.1 z hz
    · exact plain.2.1 q hq
    · rcases hcc with rfl | rfl <;> exact absurd e (by decide)

/-- Hypotheses of `C209_needs_statistic_name`. -/
example : aggEclvRun false ⟨["fcst_valid_beg", "fcst_lead", "model"], [[.str "t1", .num 6 "6", .str "A"]]⟩ exEclvParams =
    .error .keyError :=
  C209_needs_statistic_name false (by norm_num [exEclvParams]) (Or.inl rfl) rfl rfl (by decide) (by decide) (by decide) (by decide)

end Metcalcpy.Props
