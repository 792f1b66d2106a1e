/-
C265: A requested curve (a difference, a ratio, a skill score) of two series with one line per time and lead has a value at
     every independent value.
The program counts the values of a group by splitting all texts of the point at colons, also the independent value
(agg_stat.py:673-687).  An independent value that is a time ('2022-01-01 00:00:00') is taken for a group of three values; the
check for repeated cases then fails and the whole run is stopped by a NameError.
-/
import Verif.Props.C262_CurveStatistics

namespace Metcalcpy.Props

open Metcalcpy Spec

/-! ### Specification -/

/-- Every requested curve is of texts without a colon, for independent values without a colon, or is a single series. -/
def CurvesWithoutColon (c : AggConfig) : Prop :=
  ∀ d ∈ c.derived, ∃ pre post extra x y st a b op name, d = [a, b, op] ∧
    CurveRequest c pre post extra x y st a b op name ∧
    (op = "SINGLE" ∨ ∀ z ∈ pre ++ x :: y :: post ++ extra ++ c.indyVals ++ [st, name], ':' ∉ z.toList)

/-! ### The check -/

theorem curve_texts {pre post extra : List String} {x y st name i : String} {indy : List String} (hi : i ∈ indy) {z : String}
    (hz : z = x ∨ z = y) {w : String}
    (hw : w ∈ pre ++ z :: post ++ extra ++ [st] ∨ w ∈ (pre ++ name :: post ++ [i, st]).tail) :
    w ∈ pre ++ x :: y :: post ++ extra ++ indy ++ [st, name] := by
  have hw' : w ∈ pre ++ z :: post ++ extra ++ [st] ∨ w ∈ pre ++ name :: post ++ [i, st] :=
    hw.imp id List.mem_of_mem_tail
  have hi2 : w = i → w ∈ indy := fun h => h ▸ hi
  have hz2 : w = z → w = x ∨ w = y := fun h => h ▸ hz
  simp only [List.mem_append, List.mem_cons, List.not_mem_nil, or_false] at hw' ⊢
  rcases hw' with ((((h | h | h) | h) | h) | ((h | h | h) | h | h))
  · simp [h]
  · rcases hz2 h with h | h <;> simp [h]
  · simp [h]
  · simp [h]
  · simp [h]
  · simp [h]
  · simp [h]
  · simp [h]
  · simp [hi2 h]
  · simp [h]

theorem curve_components {c : AggConfig} {pre post extra : List String} {x y st a b op name i : String}
    (C : CurveNamed c pre post extra x y st a b op name) (hi : i ∈ c.indyVals) {z : String} (hz : z = x ∨ z = y) (w : String) :
    w ∈ fullComponents c.groups (pre ++ z :: post ++ extra ++ [st]) (pre ++ name :: post ++ [i, st]) ↔
      w ∈ pre ++ z :: post ++ extra ++ [st] ∨ w ∈ (pre ++ name :: post ++ [i, st]).tail :=
  mem_fullComponents c.groups _ _ (fun w hw => C.groups w (by
    have := curve_texts hi hz hw
    simp only [List.mem_append, List.mem_cons, List.not_mem_nil, or_false] at this ⊢
    rcases this with h | h | h
    · exact Or.inl h
    · exact Or.inr (Or.inl h)
    · exact Or.inr (Or.inr (Or.inr (Or.inl h))))) w

/-- The independent value is one of the texts whose colons are counted. -/
theorem curve_indy {c : AggConfig} {pre post extra : List String} {x y st a b op name i : String}
    (C : CurveNamed c pre post extra x y st a b op name) (hi : i ∈ c.indyVals) {z : String} (hz : z = x ∨ z = y) :
    i ∈ fullComponents c.groups (pre ++ z :: post ++ extra ++ [st]) (pre ++ name :: post ++ [i, st]) := by
  rw [curve_components C hi hz]
  right
  cases pre <;> simp

theorem curve_check {f : Frame} {c : AggConfig} {pre post extra : List String} {x y st a b op name i : String}
    (C : CurveNamed c pre post extra x y st a b op name) (hi : i ∈ c.indyVals)
    (hl : "fcst_lead" ∈ f.cols) (hs : "stat_name" ∈ f.cols) (ht : timeColumn f ∈ f.cols)
    (hcol : op = "SINGLE" ∨ ∀ z ∈ pre ++ x :: y :: post ++ extra ++ c.indyVals ++ [st, name], ':' ∉ z.toList)
    {rows₁ rows₂ : List (List Val)} (h₁ : (rows₁.map (caseOf f)).Nodup) (h₂ : (rows₂.map (caseOf f)).Nodup) :
    checkDerived f.cols op (fullComponents c.groups (pre ++ x :: post ++ extra ++ [st]) (pre ++ name :: post ++ [i, st]))
      (fullComponents c.groups (pre ++ y :: post ++ extra ++ [st]) (pre ++ name :: post ++ [i, st])) rows₁ rows₂ =
      .ok (!(rows₁.isEmpty || rows₂.isEmpty)) := by
  rcases hcol with rfl | hcol
  · exact C52_never_refused _ _ _ _ _ _ (Or.inl rfl)
  · exact check_distinct hl hs ht h₁ h₂
      (fun w hw => hcol w (curve_texts hi (Or.inl rfl) ((curve_components C hi (Or.inl rfl) w).mp hw)))
      (fun w hw => hcol w (curve_texts hi (Or.inr rfl) ((curve_components C hi (Or.inr rfl) w).mp hw)))

/-! ### Runs without bootstrapping -/

theorem agg_step_loop {statOf : String → List (List Val) → Except PyErr PyNum} {etb : List PyNum → List PyNum → PyNum}
    {f : Frame} {c : AggConfig} (R : BootRequest f c) (curves : List (String × DerivedCurve)) (hcol : "stat_name" ∈ f.cols)
    (hv : ∀ q ∈ requestedValues c, ∀ v ∈ q.2, isDerivedPoint (some [v]) = false)
    (hs : ∀ st ∈ c.stats, ∀ zs, zs ≠ [] → (∀ r ∈ zs, r ∈ f.rows) → ∃ x, statOf (lower st) zs = .ok x) :
    ∃ st', c.plainPoints.foldlM (aggStep statOf etb f c curves) ⟨"", [], []⟩ = .ok st' := by
  have hplain := plain_not_derived (c := c) (fun q hq v hm => hv q (fields_eq R.fields ▸ hq) v hm)
  have hstep : ∀ b, ∀ p ∈ c.plainPoints, ∃ b', aggStep statOf etb f c curves b p = .ok b' := by
    intro b p hp
    obtain ⟨rows, hr⟩ := point_rows_ok (f := f) R.fields hcol hp
    obtain ⟨m1, st, hst, hps, -⟩ := plain_rows R hp hr
    unfold aggStep
    simp only [hplain p hp, Bool.false_eq_true, if_false, bind, Except.bind, hr, hps]
    by_cases he : rows = []
    · subst he
      exact ⟨_, rfl⟩
    · obtain ⟨x, hx⟩ := hs st hst rows he m1
      rw [List.isEmpty_eq_false_iff.mpr he, hx]
      exact ⟨_, rfl⟩
  generalize c.plainPoints = pts at hstep
  generalize (⟨"", [], []⟩ : AggState) = b
  induction pts generalizing b with
  | nil => exact ⟨b, rfl⟩
  | cons p pts ih =>
    obtain ⟨b', hb⟩ := hstep b p (by simp)
    rw [List.foldlM_cons, hb]
    exact ih (fun b q hq => hstep b q (by simp [hq])) b'

theorem agg_derived_loop {statOf : String → List (List Val) → Except PyErr PyNum} {etb : List PyNum → List PyNum → PyNum}
    {f : Frame} {c : AggConfig} {curves : List (String × DerivedCurve)} (pts : List (List String)) (st : AggState)
    (hp : ∀ p ∈ pts, isDerivedPoint (some p) = true ∧ ∀ stat, ∃ v,
      derivedPoint statOf etb f.cols c.groups curves stat st.results p = .ok v) :
    ∃ st', pts.foldlM (aggStep statOf etb f c curves) st = .ok st' := by
  induction pts generalizing st with
  | nil => exact ⟨st, rfl⟩
  | cons p pts ih =>
    rw [List.foldlM_cons]
    obtain ⟨hd, hv⟩ := hp p (by simp)
    obtain ⟨v, hv⟩ := hv (pointStat c.stats p st.stat)
    have hstep : aggStep statOf etb f c curves st p = .ok ⟨pointStat c.stats p st.stat, st.results,
        st.out ++ [⟨p, c.fcstVars.head?, v, 0⟩]⟩ := by
      unfold aggStep
      simp only [hd, if_true, bind, Except.bind]
      rw [hv]
    rw [hstep]
    exact ih _ (fun q hq => hp q (by simp [hq]))

theorem results_functional {statOf : String → List (List Val) → Except PyErr PyNum} {f : Frame} {c : AggConfig}
    (R : BootRequest f c) {results : List (List String × PointResult)}
    (h : ∀ w ∈ results, w.1 ∈ c.plainPoints ∧ PlainResult statOf f c w.1 w.2) :
    ∀ v ∈ results, ∀ w ∈ results, v.1 = w.1 → v = w := by
  intro v hv w hw e
  obtain ⟨h1, h2⟩ := h v hv
  obtain ⟨-, h3⟩ := h w hw
  have hfo : List.Forall₂ (fun x l => x ∈ l) v.1 ((requestedValues c).map Prod.snd) := by
    rw [AggConfig.plainPoints, mem_product, fields_eq R.fields] at h1
    exact h1
  obtain ⟨a, s, e', hs, -⟩ := point_last hfo
  rw [← e, e'] at h3
  rw [e'] at h2
  have := plainResult_unique hs h2 h3
  exact Prod.ext e this

theorem derivedValue_ok (statOf : String → List (List Val) → Except PyErr PyNum) (etb : List PyNum → List PyNum → PyNum)
    (stat op : String) (a b : ℚ) (rows₁ rows₂ : List (List Val))
    (hop : op = "DIFF" ∨ op = "RATIO" ∨ op = "SS" ∨ op = "SINGLE") :
    ∃ v, derivedValue statOf etb stat op (.num a) (.num b) rows₁ rows₂ = .ok v := by
  unfold derivedValue
  rcases hop with rfl | rfl | rfl | rfl
  · simp [bind, Except.bind, calcDerivedCurveValue, roundDerived, PyNum.arith]
  · by_cases hb : b = 0
    · simp [bind, Except.bind, calcDerivedCurveValue, hb]
    · simp [bind, Except.bind, calcDerivedCurveValue, roundDerived, PyNum.arith, Ne.symm hb]
  · by_cases hb : a = 0
    · simp [bind, Except.bind, calcDerivedCurveValue, hb]
    · simp [bind, Except.bind, calcDerivedCurveValue, roundDerived, PyNum.arith, Ne.symm hb]
  · simp [bind, Except.bind, calcDerivedCurveValue, roundDerived]

section
variable {f : Frame} {p : AggParams} {init : List (String × List String)} {sv : String × List String}
  {parts : String → List String} {fix : List (String × List String)} {fv : String} {sts : List String}
  {rest : List (String × List String)}

set_option maxHeartbeats 1000000 in
/-- C265: a run with event equalization and requested curves completes if no series has two lines of the same time and lead,
the statistics have a number for every non-empty set of lines, and no text of a curve, in particular no independent
value, has a colon. -/
theorem C265_completes_partial (statOf : String → List (List Val) → Except PyErr PyNum)
    (etb : List PyNum → List PyNum → PyNum) (R : OneAxisRun f p init sv parts fix fv sts rest) (key : List Val → String)
    (hkey : ∀ r ∈ f.rows, IsCaseKey f p.indyVar true r (key r)) (hcurves : CurvesWithoutColon (p.config p.axis₁))
    (hn : ∀ as i st, List.Forall₂ (fun x q => x ∈ q.2) as (init ++ [sv]) → i ∈ p.indyVals → st ∈ p.axis₁.stats →
      ((comparedRows f (init ++ [sv]) parts fix fv p.indyVar key as i st).map (caseOf f)).Nodup)
    (hnum : ∀ st ∈ p.axis₁.stats, ∀ zs, zs ≠ [] → (∀ r ∈ zs, r ∈ f.rows) → ∃ x, statOf (lower st) zs = .ok (.num x)) :
    ∃ out, aggRun statOf etb f p = .ok out := by
  have hg := equalize_ok R key hkey
  generalize hG : (p.axis₁.fcstVarVal.flatMap (fun q => q.2.map (fun s => (q.1, s)))).flatMap
      (keptRows f sv ((init ++ [sv]).map (fun x => (x.1, x.2.flatMap parts)) ++ fix) key) = G at hg
  have hsub : ∀ r ∈ G, r ∈ f.rows := by
    intro r hr
    rw [← hG] at hr
    unfold keptRows at hr
    simp only [List.mem_flatMap, List.mem_filter] at hr
    obtain ⟨_, _, h3⟩ := hr
    exact h3.1.1
  obtain ⟨hreq, hpl⟩ := run_request R hsub
  have hfe := fields_eq hreq.fields
  have hserR : (p.config p.axis₁).series = init ++ [sv] := R.series
  have hkeys : ((p.config p.axis₁).series.map Prod.fst).Nodup := by
    rw [hserR]
    have := R.names
    rw [List.map_append] at this
    exact (List.nodup_append.mp this).1
  have haxis : ∃ out, aggAxis statOf etb ⟨f.cols, G⟩ (p.config p.axis₁) = .ok out := by
    by_cases hGe : G = []
    · refine ⟨[], ?_⟩
      unfold aggAxis
      rw [if_pos (by simp [Frame.isEmpty, hGe])]
    · obtain ⟨entries, hm, -, -⟩ := mapM_ok_each (derivedEntry (p.config p.axis₁)) (fun _ => True) (p.config p.axis₁).derived (by
        intro d hd
        obtain ⟨pre, post, extra, x, y, st, a, b, op, name, rfl, C, -⟩ := hcurves d hd
        obtain ⟨var, hentry, -⟩ := curve_entry C.toCurveNamed
        exact ⟨_, hentry, trivial⟩)
      obtain ⟨s₁, h₁⟩ := agg_step_loop (statOf := statOf) (etb := etb) hreq
        (entries.foldl (fun d e => dictSet d e.1 e.2.1) []) R.statistic hpl (fun st hst zs z1 z2 =>
          let ⟨_, hx⟩ := hnum st hst zs z1 (fun r hr => hsub r (z2 r hr))
          ⟨_, hx⟩)
      have hnd := plain_not_derived (c := p.config p.axis₁) (fun q hq v hm => hpl q (hfe ▸ hq) v hm)
      obtain ⟨g1, -, g3⟩ := loop_results _ hnd h₁
      have g1' : ∀ w ∈ s₁.results, w.1 ∈ (p.config p.axis₁).plainPoints ∧
          PlainResult statOf ⟨f.cols, G⟩ (p.config p.axis₁) w.1 w.2 := by
        intro w hw
        rcases g1 w hw with h | h
        · simp at h
        · exact h
      obtain ⟨s₂, h₂⟩ := agg_derived_loop (statOf := statOf) (etb := etb) (f := ⟨f.cols, G⟩)
        (c := p.config p.axis₁) (curves := entries.foldl (fun d e => dictSet d e.1 e.2.1) [])
        (entries.flatMap (fun e => e.2.2)) s₁ (by
          intro q hq
          obtain ⟨e, he, hqe⟩ := List.mem_flatMap.mp hq
          obtain ⟨d, hd, hde⟩ := forall₂_right_mem (mapM_except_mem _ hm) he
          obtain ⟨pre, post, extra, x, y, st, a, b, op, name, rfl, C, hcol⟩ := hcurves d hd
          obtain ⟨i, hi, rfl⟩ := curve_points hreq.fields hkeys R.indy.1 C.toCurveNamed hde hqe
          have hi' : i ∈ p.indyVals := hi
          obtain ⟨d1, -, cv, r₁, r₂, hcv, m₁, m₂, hlook, hpair⟩ := curve_series hreq.fields hkeys hpl C.toCurveNamed hi hm
            (fun w hw => (g1' w hw).1) (results_functional hreq g1') g3
          refine ⟨d1, fun stat => ?_⟩
          subst hcv
          have hs : st ∈ p.axis₁.stats := C.first.2.2.1
          obtain ⟨sp, var, vals, sq, hser, hpre, hpost, hx, hy, hxy⟩ := C.differs
          have hfor : ∀ z ∈ vals, List.Forall₂ (fun x q => x ∈ q.2) (pre ++ z :: post) (init ++ [sv]) := by
            intro z hz
            rw [← hserR, hser]
            exact List.rel_append hpre (.cons hz hpost)
          have hrow : ∀ z ∈ vals, ∀ r, PlainResult statOf ⟨f.cols, G⟩ (p.config p.axis₁) (pre ++ z :: post ++ [i, st]) r →
              (pre ++ z :: post ++ [i, st]) ∈ (p.config p.axis₁).plainPoints →
              ((r.rows.getD []).map (caseOf f)).Nodup ∧ (r.rows.getD [] ≠ [] → ∃ v, r.value = .num v) := by
            intro z hz r hr hmem
            obtain ⟨rows, k1, k2⟩ := hr
            have hq := equalized_rows R key hG hreq (hfor z hz) hi' hs k1
            obtain ⟨m1, st', hst', hps, -⟩ := plain_rows hreq hmem k1
            rcases k2 with ⟨k2, rfl⟩ | ⟨k2, old, k3, k4⟩
            · simp
            · rw [k4]
              simp only [Option.getD_some]
              refine ⟨by rw [hq]; exact hn _ i st (hfor z hz) hi' hs, fun _ => ?_⟩
              obtain ⟨v, hv⟩ := hnum st' hst' rows k2 (fun r hr => hsub r (m1 r hr))
              rw [hps, hv] at k3
              exact ⟨v, by simpa using k3.symm⟩
          obtain ⟨n₁, v₁⟩ := hrow x hx r₁ (g1' _ m₁).2 (g1' _ m₁).1
          obtain ⟨n₂, v₂⟩ := hrow y hy r₂ (g1' _ m₂).2 (g1' _ m₂).1
          unfold derivedPoint
          rw [hlook]
          simp only [hpair, bind, Except.bind]
          rw [curve_check C.toCurveNamed hi R.input.lead R.statistic (timeColumn_mem R.input) hcol n₁ n₂]
          by_cases h1 : r₁.rows.getD [] = []
          · simp [h1]
          · by_cases h2 : r₂.rows.getD [] = []
            · simp [h2]
            · obtain ⟨a₁, e₁⟩ := v₁ h1
              obtain ⟨a₂, e₂⟩ := v₂ h2
              rw [List.isEmpty_eq_false_iff.mpr h1, List.isEmpty_eq_false_iff.mpr h2, e₁, e₂]
              exact derivedValue_ok statOf etb stat op a₁ a₂ _ _ C.operation)
      refine ⟨s₂.out, ?_⟩
      unfold aggAxis
      rw [if_neg (by simpa [Frame.isEmpty] using ⟨List.ne_nil_of_mem R.statistic, hGe⟩), hm]
      simp only [bind, Except.bind]
      rw [List.foldlM_append, h₁]
      simp only [bind, Except.bind]
      rw [h₂]
  obtain ⟨out, ho⟩ := haxis
  refine ⟨out, ?_⟩
  unfold aggRun
  rw [R.on, R.second]
  have ht : truthy (parseBool "True") = true := rfl
  rw [ht, if_pos rfl, hg]
  simp only [bind, Except.bind, List.isEmpty_nil, if_true]
  rw [ho]

/-- C265: the value of the curve in such a run: computed from the statistics of the lines of both series. -/
theorem C265_values_partial (statOf : String → List (List Val) → Except PyErr PyNum)
    (etb : List PyNum → List PyNum → PyNum) (R : OneAxisRun f p init sv parts fix fv sts rest) (key : List Val → String)
    (hkey : ∀ r ∈ f.rows, IsCaseKey f p.indyVar true r (key r)) (hcurves : CurvesWithoutColon (p.config p.axis₁))
    (hn : ∀ as i st, List.Forall₂ (fun x q => x ∈ q.2) as (init ++ [sv]) → i ∈ p.indyVals → st ∈ p.axis₁.stats →
      ((comparedRows f (init ++ [sv]) parts fix fv p.indyVar key as i st).map (caseOf f)).Nodup)
    (hnum : ∀ st ∈ p.axis₁.stats, ∀ zs, zs ≠ [] → (∀ r ∈ zs, r ∈ f.rows) → ∃ x, statOf (lower st) zs = .ok (.num x))
    (pre post extra : List String) (x y s a b op name : String)
    (C : CurveRequest (p.config p.axis₁) pre post extra x y s a b op name) (i : String) (hi : i ∈ p.indyVals) :
    ∃ out, aggRun statOf etb f p = .ok out ∧ (out = [] ∨ ∃ o ∈ out, o.point = pre ++ name :: post ++ [i, s] ∧
      ∀ rows₁ rows₂, rows₁ = comparedRows f (init ++ [sv]) parts fix fv p.indyVar key (pre ++ x :: post) i s →
        rows₂ = comparedRows f (init ++ [sv]) parts fix fv p.indyVar key (pre ++ y :: post) i s →
        rows₁ ≠ [] → rows₂ ≠ [] → ∃ v₁ v₂, statOf (lower s) rows₁ = .ok (.num v₁) ∧ statOf (lower s) rows₂ = .ok (.num v₂) ∧
          o.value = (derivedOf op v₁ v₂).elim .none (fun q => .num (roundHalfUp q 5))) := by
  obtain ⟨out, h⟩ := C265_completes_partial statOf etb R key hkey hcurves hn hnum
  refine ⟨out, h, ?_⟩
  by_cases hne : out = []
  · exact Or.inl hne
  · right
    obtain ⟨⟨o, ho, hpt⟩, hall⟩ := C247_curve statOf etb out R key hkey pre post extra x y s a b op name C h hne i hi
    refine ⟨o, ho, hpt, ?_⟩
    intro rows₁ rows₂ hr₁ hr₂ h1 h2
    have hs : s ∈ p.axis₁.stats := C.first.2.2.1
    obtain ⟨-, hv⟩ := hall o ho hpt rows₁ rows₂ hr₁ hr₂
    obtain ⟨w₁, w₂, e₁, e₂, hv⟩ := hv h1 h2
    obtain ⟨v₁, q₁⟩ := hnum s hs rows₁ h1 (by rw [hr₁]; exact comparedRows_sub)
    obtain ⟨v₂, q₂⟩ := hnum s hs rows₂ h2 (by rw [hr₂]; exact comparedRows_sub)
    rw [q₁] at e₁
    rw [q₂] at e₂
    exact ⟨v₁, v₂, q₁, q₂, hv v₁ v₂ (by simpa using e₁.symm) (by simpa using e₂.symm)⟩

/-! ### Times as independent values -/

/-- The equalized data has lines if a point has some. -/
theorem equalized_nonempty (R : OneAxisRun f p init sv parts fix fv sts rest) (key : List Val → String) {G : List (List Val)}
    (hG : (p.axis₁.fcstVarVal.flatMap (fun q => q.2.map (fun s => (q.1, s)))).flatMap
      (keptRows f sv ((init ++ [sv]).map (fun x => (x.1, x.2.flatMap parts)) ++ fix) key) = G)
    (hreq : BootRequest ⟨f.cols, G⟩ (p.config p.axis₁)) {as : List String} {i st : String}
    (ha : List.Forall₂ (fun x q => x ∈ q.2) as (init ++ [sv])) (hi : i ∈ p.indyVals) (hs : st ∈ p.axis₁.stats)
    (hne : comparedRows f (init ++ [sv]) parts fix fv p.indyVar key as i st ≠ []) : G ≠ [] := by
  have hmem : as ++ [i, st] ∈ (p.config p.axis₁).plainPoints := by
    rw [AggConfig.plainPoints, mem_product, fields_eq hreq.fields, requested_eq R, List.forall₂_map_right_iff]
    rw [show as ++ [i, st] = as ++ [i] ++ [st] by simp]
    exact List.rel_append (List.rel_append ha (.cons hi .nil)) (.cons hs .nil)
  obtain ⟨rows, hr⟩ := point_rows_ok (f := ⟨f.cols, G⟩) hreq.fields R.statistic hmem
  have hq := equalized_rows R key hG hreq ha hi hs hr
  obtain ⟨m1, -⟩ := plain_rows hreq hmem hr
  rintro rfl
  apply hne
  rw [← hq]
  rcases rows with _ | ⟨r, rows⟩
  · rfl
  · exact absurd (m1 r (by simp)) (by simp)

set_option maxHeartbeats 1000000 in
/-- C265 (what happens otherwise): a run with a requested curve (not a single series) is stopped by an exception if both
series have lines at an independent value with a colon, even with one line per time and lead. -/
theorem C265_refused (statOf : String → List (List Val) → Except PyErr PyNum)
    (etb : List PyNum → List PyNum → PyNum) (R : OneAxisRun f p init sv parts fix fv sts rest) (key : List Val → String)
    (hkey : ∀ r ∈ f.rows, IsCaseKey f p.indyVar true r (key r)) (pre post extra : List String) (x y s a b op name : String)
    (C : CurveNamed (p.config p.axis₁) pre post extra x y s a b op name) (hop : op ≠ "SINGLE") (i : String)
    (hi : i ∈ p.indyVals) (hcolon : ':' ∈ i.toList)
    (h₁ : comparedRows f (init ++ [sv]) parts fix fv p.indyVar key (pre ++ x :: post) i s ≠ [])
    (h₂ : comparedRows f (init ++ [sv]) parts fix fv p.indyVar key (pre ++ y :: post) i s ≠ [])
    (hn : ((comparedRows f (init ++ [sv]) parts fix fv p.indyVar key (pre ++ x :: post) i s).map (caseOf f)).Nodup) :
    ∀ out, aggRun statOf etb f p ≠ .ok out := by
  intro out h
  have hg := equalize_ok R key hkey
  generalize hG : (p.axis₁.fcstVarVal.flatMap (fun q => q.2.map (fun s => (q.1, s)))).flatMap
      (keptRows f sv ((init ++ [sv]).map (fun x => (x.1, x.2.flatMap parts)) ++ fix) key) = G at hg
  have hsub : ∀ r ∈ G, r ∈ f.rows := by
    intro r hr
    rw [← hG] at hr
    unfold keptRows at hr
    simp only [List.mem_flatMap, List.mem_filter] at hr
    obtain ⟨_, _, h3⟩ := hr
    exact h3.1.1
  obtain ⟨hreq, hpl⟩ := run_request R hsub
  have hfe := fields_eq hreq.fields
  have hserR : (p.config p.axis₁).series = init ++ [sv] := R.series
  have hkeys : ((p.config p.axis₁).series.map Prod.fst).Nodup := by
    rw [hserR]
    have := R.names
    rw [List.map_append] at this
    exact (List.nodup_append.mp this).1
  have hs : s ∈ p.axis₁.stats := C.first.2.2.1
  obtain ⟨sp, var, vals, sq, hser, hpre, hpost, hx, hy, hxy⟩ := C.differs
  have hfor : ∀ z ∈ vals, List.Forall₂ (fun x q => x ∈ q.2) (pre ++ z :: post) (init ++ [sv]) := by
    intro z hz
    rw [← hserR, hser]
    exact List.rel_append hpre (.cons hz hpost)
  have hGe := equalized_nonempty R key hG hreq (hfor x hx) hi hs h₁
  unfold aggRun at h
  rw [R.on, R.second] at h
  have ht : truthy (parseBool "True") = true := rfl
  rw [ht, if_pos rfl, hg] at h
  simp only [bind, Except.bind, List.isEmpty_nil, if_true] at h
  obtain ⟨o₁, ho⟩ : ∃ o₁, aggAxis statOf etb ⟨f.cols, G⟩ (p.config p.axis₁) = .ok o₁ := by
    split at h
    · simp at h
    · next o₁ ho => exact ⟨o₁, ho⟩
  obtain ⟨entries, results, plain, derived, hm, -, -, hres, hex, hder⟩ :=
    aggAxis_parts (f := ⟨f.cols, G⟩) ⟨hGe, List.ne_nil_of_mem R.forecast⟩ hreq.fields (fun q hq v hm => hpl q (hfe ▸ hq) v hm) ho
  obtain ⟨-, hin, cv, r₁, r₂, hcv, m₁, m₂, hlook, hpair⟩ := curve_series hreq.fields hkeys hpl C hi hm
    (fun w hw => (hres w hw).1) (results_functional hreq hres) hex
  subst hcv
  obtain ⟨o, -, -, stat, hv⟩ := forall₂_left_mem hder hin
  have hrow : ∀ z ∈ vals, ∀ r, PlainResult statOf ⟨f.cols, G⟩ (p.config p.axis₁) (pre ++ z :: post ++ [i, s]) r →
      r.rows.getD [] = comparedRows f (init ++ [sv]) parts fix fv p.indyVar key (pre ++ z :: post) i s := by
    rintro z hz r ⟨rows, k1, k2⟩
    have hq := equalized_rows R key hG hreq (hfor z hz) hi hs k1
    rcases k2 with ⟨k2, rfl⟩ | ⟨k2, old, k3, k4⟩
    · rw [← hq, k2]; rfl
    · rw [k4, ← hq]; rfl
  unfold derivedPoint at hv
  rw [hlook] at hv
  simp only [hpair, bind, Except.bind, hrow x hx r₁ (hres _ m₁).2, hrow y hy r₂ (hres _ m₂).2] at hv
  rw [check_colon R.input.lead R.statistic (timeColumn_mem R.input) hn h₁ h₂ hop (curve_indy C hi (Or.inl rfl)) hcolon] at hv
  simp at hv

set_option maxHeartbeats 1000000 in
/-- C265: the same with bootstrapping. -/
theorem C265_refused_boot (statOf : String → List (List Val) → Except PyErr PyNum)
    (etb : List PyNum → List PyNum → PyNum) (b' : BootSettings) (draws₁ draws₂ : ℕ → ℕ → List (List ℕ)) (k : ℕ)
    (hdraw : ∀ i n, IndexMatrix n k (draws₁ i n)) (R : OneAxisRun f p init sv parts fix fv sts rest)
    (key : List Val → String) (hkey : ∀ r ∈ f.rows, IsCaseKey f p.indyVar true r (key r))
    (hk : ∀ st ∈ p.axis₁.stats, ∀ zs, zs ≠ [] → (∀ r ∈ zs, r ∈ f.rows) → statOf (lower st) zs ≠ .error .keyError)
    (pre post extra : List String) (x y s a b op name : String)
    (C : CurveNamed (p.config p.axis₁) pre post extra x y s a b op name) (hop : op ≠ "SINGLE") (i : String)
    (hi : i ∈ p.indyVals) (hcolon : ':' ∈ i.toList)
    (h₁ : comparedRows f (init ++ [sv]) parts fix fv p.indyVar key (pre ++ x :: post) i s ≠ [])
    (h₂ : comparedRows f (init ++ [sv]) parts fix fv p.indyVar key (pre ++ y :: post) i s ≠ [])
    (hn : ((comparedRows f (init ++ [sv]) parts fix fv p.indyVar key (pre ++ x :: post) i s).map (caseOf f)).Nodup) :
    ∀ out, bootRun statOf etb b' draws₁ draws₂ f p ≠ .ok out := by
  intro out h
  have hg := equalize_ok R key hkey
  generalize hG : (p.axis₁.fcstVarVal.flatMap (fun q => q.2.map (fun s => (q.1, s)))).flatMap
      (keptRows f sv ((init ++ [sv]).map (fun x => (x.1, x.2.flatMap parts)) ++ fix) key) = G at hg
  have hsub : ∀ r ∈ G, r ∈ f.rows := by
    intro r hr
    rw [← hG] at hr
    unfold keptRows at hr
    simp only [List.mem_flatMap, List.mem_filter] at hr
    obtain ⟨_, _, h3⟩ := hr
    exact h3.1.1
  obtain ⟨hreq, hpl⟩ := run_request R hsub
  have hfe := fields_eq hreq.fields
  have hserR : (p.config p.axis₁).series = init ++ [sv] := R.series
  have hkeys : ((p.config p.axis₁).series.map Prod.fst).Nodup := by
    rw [hserR]
    have := R.names
    rw [List.map_append] at this
    exact (List.nodup_append.mp this).1
  have hkG : ∀ st ∈ (p.config p.axis₁).stats, ∀ zs, zs ≠ [] → (∀ r ∈ zs, r ∈ G) → statOf (lower st) zs ≠ .error .keyError :=
    fun st hst zs z1 z2 => hk st hst zs z1 (fun r hr => hsub r (z2 r hr))
  have hs : s ∈ p.axis₁.stats := C.first.2.2.1
  obtain ⟨sp, var, vals, sq, hser, hpre, hpost, hx, hy, hxy⟩ := C.differs
  have hfor : ∀ z ∈ vals, List.Forall₂ (fun x q => x ∈ q.2) (pre ++ z :: post) (init ++ [sv]) := by
    intro z hz
    rw [← hserR, hser]
    exact List.rel_append hpre (.cons hz hpost)
  have hGe := equalized_nonempty R key hG hreq (hfor x hx) hi hs h₁
  unfold bootRun at h
  rw [R.on, R.second] at h
  have ht : truthy (parseBool "True") = true := rfl
  rw [ht, if_pos rfl, hg] at h
  simp only [bind, Except.bind, List.isEmpty_nil, if_true] at h
  obtain ⟨o₁, ho⟩ : ∃ o₁, bootAxis statOf etb b' draws₁ ⟨f.cols, G⟩ (p.config p.axis₁) = .ok o₁ := by
    split at h
    · simp at h
    · next o₁ ho => exact ⟨o₁, ho⟩
  unfold bootAxis at ho
  rw [if_neg (by simpa [Frame.isEmpty] using ⟨List.ne_nil_of_mem R.statistic, hGe⟩)] at ho
  cases hm : (p.config p.axis₁).derived.mapM (derivedEntry (p.config p.axis₁)) with
  | error e => rw [hm] at ho; simp [bind, Except.bind] at ho
  | ok entries =>
    rw [hm] at ho
    simp only [bind, Except.bind] at ho
    split at ho
    · simp at ho
    · next st' hst =>
      obtain ⟨s₁, e₁, e₂⟩ := foldlM_except_append _ _ _ _ hst
      have hnd := plain_not_derived (c := p.config p.axis₁) (fun q hq v hm => hpl q (hfe ▸ hq) v hm)
      obtain ⟨g1, -, g3, g4, -⟩ := boot_results hreq hkG hdraw _ (fun q hq => ⟨hnd q hq, hq⟩) (by simp) e₁
      have g1' : ∀ w ∈ s₁.results, w.1 ∈ (p.config p.axis₁).plainPoints ∧ KeepsRows ⟨f.cols, G⟩ (p.config p.axis₁) w.1 w.2 := by
        intro w hw
        rcases g1 w hw with h | h
        · simp at h
        · exact ⟨h.1, h.2.1⟩
      have hder : ∀ q ∈ entries.flatMap (fun e => e.2.2), isDerivedPoint (some q) = true := by
        intro q hq
        obtain ⟨e, he, hpe⟩ := List.mem_flatMap.mp hq
        obtain ⟨d, -, hde⟩ := forall₂_right_mem (mapM_except_mem _ hm) he
        exact (derivedEntry_points hreq.fields hde).2 q hpe
      obtain ⟨outs, -, hpts, hval⟩ := boot_derived _ hder e₂
      obtain ⟨-, hin, cv, r₁, r₂, hcv, m₁, m₂, hlook, hpair⟩ := curve_series hreq.fields hkeys hpl C hi hm
        (fun w hw => (g1' w hw).1) g4 g3
      subst hcv
      rw [← hpts] at hin
      obtain ⟨o, ho', hpt⟩ := List.mem_map.mp hin
      obtain ⟨n, hno⟩ := List.mem_iff_getElem?.mp ho'
      obtain ⟨stat, hv⟩ := hval n o hno
      rw [hpt] at hv
      obtain ⟨q₁, k1, k2⟩ := (g1' _ m₁).2
      obtain ⟨q₂, k3, k4⟩ := (g1' _ m₂).2
      simp only at k1 k2 k3 k4
      have hq₁ := equalized_rows R key hG hreq (hfor x hx) hi hs k1
      have hq₂ := equalized_rows R key hG hreq (hfor y hy) hi hs k3
      rw [← hq₁] at h₁ hn
      rw [← hq₂] at h₂
      unfold derivedPointBoot at hv
      rw [hlook] at hv
      simp only [hpair, k2, k4, bind, Except.bind] at hv
      rw [check_colon R.input.lead R.statistic (timeColumn_mem R.input) hn h₁ h₂ hop (curve_indy C hi (Or.inl rfl)) hcolon] at hv
      simp at hv

end

/-! ### Examples -/

/-- Two models with one line at each of two times. -/
def exTimes : Frame := exLines ["total", "fbar", "obar", "fobar", "ffbar", "oobar"] "ME"
  [("2022-01-01 00:00:00", "A", [1, 3, 2, 6, 9, 4]), ("2022-01-02 00:00:00", "A", [1, 4, 2, 8, 16, 4]),
   ("2022-01-01 00:00:00", "B", [1, 1, 2, 2, 1, 4]), ("2022-01-02 00:00:00", "B", [1, 2, 2, 4, 4, 4])]

/-- The mean errors of both models and their difference, as a series in time. -/
def exTimesParams (derived : List (List String)) : AggParams :=
  { exSlParams with
    indyVar := "fcst_valid_beg"
    indyVals := ["2022-01-01 00:00:00", "2022-01-02 00:00:00"]
    axis₁ := ⟨[("model", ["A", "B"])], ["ME"], derived, [("TMP", ["ME"])]⟩ }

/-- C265 (counterexample): both models have one line at each time; the mean errors are 1, 2 and -1, 0, and the difference of
the models, requested against the lead, is computed.  Requested against the time it stops the run. -/
theorem C265_counterexample :
    (aggRun (lineStat .sl1l2 exTimes) (fun _ _ => .none) exTimes (exTimesParams [])).map (List.map (fun o => (o.value, o.nstats))) =
      .ok [(.num 1, 1), (.num 2, 1), (.num (-1), 1), (.num 0, 1)] ∧
    (aggRun (lineStat .sl1l2 exTimes) (fun _ _ => .none) exTimes (exCurveParams "ME")).map (List.map (fun o => (o.value, o.nstats))) =
      .ok [(.num (3 / 2), 2), (.num (-1 / 2), 2), (.num 2, 0)] ∧
    aggRun (lineStat .sl1l2 exTimes) (fun _ _ => .none) exTimes (exTimesParams [["A TMP ME", "B TMP ME", "DIFF"]]) =
      .error .nameError := by
  refine ⟨by decide +kernel, by decide +kernel, by decide +kernel⟩

theorem exTimes_wf : FrameWF exTimes := by unfold FrameWF; decide +kernel

theorem exTime_group (v : String) (hv : v = "2022-01-01 00:00:00" ∨ v = "2022-01-02 00:00:00") : StandsFor v [v] := by
  refine Or.inl ⟨by rcases hv with rfl | rfl <;> decide, by simp, by simp [List.intercalate], Or.inl ?_⟩
  intro w hw
  obtain rfl : w = v := by simpa using hw
  rcases hv with rfl | rfl
  · exact ⟨"2022".toList, "01".toList, "01".toList, "00".toList, "00".toList, "00".toList, ' ', by decide, by decide, by decide,
      by decide, by decide⟩
  · exact ⟨"2022".toList, "01".toList, "02".toList, "00".toList, "00".toList, "00".toList, ' ', by decide, by decide, by decide,
      by decide, by decide⟩

theorem exTimes_input (derived : List (List String)) :
    OneAxisRun exTimes (exTimesParams derived) [] ("model", ["A", "B"]) (fun v => [v]) [] "TMP" ["ME"] [] where
  input := ⟨exTimes_wf, by decide, by decide, by decide, by intro _ h; exact absurd (show "fcst_valid_beg" ∈ timeColumns by decide) h⟩
  forecast := by decide
  statistic := by decide
  on := rfl
  series := rfl
  second := rfl
  fixed := rfl
  names := by decide
  columns := by
    intro v hv
    obtain rfl : v = ("model", ["A", "B"]) := by simpa using hv
    exact ⟨by decide, by decide, by simp⟩
  groups := exRun_input.groups
  texts := exRun_input.texts
  fcst := rfl
  pairs := by simp [exTimesParams]
  stats := by
    intro st hst
    obtain rfl : st = "ME" := by simpa [exTimesParams] using hst
    exact ⟨by simp, by decide, by decide, plainText_of (by decide) (by decide) (by decide)⟩
  indy := ⟨by simp [exTimesParams], fun i hi => ⟨_, exTime_group i (by simpa [exTimesParams] using hi)⟩⟩
  somestat := by decide
  distinct := by simp [exTimesParams]
  plain := by
    refine ⟨exRun_input.plain.1, ?_, ?_⟩
    · intro v hv
      have : v = "2022-01-01 00:00:00" ∨ v = "2022-01-02 00:00:00" := by simpa [exTimesParams] using hv
      rcases this with rfl | rfl <;> decide +kernel
    · intro v hv
      obtain rfl : v = "ME" := by simpa [exTimesParams] using hv
      decide +kernel

theorem exTimes_key : ∀ r ∈ exTimes.rows, IsCaseKey exTimes "fcst_valid_beg" true r (exRunKey r) := by
  intro r hr
  obtain ⟨v, l, h1, h2, h3⟩ := exLines_key _ _ _ r hr
  refine ⟨v, l, h1, h2, ?_⟩
  rw [if_neg (by decide)] at h3 ⊢
  exact h3

theorem exTimes_curve : CurveRequest ((exTimesParams [["A TMP ME", "B TMP ME", "DIFF"]]).config
    (exTimesParams [["A TMP ME", "B TMP ME", "DIFF"]]).axis₁) [] [] ["TMP"] "A" "B" "ME"
    "A TMP ME" "B TMP ME" "DIFF" "DIFF(A TMP ME-B TMP ME)" where
  operation := Or.inl rfl
  requested := by decide
  named := by decide +kernel
  only := by decide +kernel
  first := by unfold SeriesText; decide +kernel
  second := by unfold SeriesText; decide +kernel
  differs := ⟨[], "model", ["A", "B"], [], rfl, .nil, .nil, by decide, by decide, Or.inr rfl⟩
  disjoint := by decide
  groups := by decide

theorem exTimes_result : aggRun (lineStat .sl1l2 exTimes) (fun _ _ => .none) exTimes (exTimesParams []) =
    .ok [⟨["A", "2022-01-01 00:00:00", "ME"], some "TMP", .num 1, 1⟩, ⟨["A", "2022-01-02 00:00:00", "ME"], some "TMP", .num 2, 1⟩,
      ⟨["B", "2022-01-01 00:00:00", "ME"], some "TMP", .num (-1), 1⟩, ⟨["B", "2022-01-02 00:00:00", "ME"], some "TMP", .num 0, 1⟩] := by
  decide +kernel

/-- One line of each model at the first time. -/
theorem exTimes_one (m : String) (hm : m = "A" ∨ m = "B") :
    (comparedRows exTimes ([] ++ [("model", ["A", "B"])]) (fun v => [v]) [] "TMP" "fcst_valid_beg" exRunKey ([] ++ m :: [])
      "2022-01-01 00:00:00" "ME").length = 1 := by
  rcases hm with rfl | rfl
  · have := (run_point _ _ _ (exTimes_input []) exRunKey exTimes_key exTimes_result (by simp) ["A"] "2022-01-01 00:00:00" "ME"
      (.cons (by decide) .nil) (by decide) (by decide) ⟨["A", "2022-01-01 00:00:00", "ME"], some "TMP", .num 1, 1⟩ (by simp)
      rfl _ rfl).1
    exact this.symm
  · have := (run_point _ _ _ (exTimes_input []) exRunKey exTimes_key exTimes_result (by simp) ["B"] "2022-01-01 00:00:00" "ME"
      (.cons (by decide) .nil) (by decide) (by decide) ⟨["B", "2022-01-01 00:00:00", "ME"], some "TMP", .num (-1), 1⟩ (by simp)
      rfl _ rfl).1
    exact this.symm

theorem nodup_of_length_one {α : Type} {l : List α} (h : l.length = 1) : l.Nodup := by
  obtain ⟨a, rfl⟩ := List.length_eq_one_iff.mp h
  simp

theorem ne_nil_of_length_one {α : Type} {l : List α} (h : l.length = 1) : l ≠ [] := by
  rintro rfl
  simp at h

example := C265_refused (lineStat .sl1l2 exTimes) (fun _ _ => .none) (exTimes_input [["A TMP ME", "B TMP ME", "DIFF"]]) exRunKey
  exTimes_key [] [] ["TMP"] "A" "B" "ME" "A TMP ME" "B TMP ME" "DIFF" "DIFF(A TMP ME-B TMP ME)" exTimes_curve.toCurveNamed (by decide)
  "2022-01-01 00:00:00" (by decide) (by decide) (ne_nil_of_length_one (exTimes_one "A" (Or.inl rfl)))
  (ne_nil_of_length_one (exTimes_one "B" (Or.inr rfl)))
  (nodup_of_length_one (by rw [List.length_map]; exact exTimes_one "A" (Or.inl rfl)))

example := C265_refused_boot countStat (fun _ _ => .none) ⟨1 / 2, .perc, true⟩ threeDraws threeDraws 3 threeDraws_ok
  (exTimes_input [["A TMP ME", "B TMP ME", "DIFF"]]) exRunKey exTimes_key (fun _ _ _ _ _ => by simp [countStat])
  [] [] ["TMP"] "A" "B" "ME" "A TMP ME" "B TMP ME" "DIFF" "DIFF(A TMP ME-B TMP ME)" exTimes_curve.toCurveNamed (by decide)
  "2022-01-01 00:00:00" (by decide) (by decide) (ne_nil_of_length_one (exTimes_one "A" (Or.inl rfl)))
  (ne_nil_of_length_one (exTimes_one "B" (Or.inr rfl)))
  (nodup_of_length_one (by rw [List.length_map]; exact exTimes_one "A" (Or.inl rfl)))

theorem exCurve_colon {stat : String} (h : PlainCurves ((exCurveParams stat).config (exCurveParams stat).axis₁)) :
    CurvesWithoutColon ((exCurveParams stat).config (exCurveParams stat).axis₁) := by
  intro d hd
  obtain ⟨pre, post, extra, x, y, st, a, b, op, name, e, C, hc⟩ := h d hd
  exact ⟨pre, post, extra, x, y, st, a, b, op, name, e, C, hc.imp id And.right⟩

/-- RMSE of two models and their difference. -/
example := C265_values_partial (rootPrepared .fields (exRootSl "RMSE")) (fun _ _ => .none) (exCurve_input exRootSl_input) exRunKey
  (exLines_key _ _ _) (exCurve_colon (exCurve_plainCurves exCurveSl_curve (by decide) (by decide +kernel)))
  (exCurve_once (by decide +kernel)) (fun st hst zs z1 z2 => by
    rw [List.mem_singleton.mp hst]
    exact ⟨_, root_except rfl (rmse_value (sl_table exRootSl_lines z1 z2))⟩)
  [] [] ["TMP"] "A" "B" "RMSE" _ _ _ _ exCurveSl_curve "6" (by decide)

end Metcalcpy.Props
