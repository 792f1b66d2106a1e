/-
C269  A statistic that does not exist: missing values with bootstrapping, no table without.
-/
import Verif.Props.C262_CurveStatistics

namespace Metcalcpy.Props

open Metcalcpy Spec

/-- The statistic does not exist for the lines of the input: asking for it raises KeyError. -/
def NoSuchStatistic (statOf : String → List (List Val) → Except PyErr PyNum) (rows : List (List Val)) (st : String) : Prop :=
  ∀ zs, zs ≠ [] → (∀ r ∈ zs, r ∈ rows) → statOf (lower st) zs = .error .keyError

/-- The statistic has a number for every non-empty set of lines of the input. -/
def HasNumbers (statOf : String → List (List Val) → Except PyErr PyNum) (rows : List (List Val)) (st : String) : Prop :=
  ∀ zs, zs ≠ [] → (∀ r ∈ zs, r ∈ rows) → ∃ x, statOf (lower st) zs = .ok (.num x)

/-- Every derived curve that is requested is a named curve of a statistic that does not exist; the operation may be any. -/
def CurvesOfNothing (statOf : String → List (List Val) → Except PyErr PyNum) (rows : List (List Val)) (c : AggConfig) : Prop :=
  ∀ d ∈ c.derived, ∃ pre post extra x y st a b op name, d = [a, b, op] ∧
    CurveNamed c pre post extra x y st a b op name ∧ NoSuchStatistic statOf rows st

/-! ### One point -/

theorem unknown_boot {statOf : String → List (List Val) → Except PyErr PyNum} {s : BootSettings} {f : Frame} {st : String}
    {rows : List (List Val)} (hsort : ∀ rows, ∃ data, sortData f rows = .ok data) (h : NoSuchStatistic statOf rows st)
    (ids : List (List ℕ)) : plainBoot statOf s f (lower st) rows ids = .ok (⟨none, none, none⟩, none) := by
  unfold plainBoot
  by_cases he : rows = []
  · rw [he]; rfl
  · rw [if_neg (by simpa using he)]
    obtain ⟨data, hd⟩ := hsort rows
    obtain ⟨m1, m2⟩ := sortData_mem hd
    have ht : seriesTry statOf s (lower st) data ids = .error .keyError := by
      unfold seriesTry
      rw [h data (m2 he) m1]
      rfl
    rw [hd]
    simp only [bind, Except.bind]
    rw [ht]

theorem unknown_sub {statOf : String → List (List Val) → Except PyErr PyNum} {st : String} {rows rows' : List (List Val)}
    (h : NoSuchStatistic statOf rows st) (hs : ∀ r ∈ rows', r ∈ rows) : NoSuchStatistic statOf rows' st :=
  fun zs z1 z2 => h zs z1 (fun r hr => hs r (z2 r hr))

theorem point_stat {c : AggConfig} (hdist : FieldsDistinct c) {p : List String} (hp : p ∈ c.plainPoints) :
    ∃ a st, p = a ++ [st] ∧ st ∈ c.stats ∧ ∀ old, pointStat c.stats p old = lower st := by
  have hfo : List.Forall₂ (fun x l => x ∈ l) p ((requestedValues c).map Prod.snd) := by
    rw [AggConfig.plainPoints, mem_product, fields_eq hdist] at hp
    exact hp
  obtain ⟨a, st, e, hs, -⟩ := point_last hfo
  exact ⟨a, st, e, hs, fun old => by rw [e]; exact pointStat_last _ _ _ _ hs⟩

/-- The plain points of an axis whose statistics either do not exist or always have numbers. -/
theorem mixed_step {statOf : String → List (List Val) → Except PyErr PyNum} {etb : List PyNum → List PyNum → PyNum}
    {s : BootSettings} {draws : ℕ → ℕ → List (List ℕ)} {f : Frame} {c : AggConfig} (R : BootRequest f c)
    (curves : List (String × DerivedCurve)) (k : ℕ) (hk : 0 < k) (hdraw : ∀ i n, IndexMatrix n k (draws i n))
    (hcol : "stat_name" ∈ f.cols) (hsort : ∀ rows, ∃ data, sortData f rows = .ok data)
    (hst : ∀ st ∈ c.stats, NoSuchStatistic statOf f.rows st ∨ HasNumbers statOf f.rows st) (b : BootState) (p : List String)
    (hnd : isDerivedPoint (some p) = false) (hp : p ∈ c.plainPoints) :
    ∃ r b', bootStep statOf etb s draws f c curves b p = .ok b' ∧ b'.results = putPoint b.results p r ∧
      ∀ a st, p = a ++ [st] → NoSuchStatistic statOf f.rows st → r.rows = none := by
  obtain ⟨rows, hr⟩ := point_rows_ok (f := f) R.fields hcol hp
  obtain ⟨m1, -⟩ := plain_rows R hp hr
  obtain ⟨a, st, e, hs, hps⟩ := point_stat R.fields hp
  unfold bootStep
  simp only [hnd, Bool.false_eq_true, if_false, bind, Except.bind, hr, hps]
  have hlast : ∀ a' st', p = a' ++ [st'] → st' = st := by
    intro a' st' e'
    rw [e] at e'
    simpa using (List.append_inj' e' rfl).2.symm
  rcases hst st hs with hun | hnum
  · rw [unknown_boot hsort (unknown_sub hun m1)]
    exact ⟨_, _, rfl, rfl, fun _ _ _ _ => rfl⟩
  · by_cases he : rows = []
    · subst he
      exact ⟨_, _, rfl, rfl, fun _ _ _ _ => rfl⟩
    · obtain ⟨data, hd⟩ := hsort rows
      have hdp := (sortData_spec hd).1
      have hdne : data ≠ [] := by rintro rfl; exact he (List.nil_perm.mp hdp)
      let val : List (List Val) → PyNum := fun zs => match statOf (lower st) zs with | .ok v => v | .error _ => .none
      have hval : ∀ zs, zs ≠ [] → (∀ r ∈ zs, r ∈ rows) → statOf (lower st) zs = .ok (val zs) ∧ ∃ x, val zs = .num x := by
        intro zs z1 z2
        obtain ⟨x, hx⟩ := hnum zs z1 (fun r hr => m1 r (z2 r hr))
        have : val zs = .num x := by simp only [val, hx]
        exact ⟨by rw [this, hx], x, this⟩
      have hids := hdraw b.out.length rows.length
      have hids' : IndexMatrix data.length k (draws b.out.length rows.length) := by rw [hdp.length_eq]; exact hids
      obtain ⟨r, hb⟩ := (plainBoot_iff (statOf := statOf) (s := s) (st := lower st) hids hk he hd val
        (fun zs z1 z2 => (hval zs z1 z2).1)).mpr (limits_numbers (by
          intro h0
          have h1 := hids.1
          rw [List.map_eq_nil_iff.mp h0] at h1
          simp at h1
          omega) (by
          intro x hx
          obtain ⟨row, hrow, rfl⟩ := List.mem_map.mp hx
          obtain ⟨q, hq⟩ := (hval _ (pick_ne hdne (if s.cbb then Nat.sqrt rows.length else 1) (hids'.2 row hrow).1
            (hids'.2 row hrow).2) (fun r hr => hdp.mem_iff.mp (pick_mem hr))).2
          exact ⟨q, by rw [hq]; rfl⟩))
      rw [hb]
      refine ⟨_, _, rfl, rfl, fun a' st' e' hun => ?_⟩
      rw [hlast a' st' e'] at hun
      obtain ⟨x, hx⟩ := hnum rows he m1
      rw [hun rows he m1] at hx
      simp at hx

theorem mixed_loop {statOf : String → List (List Val) → Except PyErr PyNum} {etb : List PyNum → List PyNum → PyNum}
    {s : BootSettings} {draws : ℕ → ℕ → List (List ℕ)} {f : Frame} {c : AggConfig} (R : BootRequest f c)
    (curves : List (String × DerivedCurve)) (k : ℕ) (hk : 0 < k) (hdraw : ∀ i n, IndexMatrix n k (draws i n))
    (hcol : "stat_name" ∈ f.cols) (hsort : ∀ rows, ∃ data, sortData f rows = .ok data)
    (hst : ∀ st ∈ c.stats, NoSuchStatistic statOf f.rows st ∨ HasNumbers statOf f.rows st) (pts : List (List String))
    (hp : ∀ p ∈ pts, isDerivedPoint (some p) = false ∧ p ∈ c.plainPoints) (st : BootState)
    (h0 : ∀ x ∈ st.results, ∀ y ∈ st.results, x.1 = y.1 → x = y) :
    ∃ st', pts.foldlM (bootStep statOf etb s draws f c curves) st = .ok st' ∧
      (∀ x ∈ st'.results, x ∈ st.results ∨ (x.1 ∈ pts ∧ ∀ a z, x.1 = a ++ [z] → NoSuchStatistic statOf f.rows z → x.2.rows = none)) ∧
      (∀ x ∈ st.results, ∃ y ∈ st'.results, y.1 = x.1) ∧ (∀ p ∈ pts, ∃ y ∈ st'.results, y.1 = p) ∧
      (∀ x ∈ st'.results, ∀ y ∈ st'.results, x.1 = y.1 → x = y) := by
  induction pts generalizing st with
  | nil => exact ⟨st, rfl, fun x hx => Or.inl hx, fun x hx => ⟨x, hx, rfl⟩, by simp, h0⟩
  | cons p pts ih =>
    obtain ⟨r, s₁, h₁, hres, hnone⟩ := mixed_step (statOf := statOf) (etb := etb) (s := s) R curves k hk hdraw hcol hsort hst st p
      (hp p (by simp)).1 (hp p (by simp)).2
    obtain ⟨st', h₂, g1, g2, g3, g4⟩ := ih (fun q hq => hp q (by simp [hq])) s₁ (by
      rw [hres]
      intro x hx y hy e
      rcases putPoint_mem _ _ _ hx with rfl | ⟨hx, nx⟩ <;> rcases putPoint_mem _ _ _ hy with rfl | ⟨hy, ny⟩
      · rfl
      · exact absurd e.symm ny
      · exact absurd e nx
      · exact h0 x hx y hy e)
    refine ⟨st', ?_, fun x hx => ?_, fun x hx => ?_, fun q hq => ?_, g4⟩
    · rw [List.foldlM_cons, h₁]
      exact h₂
    · rcases g1 x hx with h | ⟨h, h'⟩
      · rw [hres] at h
        rcases putPoint_mem _ _ _ h with rfl | ⟨h, -⟩
        · exact Or.inr ⟨by simp, hnone⟩
        · exact Or.inl h
      · exact Or.inr ⟨by simp [h], h'⟩
    · obtain ⟨y, hy, e⟩ := putPoint_keys st.results p r hx
      rw [← hres] at hy
      obtain ⟨z, hz, e'⟩ := g2 y hy
      exact ⟨z, hz, e'.trans e⟩
    · rcases List.mem_cons.mp hq with rfl | hq
      · have : (q, r) ∈ s₁.results := by rw [hres]; exact putPoint_self _ _ _
        obtain ⟨z, hz, e'⟩ := g2 _ this
        exact ⟨z, hz, e'⟩
      · exact g3 q hq

/-! ### The axis -/

/-- C269, the table of an axis: if every statistic of the plot either does not exist for the lines or always has a number, and
derived curves are asked for statistics that do not exist, the table with bootstrapping is completed.  It has the row of
every requested point with the number of its lines; value and limits are missing for the statistics that do not exist and
bootstrapped for the others; the rows of the curves are missing, whatever their operation. -/
theorem C269_axis {f : Frame} {c : AggConfig} (R : BootRequest f c)
    (statOf : String → List (List Val) → Except PyErr PyNum) (etb : List PyNum → List PyNum → PyNum) (s : BootSettings)
    (draws : ℕ → ℕ → List (List ℕ)) (k : ℕ) (hk : 0 < k) (hdraw : ∀ i n, IndexMatrix n k (draws i n))
    (hrows : f.rows ≠ []) (hcol : "stat_name" ∈ f.cols) (hsort : ∀ rows, ∃ data, sortData f rows = .ok data)
    (hkeys : (c.series.map Prod.fst).Nodup) (hindy : c.indyVals ≠ [])
    (hv : ∀ q ∈ requestedValues c, ∀ v ∈ q.2, isDerivedPoint (some [v]) = false)
    (hst : ∀ st ∈ c.stats, NoSuchStatistic statOf f.rows st ∨ HasNumbers statOf f.rows st)
    (hcurves : CurvesOfNothing statOf f.rows c) :
    ∃ plain derived, bootAxis statOf etb s draws f c = .ok (plain ++ derived) ∧
      plain.map BootOut.point = c.plainPoints ∧
      (∀ (n : ℕ) (o : BootOut), plain[n]? = some o → ∀ a st, o.point = a ++ [st] →
        ∀ rows, pointRows f ((c.fields.map Prod.fst).zip o.point) c.fcstVars.head? = .ok rows →
          o.fcstVar = c.fcstVars.head? ∧ o.nstats = rows.length ∧
          (rows = [] ∨ NoSuchStatistic statOf f.rows st → o.value = .none ∧ o.lower = none ∧ o.upper = none) ∧
          (rows ≠ [] → HasNumbers statOf f.rows st → ShowsBootstrap statOf s f rows (lower st) (draws n rows.length) o)) ∧
      ∀ o ∈ derived, o.value = .none ∧ o.lower = none ∧ o.upper = none := by
  have hfe := fields_eq R.fields
  have hnd := plain_not_derived (c := c) (fun q hq v hm => hv q (hfe ▸ hq) v hm)
  obtain ⟨entries, hm, -, -⟩ := mapM_ok_each (derivedEntry c) (fun _ => True) c.derived (by
    intro d hd
    obtain ⟨pre, post, extra, x, y, st, a, b, op, name, rfl, C, -⟩ := hcurves d hd
    obtain ⟨var, hentry, -⟩ := curve_entry C
    exact ⟨_, hentry, trivial⟩)
  obtain ⟨s₁, h₁, g1, -, g3, g4⟩ := mixed_loop (statOf := statOf) (etb := etb) (s := s) R
    (entries.foldl (fun d e => dictSet d e.1 e.2.1) []) k hk hdraw hcol hsort hst c.plainPoints (fun q hq => ⟨hnd q hq, hq⟩)
    ⟨"", [], []⟩ (by simp)
  have g1' : ∀ w ∈ s₁.results, w.1 ∈ c.plainPoints ∧ ∀ a z, w.1 = a ++ [z] → NoSuchStatistic statOf f.rows z → w.2.rows = none := by
    intro w hw
    rcases g1 w hw with h | h
    · simp at h
    · exact h
  have hder : ∀ q ∈ entries.flatMap (fun e => e.2.2), isDerivedPoint (some q) = true ∧ ∀ n stat,
      derivedPointBoot statOf etb s f c.groups (entries.foldl (fun d e => dictSet d e.1 e.2.1) []) stat s₁.results q (draws n) =
        .ok (.none, none, none) := by
    intro q hq
    obtain ⟨e, he, hqe⟩ := List.mem_flatMap.mp hq
    obtain ⟨d, hd, hde⟩ := forall₂_right_mem (mapM_except_mem _ hm) he
    obtain ⟨pre, post, extra, x, y, st, a, b, op, name, rfl, C, hun⟩ := hcurves d hd
    obtain ⟨i, hi, rfl⟩ := curve_points R.fields hkeys hindy C hde hqe
    obtain ⟨d1, -, cv, r₁, r₂, hcv, m₁, m₂, hlook, hpair⟩ := curve_series R.fields hkeys hv C hi hm
      (fun w hw => (g1' w hw).1) g4 g3
    refine ⟨d1, fun n stat => ?_⟩
    have e₁ : r₁.rows = none := (g1' _ m₁).2 (pre ++ x :: post ++ [i]) st (by simp) hun
    unfold derivedPointBoot
    rw [hlook]
    simp only [hpair, e₁, Option.getD_none, bind, Except.bind]
    rfl
  obtain ⟨s₂, h₂⟩ := derived_loop_ok (statOf := statOf) (etb := etb) (s := s) (draws := draws) (f := f) (c := c)
    (curves := entries.foldl (fun d e => dictSet d e.1 e.2.1) []) (entries.flatMap (fun e => e.2.2)) s₁
    (fun q hq => ⟨(hder q hq).1, fun n stat => ⟨_, (hder q hq).2 n stat⟩⟩)
  obtain ⟨plain, e1, e2, e3⟩ := boot_loop _ h₁
  obtain ⟨derived, e4, e5, e6⟩ := boot_derived _ (fun q hq => (hder q hq).1) h₂
  simp only [List.nil_append, List.length_nil, Nat.zero_add] at e1 e3
  refine ⟨plain, derived, ?_, e2, ?_, ?_⟩
  · unfold bootAxis
    rw [if_neg (by simpa [Frame.isEmpty] using ⟨List.ne_nil_of_mem hcol, hrows⟩), hm]
    simp only [bind, Except.bind]
    rw [List.foldlM_append, h₁]
    simp only [bind, Except.bind]
    rw [h₂, ← e1, ← e4]
  · intro n o ho a st ep rows hr
    have hi : c.plainPoints[n]? = some o.point := by
      rw [← e2, List.getElem?_map, ho]
      rfl
    have hmem : o.point ∈ c.plainPoints := List.mem_of_getElem? hi
    obtain ⟨rows', old, res, hr', hb, heo⟩ := e3 n _ o hi ho (hnd _ hmem)
    rw [hr] at hr'
    simp only [Except.ok.injEq] at hr'
    subst hr'
    obtain ⟨m1, -⟩ := plain_rows R hmem hr
    obtain ⟨a', st', e', hs', hps⟩ := point_stat R.fields hmem
    have est : st' = st := by
      rw [ep] at e'
      simpa using (List.append_inj' e' rfl).2.symm
    subst est
    rw [hps] at hb
    refine ⟨by rw [heo], by rw [heo], fun h => ?_, fun hne hnum => ?_⟩
    · have : plainBoot statOf s f (lower st') rows (draws n rows.length) = .ok (⟨none, none, none⟩, none) := by
        rcases h with h | h
        · rw [h]; rfl
        · exact unknown_boot hsort (unknown_sub h m1) _
      rw [this] at hb
      rw [heo, ← Except.ok.inj hb]
      exact ⟨rfl, rfl, rfl⟩
    · rw [heo]
      refine plainBoot_shows (hdraw _ _) hne (fun zs z1 z2 => ?_) hb
      obtain ⟨x, hx⟩ := hnum zs z1 (fun r hr => m1 r (z2 r hr))
      rw [hx]
      simp
  · intro o ho
    obtain ⟨n, hn⟩ := List.mem_iff_getElem?.mp ho
    obtain ⟨old, hd⟩ := e6 n o hn
    have hq : o.point ∈ entries.flatMap (fun e => e.2.2) := by
      rw [← e5]
      exact List.mem_map_of_mem ho
    rw [(hder _ hq).2] at hd
    simp only [Except.ok.injEq, Prod.mk.injEq] at hd
    exact ⟨hd.1.symm, hd.2.1.symm, hd.2.2.symm⟩

/-! ### One iteration -/

theorem loop_stops {σ α : Type} (g : σ → α → Except PyErr σ) (l : List α) (x : α) (hx : x ∈ l) (h : ∀ s s', g s x ≠ .ok s') :
    ∀ s s', l.foldlM g s ≠ .ok s' := by
  induction l with
  | nil => simp at hx
  | cons y l ih =>
    intro s s' hs
    obtain ⟨s₁, h₁, h₂⟩ := foldlM_except_cons _ _ _ _ hs
    rcases List.mem_cons.mp hx with rfl | hx
    · exact h _ _ h₁
    · exact ih hx _ _ h₂

/-- Without bootstrapping the table of an axis is not completed if a point of a statistic that does not exist has lines. -/
theorem once_stops {f : Frame} {c : AggConfig} (R : BootRequest f c)
    (statOf : String → List (List Val) → Except PyErr PyNum) (etb : List PyNum → List PyNum → PyNum)
    (hcol : "stat_name" ∈ f.cols) (hv : ∀ q ∈ requestedValues c, ∀ v ∈ q.2, isDerivedPoint (some [v]) = false)
    {p a : List String} {st : String} (hp : p ∈ c.plainPoints) (ep : p = a ++ [st]) (hun : NoSuchStatistic statOf f.rows st)
    {rows : List (List Val)} (hr : pointRows f ((c.fields.map Prod.fst).zip p) c.fcstVars.head? = .ok rows) (hne : rows ≠ []) :
    ∀ out, aggAxis (sortedStat statOf f) etb f c ≠ .ok out := by
  intro out h
  obtain ⟨m1, -⟩ := plain_rows R hp hr
  have hnd := plain_not_derived (c := c) (fun q hq v hm => hv q (fields_eq R.fields ▸ hq) v hm) p hp
  obtain ⟨a', st', e', hs', hps⟩ := point_stat R.fields hp
  have est : st' = st := by
    rw [ep] at e'
    simpa using (List.append_inj' e' rfl).2.symm
  subst est
  have hfr : f.rows ≠ [] := by
    rintro e
    obtain ⟨r, hr'⟩ := List.exists_mem_of_ne_nil _ hne
    have := m1 r hr'
    rw [e] at this
    simp at this
  unfold aggAxis at h
  rw [if_neg (by simpa [Frame.isEmpty] using ⟨List.ne_nil_of_mem hcol, hfr⟩)] at h
  cases hm : c.derived.mapM (derivedEntry c) with
  | error e => rw [hm] at h; simp [bind, Except.bind] at h
  | ok entries =>
    rw [hm] at h
    simp only [bind, Except.bind] at h
    split at h
    · simp at h
    · next s₁ hs₁ =>
      refine loop_stops _ _ p (List.mem_append_left _ hp) (fun s s' h => ?_) _ _ hs₁
      unfold aggStep at h
      have hb : rows.isEmpty = false := by simpa using hne
      simp only [hnd, Bool.false_eq_true, if_false, bind, Except.bind, hr, hps, hb, sortedStat] at h
      cases hd : sortData f rows with
      | error e => rw [hd] at h; simp at h
      | ok data =>
        obtain ⟨d1, d2⟩ := sortData_mem hd
        rw [hd] at h
        simp only at h
        rw [hun data (d2 hne) (fun r hr => m1 r (d1 r hr))] at h
        simp at h

/-! ### The run -/

section
variable {f : Frame} {p : AggParams} {init : List (String × List String)} {sv : String × List String}
  {parts : String → List String} {fix : List (String × List String)} {fv : String} {sts : List String}
  {rest : List (String × List String)}

/-- C269: a run with event equalization and bootstrapping completes if every statistic of the plot either does not exist for
the lines or always has a number, and curves are asked for statistics that do not exist.  The table has the row of every
requested point with the number of compared lines behind it.  Value and limits are missing for the statistics that do not
exist, and those of the bootstrap for the others.  The rows of the curves are missing. -/
theorem C269_run (statOf : String → List (List Val) → Except PyErr PyNum) (etb : List PyNum → List PyNum → PyNum)
    (s : BootSettings) (draws₁ draws₂ : ℕ → ℕ → List (List ℕ)) (k : ℕ) (hk : 0 < k)
    (hdraw : ∀ i n, IndexMatrix n k (draws₁ i n)) (R : OneAxisRun f p init sv parts fix fv sts rest) (key : List Val → String)
    (hkey : ∀ r ∈ f.rows, IsCaseKey f p.indyVar true r (key r))
    (hst : ∀ st ∈ p.axis₁.stats, NoSuchStatistic statOf f.rows st ∨ HasNumbers statOf f.rows st)
    (hcurves : CurvesOfNothing statOf f.rows (p.config p.axis₁)) :
    ∃ out, bootRun statOf etb s draws₁ draws₂ f p = .ok out ∧
      ((∃ as i st, List.Forall₂ (fun x q => x ∈ q.2) as (init ++ [sv]) ∧ i ∈ p.indyVals ∧ st ∈ p.axis₁.stats ∧
        comparedRows f (init ++ [sv]) parts fix fv p.indyVar key as i st ≠ []) →
      ∃ plain derived, out = plain ++ derived ∧
        (∀ pt, pt ∈ plain.map BootOut.point ↔
          ∃ as, List.Forall₂ (fun x q => x ∈ q.2) as (init ++ [sv]) ∧ ∃ i ∈ p.indyVals, ∃ st ∈ p.axis₁.stats,
            pt = as ++ [i, st]) ∧
        (∀ (n : ℕ) (o : BootOut), plain[n]? = some o → ∀ as i st, o.point = as ++ [i, st] →
          ∀ rows, rows = comparedRows f (init ++ [sv]) parts fix fv p.indyVar key as i st →
            o.nstats = rows.length ∧
            (rows = [] ∨ NoSuchStatistic statOf f.rows st → o.value = .none ∧ o.lower = none ∧ o.upper = none) ∧
            (rows ≠ [] → HasNumbers statOf f.rows st →
              ShowsBootstrap statOf s f rows (lower st) (draws₁ n rows.length) o)) ∧
        ∀ o ∈ derived, o.value = .none ∧ o.lower = none ∧ o.upper = none) := by
  have hrv := requested_eq R
  have hg := equalize_ok R key hkey
  generalize hG : (p.axis₁.fcstVarVal.flatMap (fun q => q.2.map (fun s => (q.1, s)))).flatMap
      (keptRows f sv ((init ++ [sv]).map (fun x => (x.1, x.2.flatMap parts)) ++ fix) key) = G at hg
  have hsub : ∀ r ∈ G, r ∈ f.rows := by
    intro r hr
    rw [← hG] at hr
    unfold keptRows at hr
    simp only [List.mem_flatMap, List.mem_filter] at hr
    obtain ⟨_, _, h3⟩ := hr
    exact h3.1.1
  obtain ⟨hreq, hpl⟩ := run_request R hsub
  have hrun : ∀ out, bootAxis statOf etb s draws₁ ⟨f.cols, G⟩ (p.config p.axis₁) = .ok out →
      bootRun statOf etb s draws₁ draws₂ f p = .ok out := by
    intro out ho
    unfold bootRun
    have ht : truthy (parseBool p.eventEqual) = true := by rw [R.on]; rfl
    rw [ht, if_pos rfl, hg, R.second]
    simp only [bind, Except.bind, List.isEmpty_nil, if_true]
    rw [ho]
  have hpoint : ∀ pt, pt ∈ (p.config p.axis₁).plainPoints ↔
      ∃ as, List.Forall₂ (fun x q => x ∈ q.2) as (init ++ [sv]) ∧ ∃ i ∈ p.indyVals, ∃ st ∈ p.axis₁.stats,
        pt = as ++ [i, st] := by
    intro pt
    rw [AggConfig.plainPoints, mem_product, fields_eq hreq.fields, hrv, List.forall₂_map_right_iff]
    constructor
    · intro h
      obtain ⟨l₁, st, rfl, h1, hst⟩ := forall₂_snoc h
      obtain ⟨as, i, rfl, h2, hi⟩ := forall₂_snoc h1
      exact ⟨as, h2, i, hi, st, hst, by simp⟩
    · rintro ⟨as, ha, i, hi, st, hs, rfl⟩
      have : as ++ [i, st] = as ++ [i] ++ [st] := by simp
      rw [this]
      exact List.rel_append (List.rel_append ha (.cons hi .nil)) (.cons hs .nil)
  have hcomp : ∀ as i st, List.Forall₂ (fun x q => x ∈ q.2) as (init ++ [sv]) → i ∈ p.indyVals → st ∈ p.axis₁.stats →
      pointRows ⟨f.cols, G⟩ (((p.config p.axis₁).fields.map Prod.fst).zip (as ++ [i, st])) (p.config p.axis₁).fcstVars.head? =
        .ok (comparedRows f (init ++ [sv]) parts fix fv p.indyVar key as i st) := by
    intro as i st ha hi hs
    obtain ⟨rows, hr⟩ := point_rows_ok (f := ⟨f.cols, G⟩) hreq.fields R.statistic ((hpoint _).mpr ⟨as, ha, i, hi, st, hs, rfl⟩)
    rw [hr, equalized_rows R key hG hreq ha hi hs hr]
  by_cases hGe : G = []
  · refine ⟨[], hrun [] ?_, ?_⟩
    · unfold bootAxis
      rw [if_pos (by simp [Frame.isEmpty, hGe])]
    · rintro ⟨as, i, st, ha, hi, hs, hne⟩
      obtain ⟨r, hr⟩ := List.exists_mem_of_ne_nil _ hne
      have := (plain_rows hreq ((hpoint _).mpr ⟨as, ha, i, hi, st, hs, rfl⟩) (hcomp as i st ha hi hs)).1 r hr
      simp [hGe] at this
  · obtain ⟨plain, derived, ho, e2, h1, h2⟩ := C269_axis hreq statOf etb s draws₁ k hk hdraw hGe R.statistic
      (fun rows => sortData_exists R.input rows) (by
        rw [show (p.config p.axis₁).series = init ++ [sv] from R.series]
        have := R.names
        rw [List.map_append] at this
        exact (List.nodup_append.mp this).1) R.indy.1 hpl
      (fun st hs => (hst st hs).imp (fun h => unknown_sub h hsub)
        (fun h zs z1 z2 => h zs z1 (fun r hr => hsub r (z2 r hr))))
      (fun d hd => by
        obtain ⟨pre, post, extra, x, y, st, a, b, op, name, e, C, hun⟩ := hcurves d hd
        exact ⟨pre, post, extra, x, y, st, a, b, op, name, e, C, unknown_sub hun hsub⟩)
    refine ⟨_, hrun _ ho, fun _ => ⟨plain, derived, rfl, fun pt => by rw [e2, hpoint], ?_, h2⟩⟩
    intro n o hn as i st ep rows hr
    obtain ⟨as', ha, i', hi, st', hs, e'⟩ := (hpoint o.point).mp (by rw [← e2]; exact List.mem_map_of_mem (List.mem_of_getElem? hn))
    rw [ep] at e'
    obtain ⟨rfl, e4⟩ := List.append_inj' e' (by simp)
    simp only [List.cons.injEq, and_true] at e4
    obtain ⟨rfl, rfl⟩ := e4
    obtain ⟨-, g1, g2, g3⟩ := h1 n o hn (as ++ [i]) st (by rw [ep]; simp) rows (by rw [ep, hcomp as i st ha hi hs, hr])
    exact ⟨g1, fun h => g2 (h.imp id (fun h => unknown_sub h hsub)),
      fun h0 h => g3 h0 (fun zs z1 z2 => h zs z1 (fun r hr => hsub r (z2 r hr)))⟩

/-- C269: without bootstrapping (one iteration) the run ends with an error, and no table, as soon as one point of a statistic
that does not exist has lines. -/
theorem C269_once (statOf : String → List (List Val) → Except PyErr PyNum) (etb : List PyNum → List PyNum → PyNum)
    (R : OneAxisRun f p init sv parts fix fv sts rest) (key : List Val → String)
    (hkey : ∀ r ∈ f.rows, IsCaseKey f p.indyVar true r (key r)) (as : List String) (i st : String)
    (ha : List.Forall₂ (fun x q => x ∈ q.2) as (init ++ [sv])) (hi : i ∈ p.indyVals) (hs : st ∈ p.axis₁.stats)
    (hun : NoSuchStatistic statOf f.rows st) (hne : comparedRows f (init ++ [sv]) parts fix fv p.indyVar key as i st ≠ []) :
    ∀ out, aggRun (sortedStat statOf f) etb f p ≠ .ok out := by
  have hrv := requested_eq R
  have hg := equalize_ok R key hkey
  generalize hG : (p.axis₁.fcstVarVal.flatMap (fun q => q.2.map (fun s => (q.1, s)))).flatMap
      (keptRows f sv ((init ++ [sv]).map (fun x => (x.1, x.2.flatMap parts)) ++ fix) key) = G at hg
  have hsub : ∀ r ∈ G, r ∈ f.rows := by
    intro r hr
    rw [← hG] at hr
    unfold keptRows at hr
    simp only [List.mem_flatMap, List.mem_filter] at hr
    obtain ⟨_, _, h3⟩ := hr
    exact h3.1.1
  obtain ⟨hreq, hpl⟩ := run_request R hsub
  have hp : as ++ [i, st] ∈ (p.config p.axis₁).plainPoints := by
    rw [AggConfig.plainPoints, mem_product, fields_eq hreq.fields, hrv, List.forall₂_map_right_iff]
    have : as ++ [i, st] = as ++ [i] ++ [st] := by simp
    rw [this]
    exact List.rel_append (List.rel_append ha (.cons hi .nil)) (.cons hs .nil)
  obtain ⟨rows, hr⟩ := point_rows_ok (f := ⟨f.cols, G⟩) hreq.fields R.statistic hp
  have hstop := once_stops hreq statOf etb R.statistic hpl hp (a := as ++ [i]) (by simp) (unknown_sub hun hsub) hr
    (by rw [equalized_rows R key hG hreq ha hi hs hr]; exact hne)
  intro out h
  have ht : truthy (parseBool p.eventEqual) = true := by rw [R.on]; rfl
  unfold aggRun at h
  rw [ht, if_pos rfl, hg, R.second] at h
  simp only [bind, Except.bind, List.isEmpty_nil, if_true] at h
  split at h
  · simp at h
  · next o₁ ho => exact hstop o₁ ho

end

/-! ### Examples -/

/-- The SL1L2 family has no statistic XYZ, whatever the lines. -/
theorem xyz_unknown (f : Frame) : NoSuchStatistic (preparedStat .sl1l2 f) f.rows "XYZ" := by
  intro zs _ _
  have h1 : fieldsOf (lower "XYZ") = none := by decide +kernel
  have h2 : calculateFunctions.lookup (lower "XYZ") = none := by
    simp only [show lower "XYZ" = "xyz" by decide +kernel, calculateFunctions, List.lookup_cons]
    decide
  unfold preparedStat prepareLine prepareFields
  rw [h1]
  simp only [bind, Except.bind]
  rw [h2]

theorem exXyz_input : OneAxisRun (exRootSl "XYZ") (exCurveParams "XYZ") [] ("model", ["A", "B"]) (fun v => [v]) []
    "TMP" ["XYZ"] [] :=
  exCurve_input (exLines_input (by unfold FrameWF; decide +kernel) (by decide)
    ⟨by decide, by decide, plainText_of (by decide) (by decide) (by decide)⟩ (by decide +kernel))

theorem exXyz_curve : CurveNamed ((exCurveParams "XYZ").config (exCurveParams "XYZ").axis₁) [] [] ["TMP"] "A" "B"
    "XYZ" ("A TMP " ++ "XYZ") ("B TMP " ++ "XYZ") "DIFF" (exCurveName "XYZ") where
  requested := by decide
  named := by decide +kernel
  only := by decide +kernel
  first := by unfold SeriesText; decide +kernel
  second := by unfold SeriesText; decide +kernel
  differs := ⟨[], "model", ["A", "B"], [], rfl, .nil, .nil, by decide, by decide, Or.inr rfl⟩
  disjoint := by decide
  groups := by decide

theorem exXyz_curves : CurvesOfNothing (preparedStat .sl1l2 (exRootSl "XYZ")) (exRootSl "XYZ").rows
    ((exCurveParams "XYZ").config (exCurveParams "XYZ").axis₁) := by
  intro d hd
  obtain rfl : d = ["A TMP " ++ "XYZ", "B TMP " ++ "XYZ", "DIFF"] := by simpa [exCurveParams, AggParams.config] using hd
  exact ⟨[], [], ["TMP"], "A", "B", "XYZ", _, _, _, _, rfl, exXyz_curve, xyz_unknown _⟩

/-- Both lines of A with a common case are behind the row of A. -/
theorem exXyz_rows : comparedRows (exRootSl "XYZ") [("model", ["A", "B"])] (fun v => [v]) [] "TMP" "fcst_lead" exRunKey ["A"] "6"
    "XYZ" ≠ [] := by
  have hg := equalize_ok exXyz_input exRunKey (exLines_key _ _ _)
  have he : (exCurveParams "XYZ").equalize (exRootSl "XYZ") = .ok ⟨(exRootSl "XYZ").cols,
      (exRootSl "XYZ").rows.filter (fun r => cellAt r 0 != .str "t2")⟩ := by decide +kernel
  rw [he] at hg
  have hG := (Frame.mk.inj (Except.ok.inj hg)).2.symm
  have hreq := (run_request exXyz_input (G := (exRootSl "XYZ").rows.filter (fun r => cellAt r 0 != .str "t2"))
    (fun r hr => (List.mem_filter.mp hr).1)).1
  have hp : ["A"] ++ ["6", "XYZ"] ∈ ((exCurveParams "XYZ").config (exCurveParams "XYZ").axis₁).plainPoints := by decide +kernel
  obtain ⟨rows, hr⟩ := point_rows_ok (f := ⟨(exRootSl "XYZ").cols, (exRootSl "XYZ").rows.filter
    (fun r => cellAt r 0 != .str "t2")⟩) hreq.fields exXyz_input.statistic hp
  have hc := equalized_rows exXyz_input exRunKey hG hreq (as := ["A"]) (.cons (by decide) .nil) (by decide) (by decide) hr
  intro h0
  rw [hc.trans h0] at hr
  revert hr
  decide +kernel

example := C269_run (preparedStat .sl1l2 (exRootSl "XYZ")) (fun _ _ => .none) ⟨1 / 2, .perc, true⟩ threeDraws threeDraws 3
  (by decide) threeDraws_ok exXyz_input exRunKey (exLines_key _ _ _)
  (fun st hs => by rw [List.mem_singleton.mp hs]; exact Or.inl (xyz_unknown _)) exXyz_curves

/-- The table of that run. -/
theorem exXyz_result : bootRun (preparedStat .sl1l2 (exRootSl "XYZ")) (fun _ _ => .none) ⟨1 / 2, .perc, true⟩ threeDraws
    threeDraws (exRootSl "XYZ") (exCurveParams "XYZ") = .ok
    [⟨["A", "6", "XYZ"], some "TMP", .none, none, none, 2⟩, ⟨["B", "6", "XYZ"], some "TMP", .none, none, none, 2⟩,
     ⟨["DIFF(A TMP XYZ-B TMP XYZ)", "6", "XYZ"], some "TMP", .none, none, none, 0⟩] := by decide +kernel

example := C269_once (preparedStat .sl1l2 (exRootSl "XYZ")) (fun _ _ => .none) exXyz_input exRunKey (exLines_key _ _ _) ["A"] "6"
  "XYZ" (.cons (by decide) .nil) (by decide) (by decide) (xyz_unknown _) exXyz_rows

/-- Lines of two models and two statistics; model A has two lines for the same time. -/
def exHalf : Frame :=
  { cols := ["model", "fcst_var", "stat_name", "fcst_valid_beg", "fcst_lead", "x"]
    rows := [[.str "A", .str "TMP", .str "ME", .str "t1", .num 12 "12", .num 4 "4"],
             [.str "A", .str "TMP", .str "XYZ", .str "t1", .num 12 "12", .num 1 "1"],
             [.str "A", .str "TMP", .str "XYZ", .str "t1", .num 12 "12", .num 2 "2"],
             [.str "B", .str "TMP", .str "XYZ", .str "t1", .num 12 "12", .num 3 "3"]] }

/-- The mean, and nothing else. -/
def onlyMean (st : String) (rows : List (List Val)) : Except PyErr PyNum :=
  if st = "me" then meanOfX st rows else .error .keyError

def exHalfPlot : AggConfig :=
  { series := [("model", ["A", "B"])], indyVar := "fcst_lead", indyVals := ["12"], stats := ["ME", "XYZ"],
    derived := [["A TMP XYZ", "B TMP XYZ", "DIFF_SIG"]], fcstVars := ["TMP"], groups := [] }

theorem exHalf_request : BootRequest exHalf exHalfPlot where
  wf := by unfold FrameWF; decide
  fields := by unfold FieldsDistinct; decide
  values := by
    have hv : ∀ v ∈ ["A", "B", "12", "ME", "XYZ"], ∃ vals, StandsFor v vals := by
      intro v hv
      simp only [List.mem_cons, List.not_mem_nil, or_false] at hv
      rcases hv with rfl | rfl | rfl | rfl | rfl <;> exact ⟨_, plain_standsFor (by decide) (by decide)⟩
    intro q hq v h
    refine hv v ?_
    revert q v
    decide
  stats := by
    intro s hs
    simp only [exHalfPlot, List.mem_cons, List.not_mem_nil, or_false] at hs
    rcases hs with rfl | rfl <;> exact ⟨by decide, by decide, plainText_of (by decide) (by decide) (by decide)⟩

theorem exHalf_result : bootAxis onlyMean (fun _ _ => .none) ⟨1 / 2, .perc, false⟩ threeDraws exHalf exHalfPlot = .ok
    [⟨["A", "12", "ME"], some "TMP", .num 4, none, none, 1⟩, ⟨["A", "12", "XYZ"], some "TMP", .none, none, none, 2⟩,
     ⟨["B", "12", "ME"], some "TMP", .none, none, none, 0⟩, ⟨["B", "12", "XYZ"], some "TMP", .none, none, none, 1⟩,
     ⟨["DIFF_SIG(A TMP XYZ-B TMP XYZ)", "12", "XYZ"], some "TMP", .none, none, none, 0⟩] := by decide +kernel

example := C269_axis exHalf_request onlyMean (fun _ _ => .none) ⟨1 / 2, .perc, false⟩ threeDraws 3 (by decide) threeDraws_ok
  (by decide) (by decide) (fun rows => ⟨_, rfl⟩) (by decide) (by decide) (by decide +kernel)
  (by
    intro st hs
    simp only [exHalfPlot, List.mem_cons, List.not_mem_nil, or_false] at hs
    rcases hs with rfl | rfl
    · exact Or.inr (fun zs _ _ => ⟨_, rfl⟩)
    · exact Or.inl (fun zs _ _ => rfl))
  (by
    intro d hd
    obtain rfl : d = ["A TMP XYZ", "B TMP XYZ", "DIFF_SIG"] := by simpa [exHalfPlot] using hd
    refine ⟨[], [], ["TMP"], "A", "B", "XYZ", _, _, _, "DIFF_SIG(A TMP XYZ-B TMP XYZ)", rfl, ?_, fun zs _ _ => rfl⟩
    exact
      { requested := by decide
        named := by decide +kernel
        only := by decide +kernel
        first := by unfold SeriesText; decide +kernel
        second := by unfold SeriesText; decide +kernel
        differs := ⟨[], "model", ["A", "B"], [], rfl, .nil, .nil, by decide, by decide, Or.inr rfl⟩
        disjoint := by decide
        groups := by decide })

end Metcalcpy.Props
