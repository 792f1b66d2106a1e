/-
C262  When a run with bootstrapping completes: exactly if the replicates of every point allow its limits.
-/
import Verif.Props.C258_CtcLimits
import Verif.Props.C243_AggEnsemble

namespace Metcalcpy.Props

open Metcalcpy Spec

/-! ### Specification -/

/-- The limits of a point can be determined: it has no value, or no limits are asked for, or (method `pivotal`) every
replicate has a value, or (method `perc`) some replicate has one. -/
def LimitsDefined (m : CiMethod) (value : Option ℚ) (replicates : List Cell) : Prop :=
  value = none ∨ m = .other ∨ (m = .pivotal ∧ none ∉ replicates) ∨ (m = .perc ∧ ∃ x, some x ∈ replicates)

/-! ### The interval -/

theorem percentile_some {xs : List ℚ} (hne : xs ≠ []) {q : ℚ} (h0 : 0 ≤ q) (h1 : q ≤ 1) : ∃ x, percentile xs q = .ok x := by
  obtain ⟨_, _, _, _, _, _, _, _, _, _, h⟩ := percentile_spec xs hne q h0 h1
  exact ⟨_, h⟩

theorem percentile_empty (q : ℚ) : ∀ x, percentile [] q ≠ .ok x := by
  intro x h
  unfold percentile at h
  split at h <;> simp at h

theorem filterMap_ne {dist : List Cell} : dist.filterMap id ≠ [] ↔ ∃ x, some x ∈ dist := by
  constructor
  · intro h
    obtain ⟨x, hx⟩ := List.exists_mem_of_ne_nil _ h
    obtain ⟨a, h1, h2⟩ := List.mem_filterMap.mp hx
    exact ⟨x, h2 ▸ h1⟩
  · rintro ⟨x, h⟩
    exact List.ne_nil_of_mem (List.mem_filterMap.mpr ⟨_, h, rfl⟩)

/-- C262: the interval of a point estimate and its replicates exists exactly if `LimitsDefined`. -/
theorem C262_interval_iff (dist : List Cell) (hne : dist ≠ []) (v : Option ℚ) (alpha : ℚ) (h0 : 0 ≤ alpha) (h1 : alpha ≤ 1)
    (m : CiMethod) : (∃ r, confidenceInterval dist v alpha m = .ok r) ↔ LimitsDefined m v dist := by
  unfold confidenceInterval LimitsDefined
  cases v with
  | none => simp
  | some v =>
    cases m with
    | other => simp
    | pivotal =>
      have hany : dist.any Option.isNone = true ↔ none ∈ dist := by
        rw [List.any_eq_true]
        constructor
        · rintro ⟨x, hx, e⟩
          rw [Option.isNone_iff_eq_none] at e
          exact e ▸ hx
        · exact fun h => ⟨_, h, rfl⟩
      by_cases hn : none ∈ dist
      · have e : ∀ q, percentileCells dist q = .error .typeError := fun q => by
          unfold percentileCells; rw [if_pos (hany.mpr hn)]
        simp [e, hn, bind, Except.bind]
      · have hs : dist.filterMap id ≠ [] := by
          obtain ⟨a, ha⟩ := List.exists_mem_of_ne_nil _ hne
          cases a with
          | none => exact absurd ha hn
          | some x => exact filterMap_ne.mpr ⟨x, ha⟩
        have e : ∀ q, percentileCells dist q = percentile (dist.filterMap id) q := fun q => by
          unfold percentileCells; rw [if_neg (fun h => hn (hany.mp h))]
        obtain ⟨hi, e1⟩ := percentile_some hs (q := 1 - alpha / 2) (by linarith) (by linarith)
        obtain ⟨lo, e2⟩ := percentile_some hs (q := alpha / 2) (by linarith) (by linarith)
        have f1 := (e _).trans e1
        have f2 := (e _).trans e2
        simp [f1, f2, hn, bind, Except.bind]
    | perc =>
      by_cases hs : dist.filterMap id = []
      · have hx : ¬∃ x, some x ∈ dist := fun h => filterMap_ne.mpr h hs
        have ha : allTheSame dist = false := by
          unfold allTheSame
          rw [if_neg (by simpa using hne), hs]
          rfl
        simp only [ha, Bool.false_eq_true, if_false, hs, bind, Except.bind]
        cases e : percentile [] (alpha / 2) with
        | error e => simpa using hx
        | ok x => exact absurd e (percentile_empty _ x)
      · have hx : ∃ x, some x ∈ dist := filterMap_ne.mp hs
        obtain ⟨hi, e1⟩ := percentile_some hs (q := 1 - alpha / 2) (by linarith) (by linarith)
        obtain ⟨lo, e2⟩ := percentile_some hs (q := alpha / 2) (by linarith) (by linarith)
        have : ∃ r, (if allTheSame dist = true then Except.ok (mkBoot none (some v) none) else do
            let lo ← percentile (dist.filterMap id) (alpha / 2)
            let hi ← percentile (dist.filterMap id) (1 - alpha / 2)
            .ok (mkBoot (some lo) (some v) (some hi)) : Except PyErr BootResult) = .ok r := by
          split
          · exact ⟨_, rfl⟩
          · rw [e1, e2]; exact ⟨_, rfl⟩
        simpa [hx] using this

/-! ### One point -/

/-- The bootstrap of a point succeeds exactly if its limits are defined. -/
theorem plainBoot_iff {statOf : String → List (List Val) → Except PyErr PyNum} {s : BootSettings} {f : Frame} {st : String}
    {rows data : List (List Val)} {ids : List (List ℕ)} {k : ℕ} (hids : IndexMatrix rows.length k ids) (hk : 0 < k)
    (hne : rows ≠ []) (hs : sortData f rows = .ok data) (val : List (List Val) → PyNum)
    (hval : ∀ zs, zs ≠ [] → (∀ r ∈ zs, r ∈ rows) → statOf st zs = .ok (val zs)) :
    (∃ r, plainBoot statOf s f st rows ids = .ok r) ↔ LimitsDefined s.method (val data).cell
      (ids.map fun row => (val (pick data (positionsUsed (if s.cbb then Nat.sqrt rows.length else 1) row))).cell) := by
  have hp := (sortData_spec hs).1
  have hne' : data ≠ [] := by rintro rfl; exact hne (List.nil_perm.mp hp)
  have hids' : IndexMatrix data.length k ids := by rw [hp.length_eq]; exact hids
  have hbl : blockLength s data.length = (if s.cbb then Nat.sqrt rows.length else 1) := by
    unfold blockLength; rw [hp.length_eq]
  have hsims : ∀ row ∈ ids, statOf st (pick data (positionsUsed (blockLength s data.length) row)) =
      .ok (val (pick data (positionsUsed (blockLength s data.length) row))) := fun row hrow =>
    hval _ (pick_ne hne' _ (hids'.2 row hrow).1 (hids'.2 row hrow).2) (fun r hr => hp.mem_iff.mp (pick_mem hr))
  have hmap : (ids.map (fun row => pick data (positionsUsed (blockLength s data.length) row))).mapM (statOf st) =
      .ok (ids.map fun row => val (pick data (positionsUsed (blockLength s data.length) row))) := by
    clear hids hids'
    induction ids with
    | nil => rfl
    | cons row ids ih =>
      rw [List.map_cons, List.mapM_cons, hsims row (by simp)]
      simp only [bind, Except.bind]
      rw [ih (fun r hr => hsims r (by simp [hr]))]
      rfl
  have hidne : ids ≠ [] := by rintro rfl; have := hids.1; simp at this; omega
  have htry : seriesTry statOf s st data ids = confidenceInterval
      (ids.map fun row => (val (pick data (positionsUsed (if s.cbb then Nat.sqrt rows.length else 1) row))).cell)
      (val data).cell (1 / 20) s.method := by
    unfold seriesTry
    rw [hval data hne' (fun r hr => hp.mem_iff.mp hr), generate_pick data _ k ids hids']
    simp only [bind, Except.bind]
    rw [hmap, ← hbl]
    simp [List.map_map, Function.comp_def]
  have hci := C262_interval_iff (ids.map fun row =>
      (val (pick data (positionsUsed (if s.cbb then Nat.sqrt rows.length else 1) row))).cell) (by simpa using hidne)
    (val data).cell (1 / 20) (by norm_num) (by norm_num) s.method
  rw [← hci]
  unfold plainBoot
  rw [if_neg (by simpa using hne), hs]
  simp only [bind, Except.bind]
  rw [htry]
  cases hc : confidenceInterval (ids.map fun row =>
      (val (pick data (positionsUsed (if s.cbb then Nat.sqrt rows.length else 1) row))).cell) (val data).cell (1 / 20) s.method with
  | ok r => simp
  | error e =>
    have : e ≠ .keyError := by rintro rfl; exact ci_not_keyError _ _ _ _ hc
    cases e <;> first | exact absurd rfl this | simp

/-! ### The loop over the points -/

/-- A loop whose steps depend only on the number of rows written so far succeeds exactly if every step does. -/
theorem loop_iff {α : Type} (g : BootState → α → Except PyErr BootState) (Q : ℕ → α → Prop) (l : List α)
    (hg : ∀ b, ∀ x ∈ l, (∃ b', g b x = .ok b') ↔ Q b.out.length x)
    (hlen : ∀ b b' x, g b x = .ok b' → b'.out.length = b.out.length + 1) (b : BootState) :
    (∃ b', l.foldlM g b = .ok b') ↔ ∀ n x, l[n]? = some x → Q (b.out.length + n) x := by
  induction l generalizing b with
  | nil => simp [pure, Except.pure]
  | cons x l ih =>
    rw [List.foldlM_cons]
    simp only [bind, Except.bind]
    cases hx : g b x with
    | error e =>
      simp only [reduceCtorEq, exists_false, false_iff]
      intro h
      obtain ⟨b', hb⟩ := (hg b x (by simp)).mpr (by simpa using h 0 x (by simp))
      rw [hx] at hb
      cases hb
    | ok b' =>
      have hq : Q b.out.length x := (hg b x (by simp)).mp ⟨b', hx⟩
      have ih' := ih (fun b y hy => hg b y (by simp [hy])) b'
      rw [ih', hlen b b' x hx]
      constructor
      · intro h n y hy
        cases n with
        | zero =>
          simp only [List.getElem?_cons_zero, Option.some.injEq] at hy
          subst hy
          simpa using hq
        | succ n =>
          rw [List.getElem?_cons_succ] at hy
          have := h n y hy
          rwa [Nat.add_assoc, Nat.add_comm 1 n] at this
      · intro h n y hy
        have := h (n + 1) y (by rw [List.getElem?_cons_succ]; exact hy)
        rwa [Nat.add_assoc, Nat.add_comm 1 n]

/-- The rows of a plain point can always be selected. -/
theorem point_rows_ok {f : Frame} {c : AggConfig} (hdist : FieldsDistinct c) (hcol : "stat_name" ∈ f.cols) {p : List String}
    (hp : p ∈ c.plainPoints) : ∃ rows, pointRows f ((c.fields.map Prod.fst).zip p) c.fcstVars.head? = .ok rows := by
  have hfo : List.Forall₂ (fun x l => x ∈ l) p ((requestedValues c).map Prod.snd) := by
    rw [AggConfig.plainPoints, mem_product, fields_eq hdist] at hp
    exact hp
  obtain ⟨a, s, e, hs, hz⟩ := point_last hfo
  obtain ⟨i, hi⟩ := Frame.idx?_of_mem hcol
  unfold pointRows
  rw [fields_eq hdist, if_neg]
  · exact ⟨_, rfl⟩
  · intro he
    rw [List.isEmpty_iff] at he
    have hm : (fun r => fieldMatches (cellAt r i) s) ∈
        pointFilters f (((requestedValues c).map Prod.fst).zip p) c.fcstVars.head? :=
      List.mem_append_left _ (List.mem_filterMap.mpr ⟨_, hz, by simp [hi]⟩)
    rw [he] at hm
    simp at hm

/-- C262: the table of an axis without derived curves is completed exactly if the limits of every point with rows are
defined.  `val` is the statistic, which is assumed to have a value (perhaps missing) for every non-empty set of rows. -/
theorem C262_axis_iff {f : Frame} {c : AggConfig} (R : BootRequest f c)
    (statOf : String → List (List Val) → Except PyErr PyNum) (etb : List PyNum → List PyNum → PyNum) (s : BootSettings)
    (draws : ℕ → ℕ → List (List ℕ)) (k : ℕ) (hk : 0 < k) (hdraw : ∀ i n, IndexMatrix n k (draws i n))
    (hrows : f.rows ≠ []) (hcol : "stat_name" ∈ f.cols) (hsort : ∀ rows, ∃ data, sortData f rows = .ok data)
    (hnd : c.derived = []) (hv : ∀ q ∈ requestedValues c, ∀ v ∈ q.2, isDerivedPoint (some [v]) = false)
    (val : String → List (List Val) → PyNum)
    (hval : ∀ st ∈ c.stats, ∀ zs, zs ≠ [] → (∀ r ∈ zs, r ∈ f.rows) → statOf (lower st) zs = .ok (val (lower st) zs)) :
    (∃ out, bootAxis statOf etb s draws f c = .ok out) ↔
      ∀ n p, c.plainPoints[n]? = some p → ∀ a st, p = a ++ [st] →
        ∀ rows, pointRows f ((c.fields.map Prod.fst).zip p) c.fcstVars.head? = .ok rows → rows ≠ [] →
          ∀ data, sortData f rows = .ok data → LimitsDefined s.method (val (lower st) data).cell
            ((draws n rows.length).map fun row =>
              (val (lower st) (pick data (positionsUsed (if s.cbb then Nat.sqrt rows.length else 1) row))).cell) := by
  have hplain := plain_not_derived (c := c) (fun q hq v hm => hv q (fields_eq R.fields ▸ hq) v hm)
  have hloop := loop_iff (bootStep statOf etb s draws f c []) (fun n p => ∀ a st, p = a ++ [st] →
        ∀ rows, pointRows f ((c.fields.map Prod.fst).zip p) c.fcstVars.head? = .ok rows → rows ≠ [] →
          ∀ data, sortData f rows = .ok data → LimitsDefined s.method (val (lower st) data).cell
            ((draws n rows.length).map fun row =>
              (val (lower st) (pick data (positionsUsed (if s.cbb then Nat.sqrt rows.length else 1) row))).cell))
    c.plainPoints (by
      intro b p hp
      obtain ⟨rows, hr⟩ := point_rows_ok (f := f) R.fields hcol hp
      obtain ⟨m1, st, hst, hps, -⟩ := plain_rows R hp hr
      have hlast : ∀ a st', p = a ++ [st'] → lower st' = lower st := by
        rintro a st' rfl
        have hfo := hp
        rw [AggConfig.plainPoints, mem_product, fields_eq R.fields] at hfo
        obtain ⟨a', s', e, hs', -⟩ := point_last hfo
        obtain ⟨rfl, e2⟩ := List.append_inj' e rfl
        simp only [List.cons.injEq, and_true] at e2
        subst e2
        rw [← hps "", pointStat_last _ _ _ _ hs']
      obtain ⟨a₀, s₀, e₀⟩ : ∃ a s, p = a ++ [s] := by
        have hfo := hp
        rw [AggConfig.plainPoints, mem_product, fields_eq R.fields] at hfo
        obtain ⟨a', s', e, -⟩ := point_last hfo
        exact ⟨a', s', e⟩
      unfold bootStep
      simp only [hplain p hp, Bool.false_eq_true, if_false, bind, Except.bind, hr, hps]
      have hstep : (∃ r, plainBoot statOf s f (lower st) rows (draws b.out.length rows.length) = .ok r) ↔
          (rows ≠ [] → ∀ data, sortData f rows = .ok data → LimitsDefined s.method (val (lower st) data).cell
            ((draws b.out.length rows.length).map fun row =>
              (val (lower st) (pick data (positionsUsed (if s.cbb then Nat.sqrt rows.length else 1) row))).cell)) := by
        by_cases he : rows = []
        · subst he
          simp [plainBoot]
        · obtain ⟨data, hd⟩ := hsort rows
          rw [plainBoot_iff (hdraw _ _) hk he hd (val (lower st)) (fun zs z1 z2 => hval st hst zs z1 (fun r hr => m1 r (z2 r hr)))]
          constructor
          · intro h _ d' hd'
            rw [hd] at hd'
            simp only [Except.ok.injEq] at hd'
            subst hd'
            exact h
          · exact fun h => h he data hd
      constructor
      · rintro ⟨b', hb⟩ a st' e rows' hr' hne data hd
        simp only [Except.ok.injEq] at hr'
        subst hr'
        rw [hlast a st' e]
        refine hstep.mp ?_ hne data hd
        cases hb' : plainBoot statOf s f (lower st) rows (draws b.out.length rows.length) with
        | error e => rw [hb'] at hb; simp at hb
        | ok r => exact ⟨r, rfl⟩
      · intro h
        obtain ⟨r, hb⟩ := hstep.mpr (fun hne data hd => by
          have := h a₀ s₀ e₀ rows rfl hne data hd
          rwa [hlast a₀ s₀ e₀] at this)
        rw [hb]
        exact ⟨_, rfl⟩)
    (by
      intro b b' p h
      unfold bootStep at h
      simp only [bind, Except.bind] at h
      split at h
      · split at h
        · simp at h
        · simp only [Except.ok.injEq] at h
          rw [← h]; simp
      · split at h
        · simp at h
        · split at h
          · simp at h
          · simp only [Except.ok.injEq] at h
            rw [← h]; simp)
    ⟨"", [], []⟩
  simp only [List.length_nil, Nat.zero_add] at hloop
  rw [← hloop]
  unfold bootAxis
  rw [if_neg (by simpa [Frame.isEmpty] using ⟨List.ne_nil_of_mem hcol, hrows⟩), hnd]
  simp only [List.mapM_nil, pure, Except.pure, bind, Except.bind, List.foldl_nil, List.flatMap_nil, List.append_nil]
  constructor
  · rintro ⟨out, h⟩
    cases hf : c.plainPoints.foldlM (bootStep statOf etb s draws f c []) ⟨"", [], []⟩ with
    | error e => rw [hf] at h; simp at h
    | ok b => exact ⟨b, rfl⟩
  · rintro ⟨b, h⟩
    rw [h]
    exact ⟨_, rfl⟩

/-! ### The run -/

variable {f : Frame} {p : AggParams} {init : List (String × List String)} {sv : String × List String}
  {parts : String → List String} {fix : List (String × List String)} {fv : String} {sts : List String}
  {rest : List (String × List String)}

/-- C262: a run with event equalization and bootstrapping (without derived curves) completes if, for every point, the
limits are defined by the statistic of its compared rows and of the resamples of them. -/
theorem C262_run (statOf : String → List (List Val) → Except PyErr PyNum) (etb : List PyNum → List PyNum → PyNum)
    (s : BootSettings) (draws₁ draws₂ : ℕ → ℕ → List (List ℕ)) (k : ℕ) (hk : 0 < k)
    (hdraw : ∀ i n, IndexMatrix n k (draws₁ i n)) (R : OneAxisRun f p init sv parts fix fv sts rest)
    (hnd : p.axis₁.derived = []) (key : List Val → String)
    (hkey : ∀ r ∈ f.rows, IsCaseKey f p.indyVar true r (key r)) (val : String → List (List Val) → PyNum)
    (hval : ∀ st ∈ p.axis₁.stats, ∀ zs, zs ≠ [] → (∀ r ∈ zs, r ∈ f.rows) → statOf (lower st) zs = .ok (val (lower st) zs))
    (hlim : ∀ as i st, st ∈ p.axis₁.stats →
      ∀ rows, rows = comparedRows f (init ++ [sv]) parts fix fv p.indyVar key as i st → rows ≠ [] →
        ∀ data, data.Perm rows → ∀ n, LimitsDefined s.method (val (lower st) data).cell
          ((draws₁ n rows.length).map fun row =>
            (val (lower st) (pick data (positionsUsed (if s.cbb then Nat.sqrt rows.length else 1) row))).cell)) :
    ∃ out, bootRun statOf etb s draws₁ draws₂ f p = .ok out := by
  have hrv := requested_eq R
  have hg := equalize_ok R key hkey
  generalize hG : (p.axis₁.fcstVarVal.flatMap (fun q => q.2.map (fun s => (q.1, s)))).flatMap
      (keptRows f sv ((init ++ [sv]).map (fun x => (x.1, x.2.flatMap parts)) ++ fix) key) = G at hg
  have hsub : ∀ r ∈ G, r ∈ f.rows := by
    intro r hr
    rw [← hG] at hr
    unfold keptRows at hr
    simp only [List.mem_flatMap, List.mem_filter] at hr
    obtain ⟨_, _, h3⟩ := hr
    exact h3.1.1
  obtain ⟨hreq, hpl⟩ := run_request R hsub
  have haxis : ∃ out, bootAxis statOf etb s draws₁ ⟨f.cols, G⟩ (p.config p.axis₁) = .ok out := by
    by_cases hGe : G = []
    · refine ⟨[], ?_⟩
      unfold bootAxis
      rw [if_pos (by simp [Frame.isEmpty, hGe])]
    · refine (C262_axis_iff hreq statOf etb s draws₁ k hk hdraw hGe R.statistic
        (fun rows => sortData_exists R.input rows) hnd hpl val
        (fun st hst zs z1 z2 => hval st hst zs z1 (fun r hr => hsub r (z2 r hr)))).mpr ?_
      intro n pt hpt a st e rows hr hne data hd
      subst e
      have hmem := List.mem_of_getElem? hpt
      have hfo := hmem
      rw [AggConfig.plainPoints, mem_product, fields_eq hreq.fields, hrv, List.forall₂_map_right_iff] at hfo
      obtain ⟨l₁, st', e1, h1, hst⟩ := forall₂_snoc hfo
      obtain ⟨l₂, i, rfl, h2, hi⟩ := forall₂_snoc h1
      obtain ⟨as, b, rfl, h3, hb⟩ := forall₂_snoc h2
      obtain ⟨rfl, e4⟩ := List.append_inj' e1 rfl
      simp only [List.cons.injEq, and_true] at e4
      subst e4
      have heq := equalized_point R key as b i st h3.length_eq hb hst
      rw [hG] at heq
      have hhead : (p.config p.axis₁).fcstVars.head? = some fv := by simp [AggParams.config, R.fcst]
      have hz : ((init ++ [sv] ++ [(p.indyVar, p.indyVals)] ++ [("stat_name", p.axis₁.stats)]).map Prod.fst).zip
          (as ++ [b] ++ [i] ++ [st]) = pointRequest (init ++ [sv]) p.indyVar (as ++ [b]) i st := by
        unfold pointRequest
        rw [List.append_assoc, List.append_assoc (as ++ [b]), List.map_append, List.zip_append (by simp [h3.length_eq])]
        rfl
      rw [fields_eq hreq.fields, hrv, hhead, hz] at hr
      have hreqv : ∀ q ∈ pointRequest (init ++ [sv]) p.indyVar (as ++ [b]) i st, ∃ vals, StandsFor q.2 vals := by
        rw [← hz]
        intro q hq
        obtain ⟨l, hl, hx⟩ := forall₂_mem_any (List.forall₂_map_right_iff.mpr hfo) (List.of_mem_zip hq).2
        obtain ⟨w, hw, rfl⟩ := List.mem_map.mp hl
        exact hreq.values w (by rw [hrv]; exact hw) _ hx
      have hrc : rows = comparedRows f (init ++ [sv]) parts fix fv p.indyVar key (as ++ [b]) i st := by
        unfold pointRows at hr
        split at hr
        · simp at hr
        · simp only [Except.ok.injEq] at hr
          unfold comparedRows
          rw [← heq, ← hr]
          apply List.filter_congr
          intro r hm
          have := pointFilters_iff (fcst := some fv) hreq.wf hreqv hm
          rw [Bool.eq_iff_iff, this]
          classical
          rw [decide_eq_true_iff]
          exact Iff.rfl
      exact hlim (as ++ [b]) i st hst rows hrc hne data (sortData_spec hd).1 n
  obtain ⟨out, ho⟩ := haxis
  refine ⟨out, ?_⟩
  unfold bootRun
  rw [R.on, R.second]
  have ht : truthy (parseBool "True") = true := rfl
  rw [ht, if_pos rfl, hg]
  simp only [bind, Except.bind, List.isEmpty_nil, if_true]
  rw [ho]

/-- C262: if the statistics have a number for every non-empty set of lines, the run completes with every method of limits. -/
theorem C262_completes_partial (statOf : String → List (List Val) → Except PyErr PyNum)
    (etb : List PyNum → List PyNum → PyNum) (s : BootSettings) (draws₁ draws₂ : ℕ → ℕ → List (List ℕ)) (k : ℕ) (hk : 0 < k)
    (hdraw : ∀ i n, IndexMatrix n k (draws₁ i n)) (R : OneAxisRun f p init sv parts fix fv sts rest)
    (hnd : p.axis₁.derived = [])
    (hnum : ∀ st ∈ p.axis₁.stats, ∀ zs, zs ≠ [] → (∀ r ∈ zs, r ∈ f.rows) → ∃ x, statOf (lower st) zs = .ok (.num x)) :
    ∃ out, bootRun statOf etb s draws₁ draws₂ f p = .ok out := by
  obtain ⟨key, hk'⟩ := C01_case_key_exists R.input
  have hkey : ∀ r ∈ f.rows, IsCaseKey f p.indyVar true r (key r) := fun r hr => (hk' r hr _).mpr rfl
  let val : String → List (List Val) → PyNum := fun st zs => match statOf st zs with | .ok v => v | .error _ => .none
  have hval : ∀ st ∈ p.axis₁.stats, ∀ zs, zs ≠ [] → (∀ r ∈ zs, r ∈ f.rows) →
      statOf (lower st) zs = .ok (val (lower st) zs) ∧ ∃ x, val (lower st) zs = .num x := by
    intro st hst zs z1 z2
    obtain ⟨x, hx⟩ := hnum st hst zs z1 z2
    have : val (lower st) zs = .num x := by simp only [val, hx]
    exact ⟨by rw [this, hx], x, this⟩
  refine C262_run statOf etb s draws₁ draws₂ k hk hdraw R hnd key hkey val (fun st hst zs z1 z2 => (hval st hst zs z1 z2).1) ?_
  intro as i st hst rows hr hne data hp n
  have hsr : ∀ r ∈ rows, r ∈ f.rows := by rw [hr]; exact comparedRows_sub
  have hdne : data ≠ [] := by rintro rfl; exact hne (List.nil_perm.mp hp)
  have hm : IndexMatrix data.length k (draws₁ n rows.length) := by rw [hp.length_eq]; exact hdraw _ _
  have hrep : ∀ row ∈ draws₁ n rows.length, ∃ x,
      val (lower st) (pick data (positionsUsed (if s.cbb then Nat.sqrt rows.length else 1) row)) = .num x := fun row hrow =>
    (hval st hst _ (pick_ne hdne _ (hm.2 row hrow).1 (hm.2 row hrow).2)
      (fun r hr => hsr r (hp.mem_iff.mp (pick_mem hr)))).2
  unfold LimitsDefined
  cases hmth : s.method with
  | other => exact .inr (.inl rfl)
  | pivotal =>
    refine .inr (.inr (.inl ⟨rfl, fun h => ?_⟩))
    obtain ⟨row, hrow, e⟩ := List.mem_map.mp h
    obtain ⟨x, hx⟩ := hrep row hrow
    rw [hx] at e
    simp [PyNum.cell] at e
  | perc =>
    refine .inr (.inr (.inr ⟨rfl, ?_⟩))
    cases hd : draws₁ n rows.length with
    | nil => have := hm.1; rw [hd] at this; simp at this; omega
    | cons row l =>
      obtain ⟨x, hx⟩ := hrep row (by rw [hd]; simp)
      exact ⟨x, List.mem_map.mpr ⟨row, by simp, by rw [hx]; rfl⟩⟩

/-- C262: a run on SL1L2 lines with bootstrapping always completes for means, ME, MSE and BCMSE. -/
theorem C262_sl1l2 (etb : List PyNum → List PyNum → PyNum) (s : BootSettings) (draws₁ draws₂ : ℕ → ℕ → List (List ℕ)) (k : ℕ)
    (hk : 0 < k) (hdraw : ∀ i n, IndexMatrix n k (draws₁ i n)) (R : OneAxisRun f p init sv parts fix fv sts rest)
    (hnd : p.axis₁.derived = []) (pairs : List Val → List Pair) (L : Sl1l2Lines f pairs)
    (hs : ∀ st ∈ p.axis₁.stats, lower st ∈ ["fbar", "obar", "fobar", "ffbar", "oobar", "me", "mse", "bcmse"]) :
    ∃ out, bootRun (preparedStat .sl1l2 f) etb s draws₁ draws₂ f p = .ok out := by
  refine C262_completes_partial _ etb s draws₁ draws₂ k hk hdraw R hnd (fun st hst zs z1 z2 => ?_)
  have D := sl_table L z1 z2
  obtain ⟨m1, m2, m3, m4, m5⟩ := C15_means _ _ D
  obtain ⟨e1, e2⟩ := C15_me_mse _ _ D
  obtain ⟨x, b1, -⟩ := C15_bcmse _ _ D
  have hsm' := hs st hst
  generalize lower st = s' at hsm'
  simp only [List.mem_cons, List.not_mem_nil, or_false] at hsm'
  rcases hsm' with rfl | rfl | rfl | rfl | rfl | rfl | rfl | rfl
  · exact ⟨_, prepared_sl rfl m1⟩
  · exact ⟨_, prepared_sl rfl m2⟩
  · exact ⟨_, prepared_sl rfl m3⟩
  · exact ⟨_, prepared_sl rfl m4⟩
  · exact ⟨_, prepared_sl rfl m5⟩
  · exact ⟨_, prepared_sl rfl e1⟩
  · exact ⟨_, prepared_sl rfl e2⟩
  · exact ⟨_, prepared_sl rfl b1⟩

/-! ### Examples -/

example := C262_interval_iff [some 1, none] (by simp) (some 1) (1 / 20) (by norm_num) (by norm_num) .pivotal

example := C262_sl1l2 (fun _ _ => .none) ⟨1 / 2, .pivotal, true⟩ threeDraws threeDraws 3 (by decide) threeDraws_ok exSl_input rfl
  exLinePairs exSl_lines (by decide +kernel)

example := C262_axis_iff (c := { bootPlot "DIFF" with derived := [] })
  ⟨(bootTable_request "DIFF").wf, (bootTable_request "DIFF").fields, (bootTable_request "DIFF").values,
    (bootTable_request "DIFF").stats⟩ meanOfX (fun _ _ => .none) ⟨1 / 2, .perc, false⟩ threeDraws 3 (by decide) threeDraws_ok
  (by decide) (by decide) (fun rows => ⟨_, rfl⟩) rfl (by decide +kernel)
  (fun _ rows => .num ((rows.map (fun r => match cellAt r 5 with | .num q _ => q | _ => 0)).sum / rows.length))
  (fun _ _ _ _ _ => rfl)

/-- A statistic that is missing for every set of rows. -/
example := C262_run (fun _ _ => .ok .none) (fun _ _ => .none) ⟨1 / 2, .pivotal, true⟩ threeDraws threeDraws 3 (by decide)
  threeDraws_ok exSl_input rfl exRunKey exSl_key (fun _ _ => .none) (fun _ _ _ _ _ => rfl)
  (fun _ _ _ _ _ _ _ _ _ _ => .inl rfl)

/-- Two cases of two models; at the first one all observations are 0. -/
def exZeroObs : Frame := exLines ["total", "fbar", "obar", "fobar", "ffbar", "oobar"] "MBIAS"
  [("t1", "A", [1, 3, 0, 0, 9, 0]), ("t2", "A", [1, 4, 2, 8, 16, 4]), ("t1", "B", [1, 1, 0, 0, 1, 0]), ("t2", "B", [1, 2, 2, 4, 4, 4])]

/-- A matrix of positions whose rows repeat the first case. -/
def firstDraws (_ n : ℕ) : List (List ℕ) := [List.replicate n 0, List.replicate n 0]

/-- C262 (counterexample): the run without bootstrapping gives the bias of both models; with bootstrapping it is stopped by
an exception, with `pivotal` limits if one of three replicates consists of the case with observations 0, with `perc`
limits if all of them do. -/
theorem C262_counterexample :
    (aggRun (lineStat .sl1l2 exZeroObs) (fun _ _ => .none) exZeroObs (exLinesParams "MBIAS")).map (List.map AggOut.value) =
      .ok [.num (7 / 2), .num (3 / 2)] ∧
    (bootRun (preparedStat .sl1l2 exZeroObs) (fun _ _ => .none) ⟨1 / 20, .perc, false⟩ threeDraws threeDraws exZeroObs
      (exLinesParams "MBIAS")).map (List.map BootOut.value) = .ok [.num (7 / 2), .num (3 / 2)] ∧
    bootRun (preparedStat .sl1l2 exZeroObs) (fun _ _ => .none) ⟨1 / 20, .pivotal, false⟩ threeDraws threeDraws exZeroObs
      (exLinesParams "MBIAS") = .error .typeError ∧
    bootRun (preparedStat .sl1l2 exZeroObs) (fun _ _ => .none) ⟨1 / 20, .perc, false⟩ firstDraws firstDraws exZeroObs
      (exLinesParams "MBIAS") = .error .indexError := by
  refine ⟨by decide +kernel, by decide +kernel, by decide +kernel, by decide +kernel⟩

end Metcalcpy.Props
