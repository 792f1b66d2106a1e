/-
C258  Bootstrap limits in the table are those of resamples of the rows of the point.
-/
import Verif.Props.C257_BootRun
import Verif.Props.C205_AggValues

namespace Metcalcpy.Props

open Metcalcpy Spec

/-! ### One interval -/

/-- An interval with the percentile method lies between two replicates and is in order. -/
theorem perc_inside {dist : List Cell} {v : Option ℚ} {alpha lo hi : ℚ} {x : Option ℚ} (h0 : 0 ≤ alpha) (h1 : alpha ≤ 1)
    (h : confidenceInterval dist v alpha .perc = .ok ⟨some lo, x, some hi⟩) :
    lo ≤ hi ∧ ∃ a b, some a ∈ dist ∧ some b ∈ dist ∧ a ≤ lo ∧ hi ≤ b := by
  cases v with
  | none => simp [confidenceInterval, mkBoot] at h
  | some v =>
    by_cases hd : ∃ x y, some x ∈ dist ∧ some y ∈ dist ∧ x ≠ y
    · obtain ⟨lo', hi', e, h2, h3, -⟩ := C31_percentile_interval dist v alpha h0 h1 hd
      rw [e] at h
      simp only [Except.ok.injEq, BootResult.mk.injEq, Option.some.injEq] at h
      obtain ⟨rfl, -, rfl⟩ := h
      exact ⟨h2, h3⟩
    · exfalso
      push Not at hd
      by_cases he : ∃ x, some x ∈ dist
      · obtain ⟨y, hy⟩ := he
        rw [(C31_no_bounds dist alpha v y .perc).2 (by
          intro z hz
          cases z with
          | none => exact Or.inl rfl
          | some z => exact Or.inr (by rw [hd z y hz hy])) hy] at h
        simp at h
      · push Not at he
        have hall : ∀ z ∈ dist, z = none := by
          intro z hz
          cases z with
          | none => rfl
          | some z => exact absurd hz (he z)
        rw [List.eq_replicate_of_mem hall] at h
        cases hl : dist.length with
        | zero => rw [hl] at h; simp [confidenceInterval, allTheSame, mkBoot] at h
        | succ k =>
          rw [hl, C31_all_missing k v alpha h0 h1] at h
          simp at h

/-! ### The rows of the table -/

/-- The row `o` of the table shows the bootstrap of the statistic `st` of `rows` with the drawn positions `ids`: its value is
the statistic of the rows, every replicate is the statistic of a resample of them in order of their cases, and the limits are
those of the replicates for alpha = 0.05. -/
def ShowsBootstrap (statOf : String → List (List Val) → Except PyErr PyNum) (s : BootSettings) (f : Frame)
    (rows : List (List Val)) (st : String) (ids : List (List ℕ)) (o : BootOut) : Prop :=
  ∃ a, a.Perm rows ∧ (a.map (fun r => keyOfCase (caseOf f r))).Pairwise (· ≤ ·) ∧
    ∃ v dist x, statOf st a = .ok v ∧ o.value = toPyNum x ∧ (s.method ≠ .other → x = v.cell) ∧
      List.Forall₂ (fun row z => statOf st (pick a (positionsUsed (if s.cbb then Nat.sqrt rows.length else 1) row)) = .ok z)
        ids dist ∧
      confidenceInterval (dist.map PyNum.cell) v.cell (1 / 20) s.method = .ok ⟨o.lower, x, o.upper⟩

theorem plainBoot_shows {statOf : String → List (List Val) → Except PyErr PyNum} {s : BootSettings} {f : Frame} {st : String}
    {rows : List (List Val)} {ids : List (List ℕ)} {k : ℕ} {res : BootResult × Option (List (List Val))}
    (hids : IndexMatrix rows.length k ids) (hne : rows ≠ [])
    (hkey : ∀ zs, zs ≠ [] → (∀ r ∈ zs, r ∈ rows) → statOf st zs ≠ .error .keyError)
    (h : plainBoot statOf s f st rows ids = .ok res) {p : List String} {fcst : Option String} {n : ℕ} :
    ShowsBootstrap statOf s f rows st ids ⟨p, fcst, toPyNum res.1.value, res.1.lower, res.1.upper, n⟩ := by
  have hb : rows.isEmpty = false := by simpa using hne
  unfold plainBoot at h
  simp only [hb, Bool.false_eq_true, if_false, bind, Except.bind] at h
  cases hs : sortData f rows with
  | error e => rw [hs] at h; simp at h
  | ok a =>
    rw [hs] at h
    simp only at h
    obtain ⟨hp, so⟩ := sortData_spec hs
    have hl : a.length = rows.length := hp.length_eq
    have hm : IndexMatrix a.length k ids := by rw [hl]; exact hids
    have hane : a ≠ [] := (sortData_mem hs).2 hne
    have hk' : ∀ zs, zs ≠ [] → (∀ r ∈ zs, r ∈ a) → statOf st zs ≠ .error .keyError :=
      fun zs h1 h2 => hkey zs h1 (fun r hr => (sortData_mem hs).1 r (h2 r hr))
    refine ⟨a, hp, so, ?_⟩
    cases hv : statOf st a with
    | error e =>
      have : seriesTry statOf s st a ids = .error e := by unfold seriesTry; simp [hv, bind, Except.bind]
      rw [this] at h
      cases e <;> first | exact absurd hv (hk' a hane (fun _ h => h)) | simp at h
    | ok v =>
      cases hd : (ids.map (fun row => pick a (positionsUsed (blockLength s a.length) row))).mapM (statOf st) with
      | error e =>
        have : seriesTry statOf s st a ids = .error e := by
          unfold seriesTry
          rw [generate_pick a _ k ids hm]
          simp [hv, hd, bind, Except.bind]
        rw [this] at h
        obtain ⟨zs, hz, he⟩ := mapM_error _ hd
        obtain ⟨row, hrow, rfl⟩ := List.mem_map.mp hz
        have hn := hk' _ (pick_ne hane (blockLength s a.length) (hm.2 row hrow).1 (hm.2 row hrow).2) (fun r hr => pick_mem hr)
        cases e <;> first | exact absurd he hn | simp at h
      | ok dist =>
        have : seriesTry statOf s st a ids =
            confidenceInterval (dist.map PyNum.cell) v.cell (1 / 20) s.method := by
          unfold seriesTry
          rw [generate_pick a _ k ids hm]
          simp [hv, hd, bind, Except.bind]
        rw [this] at h
        cases hc : confidenceInterval (dist.map PyNum.cell) v.cell (1 / 20) s.method with
        | error e =>
          rw [hc] at h
          cases e <;> first | exact absurd hc (ci_not_keyError _ _ _ _) | simp at h
        | ok r =>
          rw [hc] at h
          simp only [Except.ok.injEq] at h
          refine ⟨v, dist, r.value, rfl, by rw [← h], fun hm => ci_value hm hc, ?_, by rw [← h]; exact hc⟩
          have := mapM_forall₂ _ hd
          rw [List.forall₂_map_left_iff] at this
          rw [← hl]
          exact this

/-- The `n`-th step of the loop. -/
def StepOut (statOf : String → List (List Val) → Except PyErr PyNum) (s : BootSettings) (draws : ℕ → ℕ → List (List ℕ))
    (f : Frame) (c : AggConfig) (n : ℕ) (p : List String) (o : BootOut) : Prop :=
  isDerivedPoint (some p) = false → ∃ rows old res, pointRows f ((c.fields.map Prod.fst).zip p) c.fcstVars.head? = .ok rows ∧
    plainBoot statOf s f (pointStat c.stats p old) rows (draws n rows.length) = .ok res ∧
    o = ⟨p, c.fcstVars.head?, toPyNum res.1.value, res.1.lower, res.1.upper, rows.length⟩

theorem boot_loop {statOf : String → List (List Val) → Except PyErr PyNum} {etb : List PyNum → List PyNum → PyNum}
    {s : BootSettings} {draws : ℕ → ℕ → List (List ℕ)} {f : Frame} {c : AggConfig} {curves : List (String × DerivedCurve)}
    (l : List (List String)) : ∀ {st st' : BootState}, l.foldlM (bootStep statOf etb s draws f c curves) st = .ok st' →
    ∃ new, st'.out = st.out ++ new ∧ new.map BootOut.point = l ∧
      ∀ i p o, l[i]? = some p → new[i]? = some o → StepOut statOf s draws f c (st.out.length + i) p o := by
  induction l with
  | nil =>
    intro st st' h
    simp only [List.foldlM_nil, pure, Except.pure, Except.ok.injEq] at h
    exact ⟨[], by simp [h], rfl, by simp⟩
  | cons q l ih =>
    intro st st' h
    obtain ⟨st₁, h1, h2⟩ := foldlM_except_cons _ _ _ _ h
    obtain ⟨new, e1, e2, e3⟩ := ih h2
    obtain ⟨o₁, eo, ep, hs⟩ : ∃ o₁, st₁.out = st.out ++ [o₁] ∧ o₁.point = q ∧
        StepOut statOf s draws f c st.out.length q o₁ := by
      unfold bootStep at h1
      cases hd : isDerivedPoint (some q) with
      | true =>
        simp only [hd, if_true, bind, Except.bind] at h1
        split at h1
        · simp at h1
        · simp only [Except.ok.injEq] at h1
          rw [← h1]
          exact ⟨_, rfl, rfl, fun h => by rw [hd] at h; simp at h⟩
      | false =>
        simp only [hd, Bool.false_eq_true, if_false, bind, Except.bind] at h1
        cases hr : pointRows f ((c.fields.map Prod.fst).zip q) c.fcstVars.head? with
        | error e => rw [hr] at h1; simp at h1
        | ok rows =>
          rw [hr] at h1
          simp only at h1
          cases hb : plainBoot statOf s f (pointStat c.stats q st.stat) rows (draws st.out.length rows.length) with
          | error e => rw [hb] at h1; simp at h1
          | ok res =>
            rw [hb] at h1
            simp only [Except.ok.injEq] at h1
            rw [← h1]
            exact ⟨_, rfl, rfl, fun _ => ⟨rows, st.stat, res, hr, hb, rfl⟩⟩
    refine ⟨o₁ :: new, by rw [e1, eo]; simp, by simp [ep, e2], ?_⟩
    intro i p o h1 h2
    cases i with
    | zero =>
      simp only [List.getElem?_cons_zero, Option.some.injEq] at h1 h2
      subst h1; subst h2
      exact hs
    | succ i =>
      simp only [List.getElem?_cons_succ] at h1 h2
      have := e3 i p o h1 h2
      rw [eo] at this
      rw [show st.out.length + (i + 1) = (st.out ++ [o₁]).length + i by simp; omega]
      exact this

open Classical in
/-- C258 (partial), for one axis: the table begins with one row for every combination of the requested values; the row of a
combination counts the input rows that belong to it and shows the bootstrap of exactly these rows with the positions drawn
for it; without such rows value and limits are missing.  Missing from the full claim: the requested alpha
(`C258_alpha_counterexample`). -/
theorem C258_rows_partial {f : Frame} {c : AggConfig} (R : BootRequest f c)
    (statOf : String → List (List Val) → Except PyErr PyNum) (etb : List PyNum → List PyNum → PyNum) (s : BootSettings)
    (draws : ℕ → ℕ → List (List ℕ)) (k : ℕ) (hne : f.rows ≠ [] ∧ f.cols ≠ [])
    (hkey : ∀ st ∈ c.stats, ∀ rows, rows ≠ [] → (∀ r ∈ rows, r ∈ f.rows) → statOf (lower st) rows ≠ .error .keyError)
    (hdraw : ∀ i n, IndexMatrix n k (draws i n))
    (hplain : ∀ q ∈ requestedValues c, ∀ v ∈ q.2, isDerivedPoint (some [v]) = false) (out : List BootOut)
    (h : bootAxis statOf etb s draws f c = .ok out) :
    ∃ plain derived, out = plain ++ derived ∧
      (∀ p, p ∈ plain.map BootOut.point ↔ List.Forall₂ (fun x q => x ∈ q.2) p (requestedValues c)) ∧
      plain.length = ((requestedValues c).map (fun q => q.2.length)).prod ∧
      ∀ (i : ℕ) (o : BootOut), plain[i]? = some o → ∀ rows, rows = f.rows.filter (fun r =>
          decide (RowOf f (((requestedValues c).map Prod.fst).zip o.point) c.fcstVars.head? r)) →
        o.fcstVar = c.fcstVars.head? ∧ o.nstats = rows.length ∧
        (rows = [] → o.value = .none ∧ o.lower = none ∧ o.upper = none) ∧
        (rows ≠ [] → ∃ st, o.point.getLast? = some st ∧
          ShowsBootstrap statOf s f rows (lower st) (draws i rows.length) o) := by
  have hfe := fields_eq R.fields
  have he : f.isEmpty = false := by
    obtain ⟨h1, h2⟩ := hne
    unfold Frame.isEmpty
    cases hc : f.cols <;> cases hr : f.rows <;> simp_all
  unfold bootAxis at h
  simp only [he, Bool.false_eq_true, if_false] at h
  cases hm : c.derived.mapM (derivedEntry c) with
  | error e => rw [hm] at h; simp [bind, Except.bind] at h
  | ok entries =>
    rw [hm] at h
    simp only [bind, Except.bind] at h
    split at h
    · simp at h
    · next st' hst =>
      simp only [Except.ok.injEq] at h
      obtain ⟨new, e1, e2, e3⟩ := boot_loop _ hst
      simp only [List.nil_append, List.length_nil, Nat.zero_add] at e1 e3
      rw [e1] at h
      subst h
      have hpm : (new.take c.plainPoints.length).map BootOut.point = c.plainPoints := by
        rw [List.map_take, e2, List.take_left]
      refine ⟨new.take c.plainPoints.length, new.drop c.plainPoints.length, (List.take_append_drop _ _).symm, ?_, ?_, ?_⟩
      · intro p
        rw [hpm, AggConfig.plainPoints, mem_product, hfe, List.forall₂_map_right_iff]
      · rw [← List.length_map (f := BootOut.point), hpm, AggConfig.plainPoints, length_product, hfe, List.map_map]
        rfl
      · intro i o ho rows hrows
        have hi : c.plainPoints[i]? = some o.point := by
          rw [← hpm, List.getElem?_map, ho]
          rfl
        have hmem : o.point ∈ c.plainPoints := List.mem_of_getElem? hi
        have hnd := plain_not_derived (c := c) (fun q hq v hv => hplain q (hfe ▸ hq) v hv) _ hmem
        have hon : new[i]? = some o := by
          rw [List.getElem?_take] at ho
          split at ho
          · exact ho
          · simp at ho
        have hl : (c.plainPoints ++ entries.flatMap (fun e => e.2.2))[i]? = some o.point := by
          rw [List.getElem?_append_left (by
            by_contra hc
            rw [List.getElem?_eq_none (by omega)] at hi
            simp at hi)]
          exact hi
        obtain ⟨rows', old, res, hr, hb, heo⟩ := e3 i _ o hl hon hnd
        obtain ⟨m1, st, hst', hps, -⟩ := plain_rows R hmem hr
        have hfo : List.Forall₂ (fun x l => x ∈ l) o.point ((requestedValues c).map Prod.snd) := by
          rw [AggConfig.plainPoints, mem_product, hfe] at hmem
          exact hmem
        have hrr : rows' = rows := by
          rw [hfe] at hr
          unfold pointRows at hr
          split at hr
          · simp at hr
          · simp only [Except.ok.injEq] at hr
            rw [← hr, hrows]
            apply List.filter_congr
            intro r hr'
            rw [Bool.eq_iff_iff, decide_eq_true_iff]
            refine pointFilters_iff R.wf ?_ hr'
            intro q hq
            obtain ⟨l, hl, hx⟩ := forall₂_mem_any hfo (List.of_mem_zip hq).2
            obtain ⟨w, hw, rfl⟩ := List.mem_map.mp hl
            exact R.values w hw _ hx
        rw [hrr] at hr hb heo m1
        obtain ⟨a, st₂, ea, hs₂, -⟩ := point_last hfo
        have hst2 : ∀ old, pointStat c.stats o.point old = lower st₂ := fun old => by
          rw [ea]; exact pointStat_last _ _ _ _ hs₂
        rw [hst2] at hb
        refine ⟨by rw [heo], by rw [heo], fun h0 => ?_, fun h0 => ⟨st₂, by rw [ea]; simp, ?_⟩⟩
        · rw [h0] at hb
          simp only [plainBoot, List.isEmpty_nil, if_true, Except.ok.injEq] at hb
          rw [heo, ← hb]
          exact ⟨rfl, rfl, rfl⟩
        · rw [heo]
          exact plainBoot_shows (hdraw _ _) h0 (fun zs z1 z2 => hkey st₂ hs₂ zs z1 (fun r hr => m1 r (z2 r hr))) hb

/-- C258: with the percentile method the limits shown are in order and lie between two replicates, each of them the statistic
of as many rows of the point as there are. -/
theorem C258_between_replicates {statOf : String → List (List Val) → Except PyErr PyNum} {s : BootSettings} {f : Frame}
    {rows : List (List Val)} {st : String} {ids : List (List ℕ)} {o : BootOut} (hm : s.method = .perc)
    (h : ShowsBootstrap statOf s f rows st ids o) (k : ℕ) (hids : IndexMatrix rows.length k ids) (lo hi : ℚ) (hl : o.lower = some lo) (hu : o.upper = some hi) :
    lo ≤ hi ∧ ∃ a b : ℚ, a ≤ lo ∧ hi ≤ b ∧ ∀ x ∈ [a, b], ∃ zs, zs.length = rows.length ∧ (∀ r ∈ zs, r ∈ rows) ∧ statOf st zs = .ok (.num x) := by
  obtain ⟨d, hp, -, v, dist, x, -, -, -, hf, hc⟩ := h
  rw [hm, hl, hu] at hc
  obtain ⟨h1, a, b, ha, hb, h2, h3⟩ := perc_inside (by norm_num) (by norm_num) hc
  refine ⟨h1, a, b, h2, h3, ?_⟩
  have key : ∀ x, some x ∈ dist.map PyNum.cell → ∃ zs, zs.length = rows.length ∧ (∀ r ∈ zs, r ∈ rows) ∧ statOf st zs = .ok (.num x) := by
    intro x hx
    obtain ⟨z, hz, e⟩ := List.mem_map.mp hx
    obtain ⟨row, hrow, hr⟩ := forall₂_right_mem hf hz
    have : z = .num x := by cases z <;> simp_all [PyNum.cell]
    subst this
    exact ⟨_, by rw [pick_length (by rw [hp.length_eq]; exact (hids.2 row hrow).1)
      (by rw [hp.length_eq]; exact (hids.2 row hrow).2), hp.length_eq], fun r hr => hp.mem_iff.mp (pick_mem hr), hr⟩
  intro x hx
  simp only [List.mem_cons, List.not_mem_nil, or_false] at hx
  rcases hx with rfl | rfl
  · exact key _ ha
  · exact key _ hb

/-! ### The run on SL1L2 lines -/

variable {f : Frame} {p : AggParams} {init : List (String × List String)} {sv : String × List String}
  {parts : String → List String} {fix : List (String × List String)} {fv : String} {sts : List String}
  {rest : List (String × List String)}

theorem prepared_sl {f : Frame} {s : String} {data : List (List Val)} {calculate : Table → Bool → Option ℚ}
    {x : Option ℚ} (hl : calculateFunctions.lookup s = some (fun t => .ok (calculate t true)))
    (ha : aggregated s calculate (numericTable f.cols data) = .ok x) :
    preparedStat .sl1l2 f s data = .ok (toPyNum x) := by
  unfold preparedStat
  simp only [bind, Except.bind, prepareLine, hl]
  unfold aggregated at ha
  simp only [bind, Except.bind, pure, Except.pure] at ha
  cases hp : prepareFields (numericTable f.cols data) (fieldsOf s) with
  | error e => rw [hp] at ha; cases ha
  | ok t =>
    rw [hp] at ha
    simp only [Except.ok.injEq] at ha
    simp only [ha, Except.map]

/-- The value of SL1L2 lines in any order, with repetitions. -/
theorem prepared_score {f : Frame} {pairs : List Val → List Pair} (L : Sl1l2Lines f pairs) {data : List (List Val)}
    (hne : data ≠ []) (hsub : ∀ r ∈ data, r ∈ f.rows) {s : String}
    (hs : s ∈ ["fbar", "obar", "fobar", "ffbar", "oobar", "me", "mse", "bcmse"]) :
    ∃ v, preparedStat .sl1l2 f s data = .ok v ∧ PoolScore s (data.flatMap pairs) v := by
  have D := sl_table L hne hsub
  have hpool : (data.map pairs).flatten = data.flatMap pairs := List.flatMap_def.symm
  obtain ⟨m1, m2, m3, m4, m5⟩ := C15_means _ _ D
  obtain ⟨e1, e2⟩ := C15_me_mse _ _ D
  obtain ⟨x, b1, b2⟩ := C15_bcmse _ _ D
  rw [hpool] at m1 m2 m3 m4 m5 e1 e2 b2
  simp only [List.mem_cons, List.not_mem_nil, or_false] at hs
  rcases hs with rfl | rfl | rfl | rfl | rfl | rfl | rfl | rfl
  · exact ⟨_, prepared_sl rfl m1, by constructor <;> simp [toPyNum]⟩
  · exact ⟨_, prepared_sl rfl m2, by constructor <;> simp [toPyNum]⟩
  · exact ⟨_, prepared_sl rfl m3, by constructor <;> simp [toPyNum]⟩
  · exact ⟨_, prepared_sl rfl m4, by constructor <;> simp [toPyNum]⟩
  · exact ⟨_, prepared_sl rfl m5, by constructor <;> simp [toPyNum]⟩
  · exact ⟨_, prepared_sl rfl e1, by constructor <;> simp [toPyNum]⟩
  · exact ⟨_, prepared_sl rfl e2, by constructor <;> simp [toPyNum]⟩
  · exact ⟨_, prepared_sl rfl b1, by constructor <;> first | (intro h; exact absurd h (by decide)) | exact fun _ => ⟨x, rfl, b2⟩⟩

theorem poolScore_perm {s : String} {l l' : List Pair} {v : PyNum} (hp : l.Perm l') (h : PoolScore s l v) : PoolScore s l' v := by
  have hme : meanError l = meanError l' := perm_avg _ hp
  have hmse : meanSquaredError l = meanSquaredError l' := perm_avg _ hp
  refine ⟨fun e => ?_, fun e => ?_, fun e => ?_, fun e => ?_, fun e => ?_, fun e => ?_, fun e => ?_, fun e => ?_⟩
  · rw [h.fbar e, perm_avg _ hp]
  · rw [h.obar e, perm_avg _ hp]
  · rw [h.fobar e, perm_avg _ hp]
  · rw [h.ffbar e, perm_avg _ hp]
  · rw [h.oobar e, perm_avg _ hp]
  · rw [h.me e, hme]
  · rw [h.mse e, hmse]
  · obtain ⟨x, h1, h2⟩ := h.bcmse e
    rw [hme, perm_bcmse hp] at h2
    exact ⟨x, h1, h2⟩

/-- What a one-axis run asks of its equalized data. -/
theorem run_request (R : OneAxisRun f p init sv parts fix fv sts rest) {G : List (List Val)} (hsub : ∀ r ∈ G, r ∈ f.rows) :
    BootRequest ⟨f.cols, G⟩ (p.config p.axis₁) ∧
      ∀ q ∈ requestedValues (p.config p.axis₁), ∀ v ∈ q.2, isDerivedPoint (some [v]) = false := by
  have hrv := requested_eq R
  have hall : ∀ q ∈ requestedValues (p.config p.axis₁), ∀ v ∈ q.2,
      (∃ vals, StandsFor v vals) ∧ isDerivedPoint (some [v]) = false := by
    rw [hrv]
    intro q hq v hv
    rcases List.mem_append.mp hq with hq | hq
    · rcases List.mem_append.mp hq with hq | hq
      · exact ⟨⟨_, standsFor_group (R.groups q hq v hv).1 (R.groups q hq v hv).2⟩, R.plain.1 q hq v hv⟩
      · simp only [List.mem_singleton] at hq
        subst hq
        exact ⟨R.indy.2 v hv, R.plain.2.1 v hv⟩
    · simp only [List.mem_singleton] at hq
      subst hq
      exact ⟨⟨_, plain_standsFor (R.stats v hv).2.1 (R.stats v hv).2.2.1⟩, R.plain.2.2 v hv⟩
  refine ⟨⟨fun r hr => R.input.wf r (hsub r hr), config_fields R, fun q hq v hv => (hall q hq v hv).1, ?_⟩,
    fun q hq v hv => (hall q hq v hv).2⟩
  intro s hs
  exact (R.stats s hs).2

/-- C258, for a run on SL1L2 lines with event equalization and bootstrapping: behind the row of series values `as`,
independent value `i` and statistic `st` are the lines of the cases common to all series.  Its value is the score of their
pooled pairs, every replicate the score of the pooled pairs of as many of these lines drawn with repetition, and the limits
are the 2.5 and 97.5 percentiles (or their mirror images) of the replicates. -/
theorem C258_sl1l2 (etb : List PyNum → List PyNum → PyNum) (s : BootSettings) (draws₁ draws₂ : ℕ → ℕ → List (List ℕ)) (k : ℕ)
    (hdraw : ∀ i n, IndexMatrix n k (draws₁ i n)) (hm : s.method ≠ .other) (out : List BootOut)
    (R : OneAxisRun f p init sv parts fix fv sts rest) (key : List Val → String)
    (hkey : ∀ r ∈ f.rows, IsCaseKey f p.indyVar true r (key r)) (pairs : List Val → List Pair)
    (L : Sl1l2Lines f pairs)
    (hs : ∀ st ∈ p.axis₁.stats, lower st ∈ ["fbar", "obar", "fobar", "ffbar", "oobar", "me", "mse", "bcmse"])
    (h : bootRun (preparedStat .sl1l2 f) etb s draws₁ draws₂ f p = .ok out) (hne : out ≠ []) :
    ∃ plain derived, out = plain ++ derived ∧
      (∀ pt, pt ∈ plain.map BootOut.point ↔
        ∃ as, List.Forall₂ (fun x q => x ∈ q.2) as (init ++ [sv]) ∧ ∃ i ∈ p.indyVals, ∃ st ∈ p.axis₁.stats,
          pt = as ++ [i, st]) ∧
      ∀ (n : ℕ) (o : BootOut), plain[n]? = some o → ∀ as i st, o.point = as ++ [i, st] →
        ∀ rows, rows = comparedRows f (init ++ [sv]) parts fix fv p.indyVar key as i st →
          o.nstats = rows.length ∧ (rows = [] → o.value = .none ∧ o.lower = none ∧ o.upper = none) ∧
          (rows ≠ [] → ∃ v : ℚ, o.value = .num v ∧ PoolScore (lower st) (rows.flatMap pairs) (.num v) ∧
            ∃ (sims : List (List (List Val))) (dist : List ℚ), sims.length = k ∧
              (∀ zs ∈ sims, zs.length = rows.length ∧ ∀ r ∈ zs, r ∈ rows) ∧
              List.Forall₂ (fun zs x => PoolScore (lower st) (zs.flatMap pairs) (.num x)) sims dist ∧
              confidenceInterval (dist.map some) (some v) (1 / 20) s.method = .ok ⟨o.lower, some v, o.upper⟩) := by
  have hrv := requested_eq R
  have hg := equalize_ok R key hkey
  generalize hG : (p.axis₁.fcstVarVal.flatMap (fun q => q.2.map (fun s => (q.1, s)))).flatMap
      (keptRows f sv ((init ++ [sv]).map (fun x => (x.1, x.2.flatMap parts)) ++ fix) key) = G at hg
  have hsub : ∀ r ∈ G, r ∈ f.rows := by
    intro r hr
    rw [← hG] at hr
    unfold keptRows at hr
    simp only [List.mem_flatMap, List.mem_filter] at hr
    obtain ⟨_, _, h3⟩ := hr
    exact h3.1.1
  unfold bootRun at h
  rw [R.on, R.second] at h
  have ht : truthy (parseBool "True") = true := rfl
  rw [ht, if_pos rfl, hg] at h
  simp only [bind, Except.bind, List.isEmpty_nil, if_true] at h
  obtain ⟨o₁, ho, e⟩ : ∃ o₁, bootAxis (preparedStat .sl1l2 f) etb s draws₁ ⟨f.cols, G⟩ (p.config p.axis₁) = .ok o₁ ∧
      o₁ = out := by
    split at h
    · simp at h
    · next o₁ ho => exact ⟨o₁, ho, by simpa using h⟩
  subst e
  have hGe : G ≠ [] := by
    rintro rfl
    unfold bootAxis at ho
    rw [if_pos (by simp [Frame.isEmpty])] at ho
    exact hne (by simpa using ho.symm)
  obtain ⟨hreq, hpl⟩ := run_request R hsub
  have hscore : ∀ st ∈ p.axis₁.stats, ∀ zs, zs ≠ [] → (∀ r ∈ zs, r ∈ f.rows) →
      ∃ v, preparedStat .sl1l2 f (lower st) zs = .ok v ∧ PoolScore (lower st) (zs.flatMap pairs) v :=
    fun st hst zs z1 z2 => prepared_score L z1 z2 (hs st hst)
  obtain ⟨plain, derived, e, hpts, -, hrows⟩ := C258_rows_partial hreq _ etb s draws₁ k
    ⟨hGe, List.ne_nil_of_mem R.forecast⟩ (by
      intro st hst zs z1 z2
      obtain ⟨v, hv, -⟩ := hscore st hst zs z1 (fun r hr => hsub r (z2 r hr))
      rw [hv]
      simp) hdraw hpl o₁ ho
  have hpts' : ∀ pt, pt ∈ plain.map BootOut.point ↔
      ∃ as, List.Forall₂ (fun x q => x ∈ q.2) as (init ++ [sv]) ∧ ∃ i ∈ p.indyVals, ∃ st ∈ p.axis₁.stats,
        pt = as ++ [i, st] := by
    intro pt
    rw [hpts, hrv]
    constructor
    · intro h
      obtain ⟨l₁, st, rfl, h1, hst⟩ := forall₂_snoc h
      obtain ⟨as, i, rfl, h2, hi⟩ := forall₂_snoc h1
      exact ⟨as, h2, i, hi, st, hst, by simp⟩
    · rintro ⟨as, ha, i, hi, st, hs, rfl⟩
      have : as ++ [i, st] = as ++ [i] ++ [st] := by simp
      rw [this]
      exact List.rel_append (List.rel_append ha (.cons hi .nil)) (.cons hs .nil)
  refine ⟨plain, derived, e, hpts', ?_⟩
  intro n o ho' as i st hpt rows hr
  obtain ⟨as', ha, i', hi, st', hst, e'⟩ := (hpts' o.point).mp (List.mem_map_of_mem (List.mem_of_getElem? ho'))
  rw [hpt] at e'
  obtain ⟨rfl, e4⟩ := List.append_inj' e' (by simp)
  simp only [List.cons.injEq, and_true] at e4
  obtain ⟨rfl, rfl⟩ := e4
  obtain ⟨as, a, rfl, h2, ha⟩ := forall₂_snoc ha
  have heq := equalized_point R key as a i st h2.length_eq ha hst
  rw [hG] at heq
  have hhead : (p.config p.axis₁).fcstVars.head? = some fv := by simp [AggParams.config, R.fcst]
  have hsr : ∀ r ∈ rows, r ∈ f.rows := by rw [hr]; exact comparedRows_sub
  obtain ⟨-, h1, h2', h3⟩ := hrows n o ho' rows (by
    rw [hr, hrv, hpt, hhead]
    unfold comparedRows
    rw [← heq]
    have hz : ((init ++ [sv] ++ [(p.indyVar, p.indyVals)] ++ [("stat_name", p.axis₁.stats)]).map Prod.fst).zip
        (as ++ [a] ++ [i, st]) = pointRequest (init ++ [sv]) p.indyVar (as ++ [a]) i st := by
      unfold pointRequest
      rw [List.append_assoc, List.map_append, List.zip_append (by simp [h2.length_eq])]
      rfl
    rw [hz]
    rfl)
  refine ⟨h1, h2', fun hrne => ?_⟩
  obtain ⟨st', hl, a', hp, -, w, dist, x, hw, hov, hx, hf, hc⟩ := h3 hrne
  rw [hpt] at hl
  simp only [List.getLast?_append, List.getLast?_cons_cons, List.getLast?_singleton, Option.some.injEq,
    Option.or_some, Option.some_or] at hl
  subst hl
  have hane : a' ≠ [] := by rintro rfl; exact hrne (List.nil_perm.mp hp)
  have num : ∀ zs, zs ≠ [] → (∀ r ∈ zs, r ∈ rows) → ∀ w, preparedStat .sl1l2 f (lower st) zs = .ok w →
      ∃ v : ℚ, w = .num v ∧ PoolScore (lower st) (zs.flatMap pairs) (.num v) := by
    intro zs z1 z2 w hw
    obtain ⟨v, hv, hsc⟩ := hscore st hst zs z1 (fun r hr => hsr r (z2 r hr))
    rw [hv] at hw
    simp only [Except.ok.injEq] at hw
    subst hw
    obtain ⟨v', rfl⟩ : ∃ v', v = .num v' := by
      have hm := hs st hst
      simp only [List.mem_cons, List.not_mem_nil, or_false] at hm
      rcases hm with h | h | h | h | h | h | h | h
      · exact ⟨_, hsc.fbar h⟩
      · exact ⟨_, hsc.obar h⟩
      · exact ⟨_, hsc.fobar h⟩
      · exact ⟨_, hsc.ffbar h⟩
      · exact ⟨_, hsc.oobar h⟩
      · exact ⟨_, hsc.me h⟩
      · exact ⟨_, hsc.mse h⟩
      · obtain ⟨y, hy, -⟩ := hsc.bcmse h
        exact ⟨_, hy⟩
    exact ⟨v', rfl, hsc⟩
  obtain ⟨v, rfl, hsc⟩ := num a' hane (fun r hr => hp.mem_iff.mp hr) w hw
  have hx' := hx hm
  subst hx'
  have hm' : IndexMatrix a'.length k (draws₁ n rows.length) := by rw [hp.length_eq]; exact hdraw _ _
  refine ⟨v, hov, poolScore_perm (hp.flatMap_right pairs) hsc,
    (draws₁ n rows.length).map (fun row => pick a' (positionsUsed (if s.cbb then Nat.sqrt rows.length else 1) row)), ?_⟩
  have hsim : ∀ row ∈ draws₁ n rows.length,
      (pick a' (positionsUsed (if s.cbb then Nat.sqrt rows.length else 1) row)).length = rows.length ∧
      ∀ r ∈ pick a' (positionsUsed (if s.cbb then Nat.sqrt rows.length else 1) row), r ∈ rows := by
    intro row hrow
    exact ⟨by rw [pick_length (hm'.2 row hrow).1 (hm'.2 row hrow).2, hp.length_eq],
      fun r hr => hp.mem_iff.mp (pick_mem hr)⟩
  obtain ⟨xs, hxs, hf'⟩ : ∃ xs : List ℚ, dist = xs.map PyNum.num ∧
      List.Forall₂ (fun row x => PoolScore (lower st)
        ((pick a' (positionsUsed (if s.cbb then Nat.sqrt rows.length else 1) row)).flatMap pairs) (.num x))
        (draws₁ n rows.length) xs := by
    clear hc
    have hne' : ∀ row ∈ draws₁ n rows.length,
        pick a' (positionsUsed (if s.cbb then Nat.sqrt rows.length else 1) row) ≠ [] :=
      fun row hrow => pick_ne hane _ (hm'.2 row hrow).1 (hm'.2 row hrow).2
    clear hm'
    generalize draws₁ n rows.length = ids at hf hsim hne'
    induction hf with
    | nil => exact ⟨[], rfl, .nil⟩
    | @cons row z _ _ h1 _ ih =>
      obtain ⟨xs, e1, e2⟩ := ih (fun r hr => hsim r (by simp [hr])) (fun r hr => hne' r (by simp [hr]))
      obtain ⟨y, rfl, hy⟩ := num _ (hne' row (by simp)) (hsim row (by simp)).2 z h1
      exact ⟨y :: xs, by simp [e1], .cons hy e2⟩
  refine ⟨xs, by rw [List.length_map]; exact hm'.1, ?_, by rw [List.forall₂_map_left_iff]; exact hf', ?_⟩
  · intro zs hz
    obtain ⟨row, hrow, rfl⟩ := List.mem_map.mp hz
    exact hsim row hrow
  · rw [hxs, List.map_map] at hc
    exact hc

/-! ### Examples -/

/-- The table of two models: the rows of model A are taken in order of their times. -/
example := C258_rows_partial (bootTable_request "DIFF") meanOfX (fun _ _ => .none) ⟨1 / 2, .perc, false⟩ threeDraws 3
  (by decide) (by intro st _ rows _ _; simp [meanOfX]) threeDraws_ok (by decide +kernel) _ bootTable_many

theorem bootTable_shows : ShowsBootstrap meanOfX ⟨1 / 2, .perc, false⟩ bootTable (bootTable.rows.take 2) "me" (threeDraws 0 2)
    ⟨["A", "12", "ME"], some "TMP", .num (5 / 2), some (43 / 40), some (157 / 40), 2⟩ :=
  ⟨[[.str "A", .str "TMP", .str "ME", .str "t1", .num 12 "12", .num 1 "1"],
    [.str "A", .str "TMP", .str "ME", .str "t2", .num 12 "12", .num 4 "4"]], by decide +kernel, by decide +kernel,
    .num (5 / 2), [.num 1, .num (5 / 2), .num 4], some (5 / 2), by decide +kernel, rfl, fun _ => rfl,
    .cons (by decide +kernel) (.cons (by decide +kernel) (.cons (by decide +kernel) .nil)), by decide +kernel⟩

example := C258_between_replicates rfl bootTable_shows 3 (threeDraws_ok 0 2) _ _ rfl rfl

/-- C258 (counterexample): with alpha = 0.5 and with alpha = 0.05 requested, the limits of both models are the same, those for
0.05; only those of their difference change. -/
theorem C258_alpha_counterexample :
    ∃ o o', bootAxis meanOfX (fun _ _ => .none) ⟨1 / 2, .perc, false⟩ threeDraws bootTable (bootPlot "DIFF") = .ok o ∧
      bootAxis meanOfX (fun _ _ => .none) ⟨1 / 20, .perc, false⟩ threeDraws bootTable (bootPlot "DIFF") = .ok o' ∧
      o.take 2 = o'.take 2 ∧ o ≠ o' ∧
      confidenceInterval [some 1, some (5 / 2), some 4] (some (5 / 2)) (1 / 2) .perc =
        .ok ⟨some (7 / 4), some (5 / 2), some (13 / 4)⟩ ∧
      o.head?.bind BootOut.lower = some (43 / 40) := by
  refine ⟨_, [⟨["A", "12", "ME"], some "TMP", .num (5 / 2), some (43 / 40), some (157 / 40), 2⟩,
     ⟨["B", "12", "ME"], some "TMP", .num (31 / 6), some (23 / 40), some (1171 / 120), 2⟩,
     ⟨["DIFF(A TMP ME-B TMP ME)", "12", "ME"], some "TMP", .num (-8 / 3), some (-35 / 6), some (1 / 2), 0⟩],
    bootTable_many, by decide +kernel, rfl, by decide +kernel, by decide +kernel, rfl⟩

theorem exSl_boot : bootRun (preparedStat .sl1l2 exSlFrame) (fun _ _ => .none) ⟨1 / 2, .perc, false⟩ threeDraws threeDraws
    exSlFrame exSlParams = .ok
    [⟨["A", "6", "ME"], some "TMP", .num 1, none, none, 2⟩, ⟨["A", "6", "OBAR"], some "TMP", .num 2, none, none, 2⟩,
     ⟨["B", "6", "ME"], some "TMP", .num 2, some (1 / 10), some (29 / 5), 2⟩,
     ⟨["B", "6", "OBAR"], some "TMP", .num 2, none, none, 2⟩] := by decide +kernel

example := C258_sl1l2 (fun _ _ => .none) ⟨1 / 2, .perc, false⟩ threeDraws threeDraws 3 threeDraws_ok (by decide) _ exSl_input
  exRunKey exSl_key exLinePairs exSl_lines (by decide +kernel) exSl_boot (by simp)

end Metcalcpy.Props
