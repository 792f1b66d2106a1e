/-
C263 With event equalization, the spread/skill statistics of an aggregation table computed from SSVAR lines are those of
     all points of all bins behind the common cases, pooled.
C117 In such a table the anomaly correlation is the plain correlation, and the total cannot be requested.
-/
import Verif.Model.AggSpread
import Verif.Props.C248_RootScores
import Verif.Props.C116_Ssvar

namespace Metcalcpy.Props
open Metcalcpy Spec

/-! ### Specification -/

/-- Every row of `f` is the SSVAR line of a non-empty bin of points `points r`, each a pair (forecast, observed) with its
ensemble variance. -/
structure SsvarLines (f : Frame) (points : List Val → List (Pair × ℚ)) : Prop where
  bin : ∀ r ∈ f.rows, points r ≠ []
  count : ∀ r ∈ f.rows, HasNumber f r "bin_n" (points r).length
  fbar : ∀ r ∈ f.rows, HasNumber f r "fbar" (avg (fun p => p.1.1) (points r))
  obar : ∀ r ∈ f.rows, HasNumber f r "obar" (avg (fun p => p.1.2) (points r))
  fobar : ∀ r ∈ f.rows, HasNumber f r "fobar" (avg (fun p => p.1.1 * p.1.2) (points r))
  ffbar : ∀ r ∈ f.rows, HasNumber f r "ffbar" (avg (fun p => p.1.1 * p.1.1) (points r))
  oobar : ∀ r ∈ f.rows, HasNumber f r "oobar" (avg (fun p => p.1.2 * p.1.2) (points r))
  var_mean : ∀ r ∈ f.rows, HasNumber f r "var_mean" (avg Prod.snd (points r))
  variance : ∀ r ∈ f.rows, ∀ p ∈ points r, 0 ≤ p.2

/-- `v` is the spread/skill statistic called `s` of the pool of points. -/
structure SpreadScore (s : String) (pool : List (Pair × ℚ)) (v : PyNum) : Prop where
  fbar : s = "ssvar_fbar" → v = .num (roundHalfUp (avg (fun p => p.1.1) pool) 7)
  obar : s = "ssvar_obar" → v = .num (roundHalfUp (avg (fun p => p.1.2) pool) 7)
  me : s = "ssvar_me" → v = .num (roundHalfUp (meanError (pool.map Prod.fst)) 7)
  me2 : s = "ssvar_me2" → v = .num (roundHalfUp (roundHalfUp (meanError (pool.map Prod.fst)) 7 ^ 2) 7)
  mse : s = "ssvar_mse" → v = .num (roundHalfUp (meanSquaredError (pool.map Prod.fst)) 7)
  rmse : s = "ssvar_rmse" → RootOf (meanSquaredError (pool.map Prod.fst)) v
  bcmse : s = "ssvar_bcmse" → ∃ x, v = .num x ∧ |x - biasCorrectedMse (pool.map Prod.fst)| ≤
    (1 + |meanError (pool.map Prod.fst)|) / 10 ^ 7 + 1 / 10 ^ 14
  fstdev : s = "ssvar_fstdev" → (pool.length = 1 → v = .none) ∧
    (pool.length ≠ 1 → RoundsTo (Real.sqrt (sampleVariance Prod.fst (pool.map Prod.fst) : ℝ)) v)
  ostdev : s = "ssvar_ostdev" → (pool.length = 1 → v = .none) ∧
    (pool.length ≠ 1 → RoundsTo (Real.sqrt (sampleVariance Prod.snd (pool.map Prod.fst) : ℝ)) v)
  pr_corr : s = "ssvar_pr_corr" →
    (0 < Spec.variance Prod.fst (pool.map Prod.fst) ∧ 0 < Spec.variance Prod.snd (pool.map Prod.fst) →
      RoundsTo (pearson (pool.map Prod.fst)) v) ∧
    (¬ (0 < Spec.variance Prod.fst (pool.map Prod.fst) ∧ 0 < Spec.variance Prod.snd (pool.map Prod.fst)) → v = .none)
  msess : s = "ssvar_msess" → ∀ so, so = roundHalfUp (Real.sqrt (sampleVariance Prod.snd (pool.map Prod.fst) : ℝ)) 7 →
    (pool.length = 1 ∨ so = 0 → v = .none) ∧
    (¬ (pool.length = 1 ∨ so = 0) →
      RoundsTo (1 - ((roundHalfUp (meanSquaredError (pool.map Prod.fst)) 7 : ℚ) : ℝ) / so ^ 2) v)
  spread : s = "ssvar_spread" → RoundsTo (Real.sqrt ((avg Prod.snd pool : ℚ) : ℝ)) v

/-! ### From the lines to the value of a point -/

theorem ssvar_table {f : Frame} {points : List Val → List (Pair × ℚ)} (L : SsvarLines f points) {rows : List (List Val)}
    (hne : rows ≠ []) (hsub : ∀ r ∈ rows, r ∈ f.rows) :
    SsvarData (numericTable f.cols rows) (rows.map points) := by
  have key : ∀ c (g : List (Pair × ℚ) → ℚ), (∀ r ∈ f.rows, HasNumber f r c (g (points r))) →
      CompleteColumn (numericTable f.cols rows) c ((rows.map points).map g) := by
    intro c g h
    rw [List.map_map]
    exact completeColumn_numeric hne (fun r hr => h r (hsub r hr))
  exact ⟨by simpa [numericTable] using hne, by
    intro b hb
    obtain ⟨r, hr, rfl⟩ := List.mem_map.mp hb
    exact L.bin r (hsub r hr), key _ _ L.count, key _ _ L.fbar, key _ _ L.obar, key _ _ L.fobar, key _ _ L.ffbar,
    key _ _ L.oobar, key _ _ L.var_mean⟩

theorem ssvarAggregated_inv {α : Type} {s : String} {calculate : Table → Bool → α} {t : Table} {x : α}
    (ha : ssvarAggregated s calculate t = .ok x) : ∃ t', prepareSsvar t s = .ok t' ∧ calculate t' true = x := by
  unfold ssvarAggregated at ha
  simp only [bind, Except.bind, pure, Except.pure] at ha
  cases hp : prepareSsvar t s with
  | error e => rw [hp] at ha; cases ha
  | ok t' =>
    rw [hp] at ha
    exact ⟨t', rfl, Except.ok.inj ha⟩

theorem spreadPrepared_ok {f : Frame} {s : String} {data : List (List Val)} {t : Table}
    {calculate : Table → Except PyErr (Option ℝ)} {x : Option ℝ}
    (hl : spreadFunctions.lookup s = some calculate) (hp : prepareSsvar (numericTable f.cols data) s = .ok t)
    (hx : calculate t = .ok x) : spreadPrepared f s data = .ok (realNum x) := by
  unfold spreadPrepared
  simp only [bind, Except.bind, hp, hl, hx, Except.map]

/-- The statistic of the rows of a point is that of the same rows in some order. -/
theorem spreadStat_inv {f : Frame} {s : String} {rows : List (List Val)} {v : PyNum}
    (h : spreadStat f s rows = .ok v) : ∃ data, data.Perm rows ∧ spreadPrepared f s data = .ok v := by
  unfold spreadStat at h
  cases hs : sortData f rows with
  | error e => rw [hs] at h; cases h
  | ok data =>
    rw [hs] at h
    exact ⟨data, (sortData_spec hs).1, h⟩

theorem spreadStat_sorted {f : Frame} {s : String} {rows data : List (List Val)}
    (hs : sortData f rows = .ok data) : spreadStat f s rows = spreadPrepared f s data := by
  unfold spreadStat
  rw [hs]
  rfl

theorem spread_real {f : Frame} {s : String} {data : List (List Val)} {calculate : Table → Bool → Option ℝ}
    {x : Option ℝ}
    (hl : spreadFunctions.lookup s = some (fun t => .ok (calculate t true)))
    (ha : ssvarAggregated s calculate (numericTable f.cols data) = .ok x) : spreadPrepared f s data = .ok (realNum x) := by
  obtain ⟨t', h1, h2⟩ := ssvarAggregated_inv ha
  exact spreadPrepared_ok hl h1 (by rw [h2])

theorem spread_except {f : Frame} {s : String} {data : List (List Val)}
    {calculate : Table → Bool → Except PyErr (Option ℝ)} {x : Option ℝ}
    (hl : spreadFunctions.lookup s = some (fun t => calculate t true))
    (ha : ssvarAggregated s calculate (numericTable f.cols data) = .ok (.ok x)) :
    spreadPrepared f s data = .ok (realNum x) := by
  obtain ⟨t', h1, h2⟩ := ssvarAggregated_inv ha
  exact spreadPrepared_ok hl h1 h2

theorem spread_rat {f : Frame} {s : String} {data : List (List Val)} {calculate : Table → Bool → Option ℚ}
    {q : ℚ}
    (hl : spreadFunctions.lookup s = some (fun t => asReal (calculate t true)))
    (ha : ssvarAggregated s calculate (numericTable f.cols data) = .ok (some (roundHalfUp q 7))) :
    spreadPrepared f s data = .ok (.num (roundHalfUp q 7)) := by
  obtain ⟨t', h1, h2⟩ := ssvarAggregated_inv ha
  rw [spreadPrepared_ok hl h1 (x := some ((roundHalfUp q PRECISION : ℚ) : ℝ)) (by rw [h2]; rfl), realNum_rat]

/-- The BCMSE is a rounded number. -/
theorem bcmse_rounded {t : Table} {b : Bool} {x : ℚ} (h : slBcmse t b = some x) : ∃ q, x = roundHalfUp q 7 := by
  unfold slBcmse at h
  cases h1 : slMse t b with
  | none => rw [h1] at h; cases h
  | some m =>
    cases h2 : slMe t b with
    | none => rw [h1, h2] at h; cases h
    | some e =>
      rw [h1, h2] at h
      exact ⟨_, (Option.some.inj h).symm⟩

/-- The value of a set of SSVAR lines. -/
theorem spread_value {f : Frame} {points : List Val → List (Pair × ℚ)} (L : SsvarLines f points)
    {rows data : List (List Val)} (hs : data.Perm rows) (hne : rows ≠ []) (hsub : ∀ r ∈ rows, r ∈ f.rows)
    {s : String} {v : PyNum} (h : spreadPrepared f s data = .ok v) : SpreadScore s (rows.flatMap points) v := by
  have hperm := hs
  have D := ssvar_table L (perm_ne hs hne) (fun r hr => hsub r (hperm.mem_iff.mp hr))
  have D' := ssvar_sl1l2 D
  have hpool : (data.map points).flatten.Perm (rows.flatMap points) := by
    rw [← List.flatMap_def]
    exact hperm.flatMap_right points
  have hp : ((data.map points).map (List.map Prod.fst)).flatten.Perm ((rows.flatMap points).map Prod.fst) := by
    rw [pooledPairs_eq]
    exact hpool.map Prod.fst
  have hf : avg (fun p : Pair => p.1) ((data.map points).map (List.map Prod.fst)).flatten =
      avg (fun p => p.1.1) (rows.flatMap points) := by
    rw [perm_avg _ hp]
    simp [avg, Function.comp_def]
  have ho : avg (fun p : Pair => p.2) ((data.map points).map (List.map Prod.fst)).flatten =
      avg (fun p => p.1.2) (rows.flatMap points) := by
    rw [perm_avg _ hp]
    simp [avg, Function.comp_def]
  have hme : meanError _ = meanError ((rows.flatMap points).map Prod.fst) := perm_avg _ hp
  have hmse : meanSquaredError _ = meanSquaredError ((rows.flatMap points).map Prod.fst) := perm_avg _ hp
  have hbc := perm_bcmse hp
  have hvf := perm_variance Prod.fst hp
  have hvo := perm_variance Prod.snd hp
  have hsf := perm_sampleVariance Prod.fst hp
  have hso := perm_sampleVariance Prod.snd hp
  have hpe := perm_pearson hp
  have hlen := hp.length_eq
  rw [List.length_map] at hlen
  have real : ∀ {stat : String} {calculate : Table → Bool → Option ℝ} {x : Option ℝ}, s = stat →
      spreadFunctions.lookup stat = some (fun t => .ok (calculate t true)) →
      ssvarAggregated stat calculate (numericTable f.cols data) = .ok x → v = realNum x := by
    rintro stat calculate x rfl hl ha
    rw [spread_real hl ha] at h
    exact (Except.ok.inj h).symm
  have ex : ∀ {stat : String} {calculate : Table → Bool → Except PyErr (Option ℝ)} {x : Option ℝ}, s = stat →
      spreadFunctions.lookup stat = some (fun t => calculate t true) →
      ssvarAggregated stat calculate (numericTable f.cols data) = .ok (.ok x) → v = realNum x := by
    rintro stat calculate x rfl hl ha
    rw [spread_except hl ha] at h
    exact (Except.ok.inj h).symm
  have rat : ∀ {stat : String} {calculate : Table → Bool → Option ℚ} {q : ℚ}, s = stat →
      spreadFunctions.lookup stat = some (fun t => asReal (calculate t true)) →
      ssvarAggregated stat calculate (numericTable f.cols data) = .ok (some (roundHalfUp q 7)) →
      v = .num (roundHalfUp q 7) := by
    rintro stat calculate q rfl hl ha
    rw [spread_rat hl ha] at h
    exact (Except.ok.inj h).symm
  obtain ⟨e1, e2, e3, e4, e5, e6, e7, e8, e9, e10, -, e12, -⟩ := C116_scalar_statistics _ _ D
  obtain ⟨m1, m2, -⟩ := C15_means _ _ D'
  obtain ⟨m3, m4⟩ := C15_me_mse _ _ D'
  obtain ⟨-, m5⟩ := C95_bias _ _ D'
  obtain ⟨x, m6, m7⟩ := C15_bcmse _ _ D'
  obtain ⟨d1, d2⟩ := C95_stdev _ _ D'
  obtain ⟨c1, c2⟩ := C17_pr_corr _ _ D'
  obtain ⟨k1, -, -⟩ := C95_msess _ _ D'
  have r1 := rmse_value D'
  rw [hf] at m1
  rw [ho] at m2
  rw [hme] at m3 m5
  rw [hmse] at m4 r1
  rw [hme, hbc] at m7
  rw [hlen, hsf] at d1
  rw [hlen, hso] at d2
  rw [hvf, hvo, hpe] at c1
  rw [hvf, hvo] at c2
  rw [hlen, hso, hmse] at k1
  refine ⟨?_, ?_, ?_, ?_, ?_, ?_, ?_, ?_, ?_, ?_, ?_, ?_⟩
  · intro e; exact rat e rfl (e1.trans m1)
  · intro e; exact rat e rfl (e2.trans m2)
  · intro e; exact rat e rfl (e6.trans m3)
  · intro e; exact rat e rfl (e7.trans m5)
  · intro e; exact rat e rfl (e8.trans m4)
  · intro e
    rw [ex e rfl (e9.trans r1)]
    exact rootOf_value (avg_nonneg_sq _ _)
  · intro e
    obtain ⟨t', -, h2⟩ := aggregated_inv m6
    obtain ⟨q, rfl⟩ := bcmse_rounded h2
    exact ⟨_, rat e rfl (e10.trans m6), m7⟩
  · intro e
    have hv := real e rfl (e3.trans d1)
    constructor
    · intro h1; rw [hv, if_pos h1]; rfl
    · intro h1; rw [hv, if_neg h1]; exact realNum_rounds _
  · intro e
    have hv := real e rfl (e4.trans d2)
    constructor
    · intro h1; rw [hv, if_pos h1]; rfl
    · intro h1; rw [hv, if_neg h1]; exact realNum_rounds _
  · intro e
    constructor
    · intro h1
      rw [real e rfl (e5.trans (c1 h1).1)]; exact realNum_rounds _
    · intro h1
      rw [real e rfl (e5.trans (c2 h1))]; rfl
  · rintro e so rfl
    have hv := real e rfl (e12.trans k1)
    constructor
    · intro h1; rw [hv, if_pos h1]; rfl
    · intro h1; rw [hv, if_neg h1]; exact realNum_rounds _
  · intro e
    have hsp := C116_spread _ _ D (by
      intro b hb
      obtain ⟨r, hr, rfl⟩ := List.mem_map.mp hb
      exact L.variance r (hsub r (hperm.mem_iff.mp hr)))
    rw [perm_avg Prod.snd hpool] at hsp
    rw [real e rfl hsp]
    exact realNum_rounds _

theorem spread_exists {f : Frame} {points : List Val → List (Pair × ℚ)} (L : SsvarLines f points)
    {data : List (List Val)} (hne : data ≠ []) (hsub : ∀ r ∈ data, r ∈ f.rows) {st : String}
    (hst : st ∈ ["ssvar_fbar", "ssvar_obar", "ssvar_me", "ssvar_me2", "ssvar_mse", "ssvar_rmse", "ssvar_bcmse", "ssvar_fstdev",
      "ssvar_ostdev", "ssvar_pr_corr", "ssvar_msess", "ssvar_spread"]) :
    ∃ v, spreadPrepared f st data = .ok v := by
  have D := ssvar_table L hne hsub
  have D' := ssvar_sl1l2 D
  obtain ⟨e1, e2, e3, e4, e5, e6, e7, e8, e9, e10, -, e12, -⟩ := C116_scalar_statistics _ _ D
  simp only [List.mem_cons, List.not_mem_nil, or_false] at hst
  rcases hst with rfl | rfl | rfl | rfl | rfl | rfl | rfl | rfl | rfl | rfl | rfl | rfl
  · exact ⟨_, spread_rat rfl (e1.trans (C15_means _ _ D').1)⟩
  · exact ⟨_, spread_rat rfl (e2.trans (C15_means _ _ D').2.1)⟩
  · exact ⟨_, spread_rat rfl (e6.trans (C15_me_mse _ _ D').1)⟩
  · exact ⟨_, spread_rat rfl (e7.trans (C95_bias _ _ D').2)⟩
  · exact ⟨_, spread_rat rfl (e8.trans (C15_me_mse _ _ D').2)⟩
  · exact ⟨_, spread_except rfl (e9.trans (rmse_value D'))⟩
  · obtain ⟨x, hx, -⟩ := C15_bcmse _ _ D'
    obtain ⟨t', -, h2⟩ := aggregated_inv hx
    obtain ⟨q, rfl⟩ := bcmse_rounded h2
    exact ⟨_, spread_rat rfl (e10.trans hx)⟩
  · exact ⟨_, spread_real rfl (e3.trans (C95_stdev _ _ D').1)⟩
  · exact ⟨_, spread_real rfl (e4.trans (C95_stdev _ _ D').2)⟩
  · by_cases h1 : 0 < Spec.variance Prod.fst ((data.map points).map (List.map Prod.fst)).flatten ∧
        0 < Spec.variance Prod.snd ((data.map points).map (List.map Prod.fst)).flatten
    · exact ⟨_, spread_real rfl (e5.trans ((C17_pr_corr _ _ D').1 h1).1)⟩
    · exact ⟨_, spread_real rfl (e5.trans ((C17_pr_corr _ _ D').2 h1))⟩
  · exact ⟨_, spread_real rfl (e12.trans (C95_msess _ _ D').1)⟩
  · exact ⟨_, spread_real rfl (C116_spread _ _ D (by
      intro b hb
      obtain ⟨r, hr, rfl⟩ := List.mem_map.mp hb
      exact L.variance r (hsub r hr)))⟩

/-! ### The runs -/

section
variable {f : Frame} {p : AggParams} {init : List (String × List String)} {sv : String × List String}
  {parts : String → List String}
  {fix : List (String × List String)} {fv : String} {sts : List String} {rest : List (String × List String)}

/-- C263: in a run on SSVAR lines with event equalization, every statistic in the table is that of the points of all bins of
all common cases of its point, pooled (`SpreadScore`). -/
theorem C263_scores (etb : List PyNum → List PyNum → PyNum) (out : List AggOut)
    (R : OneAxisRun f p init sv parts fix fv sts rest) (key : List Val → String)
    (hkey : ∀ r ∈ f.rows, IsCaseKey f p.indyVar true r (key r)) (points : List Val → List (Pair × ℚ))
    (L : SsvarLines f points) (h : aggRun (spreadStat f) etb f p = .ok out) (hne : out ≠ []) :
    ∃ plain derived, out = plain ++ derived ∧
      (∀ pt, pt ∈ plain.map AggOut.point ↔
        ∃ as, List.Forall₂ (fun x q => x ∈ q.2) as (init ++ [sv]) ∧ ∃ i ∈ p.indyVals, ∃ st ∈ p.axis₁.stats,
          pt = as ++ [i, st]) ∧
      ∀ o ∈ plain, ∀ as i st, o.point = as ++ [i, st] →
        ∀ rows, rows = comparedRows f (init ++ [sv]) parts fix fv p.indyVar key as i st →
          (rows = [] → o.value = .none) ∧ (rows ≠ [] → SpreadScore (lower st) (rows.flatMap points) o.value) :=
  run_scores _ (fun s rows v => SpreadScore s (rows.flatMap points) v) etb out R key hkey (fun s rows v hr hsub hv => by
    obtain ⟨data, hs, hv⟩ := spreadStat_inv hv
    exact spread_value L hs hr hsub hv) h hne

/-- C263: such a run completes when no derived curves are requested. -/
theorem C263_completes (etb : List PyNum → List PyNum → PyNum)
    (R : OneAxisRun f p init sv parts fix fv sts rest) (points : List Val → List (Pair × ℚ)) (L : SsvarLines f points)
    (hd : p.axis₁.derived = [])
    (hs : ∀ s ∈ p.axis₁.stats, lower s ∈ ["ssvar_fbar", "ssvar_obar", "ssvar_me", "ssvar_me2", "ssvar_mse", "ssvar_rmse",
      "ssvar_bcmse", "ssvar_fstdev", "ssvar_ostdev", "ssvar_pr_corr", "ssvar_msess", "ssvar_spread"]) :
    ∃ out, aggRun (spreadStat f) etb f p = .ok out := by
  refine run_completes _ etb R hd (fun s hsm rows hr hsub => ?_)
  obtain ⟨data, hsd⟩ := sortData_exists R.input rows
  rw [spreadStat_sorted hsd]
  exact spread_exists L (sorted_ne hsd hr) (fun r hr => hsub r ((sortData_spec hsd).1.mem_iff.mp hr)) (hs s hsm)

/-- C117: the anomaly correlation in the table is the correlation of the pairs themselves: no climatology enters. -/
theorem C117_run_anom_corr (etb : List PyNum → List PyNum → PyNum) (out : List AggOut)
    (R : OneAxisRun f p init sv parts fix fv sts rest) (key : List Val → String)
    (hkey : ∀ r ∈ f.rows, IsCaseKey f p.indyVar true r (key r)) (points : List Val → List (Pair × ℚ))
    (L : SsvarLines f points) (hc : ∀ c ∈ f.cols, c ∉ anomNames)
    (h : aggRun (spreadStat f) etb f p = .ok out) (hne : out ≠ []) :
    ∃ plain derived, out = plain ++ derived ∧
      (∀ pt, pt ∈ plain.map AggOut.point ↔
        ∃ as, List.Forall₂ (fun x q => x ∈ q.2) as (init ++ [sv]) ∧ ∃ i ∈ p.indyVals, ∃ st ∈ p.axis₁.stats,
          pt = as ++ [i, st]) ∧
      ∀ o ∈ plain, ∀ as i st, o.point = as ++ [i, st] → lower st = "ssvar_anom_corr" →
        ∀ rows, rows = comparedRows f (init ++ [sv]) parts fix fv p.indyVar key as i st → rows ≠ [] →
          SpreadScore "ssvar_pr_corr" (rows.flatMap points) o.value := by
  obtain ⟨plain, derived, e, hpts, hval⟩ := run_scores _
    (fun s rows v => s = "ssvar_anom_corr" → SpreadScore "ssvar_pr_corr" (rows.flatMap points) v) etb out R key hkey
    (fun s rows v hr hsub hv es => by
      subst es
      obtain ⟨data, hs, hv⟩ := spreadStat_inv hv
      have hperm := hs
      have D := ssvar_table L (perm_ne hs hr) (fun r hr => hsub r (hperm.mem_iff.mp hr))
      have D' := ssvar_sl1l2 D
      have ha := C117_anom_corr_is_pr_corr _ _ D hc
      have hpr : ∃ x, ssvarAggregated "ssvar_pr_corr" ssvarPrCorr (numericTable f.cols data) = .ok x := by
        have e5 := (C116_scalar_statistics _ _ D).2.2.2.2.1
        by_cases h1 : 0 < Spec.variance Prod.fst ((data.map points).map (List.map Prod.fst)).flatten ∧
            0 < Spec.variance Prod.snd ((data.map points).map (List.map Prod.fst)).flatten
        · exact ⟨_, e5.trans ((C17_pr_corr _ _ D').1 h1).1⟩
        · exact ⟨_, e5.trans ((C17_pr_corr _ _ D').2 h1)⟩
      obtain ⟨x, hx⟩ := hpr
      rw [spread_real rfl (ha.trans hx)] at hv
      cases Except.ok.inj hv
      exact spread_value L hs hr hsub (spread_real rfl hx)) h hne
  exact ⟨plain, derived, e, hpts, fun o ho as i st hp es rows hrows hr => (hval o ho as i st hp rows hrows).2 hr es⟩

/-- A run with a point that has common cases has an output table. -/
theorem run_has_rows (stat : String → List (List Val) → Except PyErr PyNum) (etb : List PyNum → List PyNum → PyNum)
    (out : List AggOut) (R : OneAxisRun f p init sv parts fix fv sts rest) (key : List Val → String)
    (hkey : ∀ r ∈ f.rows, IsCaseKey f p.indyVar true r (key r)) (as : List String) (i st : String)
    (has : List.Forall₂ (fun x q => x ∈ q.2) as (init ++ [sv])) (hst : st ∈ p.axis₁.stats)
    (hr : comparedRows f (init ++ [sv]) parts fix fv p.indyVar key as i st ≠ []) (h : aggRun stat etb f p = .ok out) :
    ∃ plain derived, out = plain ++ derived ∧
      (∀ pt, pt ∈ plain.map AggOut.point ↔
        ∃ as, List.Forall₂ (fun x q => x ∈ q.2) as (init ++ [sv]) ∧ ∃ i ∈ p.indyVals, ∃ st ∈ p.axis₁.stats,
          pt = as ++ [i, st]) ∧
      ∀ o ∈ plain, ∀ as i st, o.point = as ++ [i, st] →
        ∀ rows, rows = comparedRows f (init ++ [sv]) parts fix fv p.indyVar key as i st → rows ≠ [] →
          stat (lower st) rows = .ok o.value := by
  rcases C201_values_partial stat etb out R key hkey h with ⟨-, h0⟩ | ⟨plain, derived, e, hpts, hval⟩
  · exfalso
    obtain ⟨r, hr⟩ := List.exists_mem_of_ne_nil _ hr
    unfold comparedRows at hr
    simp only [List.mem_filter, decide_eq_true_eq] at hr
    obtain ⟨hrf, hrow, hcom⟩ := hr
    obtain ⟨as, a, rfl, h2, ha⟩ := forall₂_snoc has
    obtain ⟨hs1, hs2, hs3, hs4⟩ := R.stats st hst
    have hgr := R.groups sv (by simp) a ha
    refine h0 st hs1 r hrf ?_ (hrow.2 fv rfl R.forecast) ?_ hcom
    · obtain ⟨v, hv, hc⟩ := hrow.1 (sv.1, a) (by
        unfold pointRequest
        rw [List.map_append, List.zip_append (by simp [h2.length_eq])]
        simp) (R.columns sv (by simp)).1
      obtain ⟨w, hw, rfl⟩ := (cellAmong_text (standsFor_group hgr.1 hgr.2) (R.texts a ha)).mp hc
      exact ⟨w, List.mem_flatMap.mpr ⟨a, ha, hw⟩, hv⟩
    · obtain ⟨v, hv, hc⟩ := hrow.1 ("stat_name", st) (by simp [pointRequest]) R.statistic
      obtain ⟨w, hw, rfl⟩ := (cellAmong_text (plain_standsFor hs2 hs3) (by simpa using hs4)).mp hc
      simp only [List.mem_singleton] at hw
      subst hw
      exact hv
  · refine ⟨plain, derived, e, hpts, ?_⟩
    rintro o ho as i st hpt rows rfl hne
    exact (hval o ho as i st hpt _ rfl).2.2 hne

/-- C117: a run in which the total is requested for a point with a common case does not complete. -/
theorem C117_run_total (etb : List PyNum → List PyNum → PyNum) (R : OneAxisRun f p init sv parts fix fv sts rest)
    (key : List Val → String) (hkey : ∀ r ∈ f.rows, IsCaseKey f p.indyVar true r (key r)) (as : List String)
    (i st : String) (has : List.Forall₂ (fun x q => x ∈ q.2) as (init ++ [sv])) (hi : i ∈ p.indyVals)
    (hst : st ∈ p.axis₁.stats) (hl : lower st = "ssvar_total")
    (hr : comparedRows f (init ++ [sv]) parts fix fv p.indyVar key as i st ≠ []) :
    ∀ out, aggRun (spreadStat f) etb f p ≠ .ok out := by
  intro out h
  obtain ⟨plain, derived, -, hpts, hval⟩ := run_has_rows _ etb out R key hkey as i st has hst hr h
  obtain ⟨o, ho, hpo⟩ := List.mem_map.mp ((hpts _).mpr ⟨as, has, i, hi, st, hst, rfl⟩)
  have hv := hval o ho as i st hpo _ rfl hr
  rw [hl] at hv
  obtain ⟨data, hs⟩ := sortData_exists R.input (comparedRows f (init ++ [sv]) parts fix fv p.indyVar key as i st)
  rw [spreadStat_sorted hs] at hv
  cases hv

end

/-! ### Examples -/

/-- The points behind the lines of the examples. -/
def exSpreadPoints (r : List Val) : List (Pair × ℚ) :=
  if cellAt r 0 = .str "t2" then [((9, 1), 3)]
  else if cellAt r 0 = .str "t1" then
    if cellAt r 2 = .str "A" then [((2, 1), 1), ((4, 3), 4)] else [((1, 1), 0), ((3, 3), 2)]
  else if cellAt r 2 = .str "A" then [((3, 2), 1)] else [((8, 2), 6)]

/-- SSVAR lines; `total` is the number of points of all bins of a case. -/
def exSpread (stat : String) : Frame :=
  exLines ["total", "bin_n", "var_mean", "fbar", "obar", "fobar", "ffbar", "oobar"] stat
    [("t1", "A", [7, 2, 5/2, 3, 2, 7, 10, 5]), ("t2", "A", [7, 1, 3, 9, 1, 9, 81, 1]), ("t1", "B", [7, 2, 1, 2, 2, 5, 5, 5]),
     ("t3", "A", [7, 1, 1, 3, 2, 6, 9, 4]), ("t3", "B", [7, 1, 6, 8, 2, 16, 64, 4])]

def exSpreadNames : List String := ["fcst_valid_beg", "fcst_lead", "model", "fcst_var", "stat_name", "total", "bin_n",
  "var_mean", "fbar", "obar", "fobar", "ffbar", "oobar"]

theorem exSpread_lines (stat : String) (hstat : stat ∈ ["SSVAR_RMSE", "SSVAR_TOTAL", "SSVAR_ANOM_CORR"]) :
    SsvarLines (exSpread stat) exSpreadPoints := by
  have key : ∀ stat ∈ ["SSVAR_RMSE", "SSVAR_TOTAL", "SSVAR_ANOM_CORR"], ∀ r ∈ (exSpread stat).rows,
      exSpreadPoints r ≠ [] ∧
      numberOf (cellAt r 6) = some ((exSpreadPoints r).length : ℚ) ∧
      numberOf (cellAt r 7) = some (avg Prod.snd (exSpreadPoints r)) ∧
      numberOf (cellAt r 8) = some (avg (fun p => p.1.1) (exSpreadPoints r)) ∧
      numberOf (cellAt r 9) = some (avg (fun p => p.1.2) (exSpreadPoints r)) ∧
      numberOf (cellAt r 10) = some (avg (fun p => p.1.1 * p.1.2) (exSpreadPoints r)) ∧
      numberOf (cellAt r 11) = some (avg (fun p => p.1.1 * p.1.1) (exSpreadPoints r)) ∧
      numberOf (cellAt r 12) = some (avg (fun p => p.1.2 * p.1.2) (exSpreadPoints r)) ∧
      ∀ p ∈ exSpreadPoints r, 0 ≤ p.2 := by decide +kernel
  have k := key stat hstat
  exact {
    bin := fun r hr => (k r hr).1
    count := exLines_number 6 rfl
      (show ∀ j < 6, exSpreadNames[j]? ≠ some "bin_n" by decide) (fun r hr => (k r hr).2.1)
    var_mean := exLines_number 7 rfl
      (show ∀ j < 7, exSpreadNames[j]? ≠ some "var_mean" by decide) (fun r hr => (k r hr).2.2.1)
    fbar := exLines_number 8 rfl
      (show ∀ j < 8, exSpreadNames[j]? ≠ some "fbar" by decide) (fun r hr => (k r hr).2.2.2.1)
    obar := exLines_number 9 rfl
      (show ∀ j < 9, exSpreadNames[j]? ≠ some "obar" by decide) (fun r hr => (k r hr).2.2.2.2.1)
    fobar := exLines_number 10 rfl
      (show ∀ j < 10, exSpreadNames[j]? ≠ some "fobar" by decide) (fun r hr => (k r hr).2.2.2.2.2.1)
    ffbar := exLines_number 11 rfl
      (show ∀ j < 11, exSpreadNames[j]? ≠ some "ffbar" by decide) (fun r hr => (k r hr).2.2.2.2.2.2.1)
    oobar := exLines_number 12 rfl
      (show ∀ j < 12, exSpreadNames[j]? ≠ some "oobar" by decide) (fun r hr => (k r hr).2.2.2.2.2.2.2.1)
    variance := fun r hr => (k r hr).2.2.2.2.2.2.2.2 }

theorem exSpread_input (stat : String) (hstat : stat ∈ ["SSVAR_RMSE", "SSVAR_TOTAL", "SSVAR_ANOM_CORR"]) :
    OneAxisRun (exSpread stat) (exLinesParams stat) [] ("model", ["A", "B"]) (fun v => [v]) [] "TMP" [stat] [] := by
  simp only [List.mem_cons, List.not_mem_nil, or_false] at hstat
  rcases hstat with rfl | rfl | rfl
  · exact exLines_input (by unfold FrameWF; decide +kernel) (by decide)
      ⟨by decide, by decide, plainText_of (by decide) (by decide) (by decide)⟩ (by decide +kernel)
  · exact exLines_input (by unfold FrameWF; decide +kernel) (by decide)
      ⟨by decide, by decide, plainText_of (by decide) (by decide) (by decide)⟩ (by decide +kernel)
  · exact exLines_input (by unfold FrameWF; decide +kernel) (by decide)
      ⟨by decide, by decide, plainText_of (by decide) (by decide) (by decide)⟩ (by decide +kernel)

example : ∃ out, aggRun (spreadStat (exSpread "SSVAR_RMSE")) (fun _ _ => .none) (exSpread "SSVAR_RMSE")
    (exLinesParams "SSVAR_RMSE") = .ok out ∧ out ≠ [] ∧ ∃ plain derived, out = plain ++ derived := by
  have R := exSpread_input "SSVAR_RMSE" (by decide)
  have L := exSpread_lines "SSVAR_RMSE" (by decide)
  obtain ⟨out, h⟩ := C263_completes (fun _ _ => .none) R exSpreadPoints L rfl (by decide +kernel)
  have hne := run_nonempty _ _ _ R h _ rfl (by unfold FrameWF; decide +kernel) (by decide +kernel) (by decide +kernel)
  obtain ⟨plain, derived, e, -⟩ := C263_scores _ _ R exRunKey (exLines_key _ _ _) _ L h hne
  obtain ⟨-, -, -, -⟩ := C117_run_anom_corr _ _ R exRunKey (exLines_key _ _ _) _ L (by decide) h hne
  exact ⟨out, h, hne, plain, derived, e⟩

/-- The case of the first row of the example is common to both models. -/
theorem exSpread_common : comparedRows (exSpread "SSVAR_TOTAL") ([] ++ [("model", ["A", "B"])]) (fun v => [v]) [] "TMP" "fcst_lead"
    exRunKey ["A"] "6" "SSVAR_TOTAL" ≠ [] := by
  have hrun : (aggRun (fun _ _ => .ok .none) (fun _ _ => .none) (exSpread "SSVAR_TOTAL")
      (exLinesParams "SSVAR_TOTAL")).map (List.map (fun o => (o.point, o.nstats))) =
      .ok [(["A", "6", "SSVAR_TOTAL"], 2), (["B", "6", "SSVAR_TOTAL"], 2)] := by decide +kernel
  cases h : aggRun (fun _ _ => .ok .none) (fun _ _ => .none) (exSpread "SSVAR_TOTAL") (exLinesParams "SSVAR_TOTAL") with
  | error e => rw [h] at hrun; cases hrun
  | ok out =>
    rw [h] at hrun
    simp only [Except.map, Except.ok.injEq] at hrun
    rcases C201_values_partial _ _ out (exSpread_input "SSVAR_TOTAL" (by decide)) exRunKey (exLines_key _ _ _) h with
      ⟨h0, -⟩ | ⟨plain, derived, e, hpts, hval⟩
    · rw [h0] at hrun; cases hrun
    · obtain ⟨o, ho, hpo⟩ := List.mem_map.mp ((hpts ["A", "6", "SSVAR_TOTAL"]).mpr
        ⟨["A"], .cons (by decide) .nil, "6", by decide, "SSVAR_TOTAL", by decide, rfl⟩)
      obtain ⟨hn, -⟩ := hval o ho ["A"] "6" "SSVAR_TOTAL" hpo _ rfl
      intro hc
      have hn0 : o.nstats = 0 := by
        rw [hn]
        exact congrArg List.length hc
      have hm : (o.point, o.nstats) ∈ out.map (fun o => (o.point, o.nstats)) :=
        List.mem_map_of_mem (by rw [e]; exact List.mem_append_left _ ho)
      rw [hrun, hn0, hpo] at hm
      revert hm
      decide

example : ∀ out, aggRun (spreadStat (exSpread "SSVAR_TOTAL")) (fun _ _ => .none) (exSpread "SSVAR_TOTAL")
    (exLinesParams "SSVAR_TOTAL") ≠ .ok out :=
  C117_run_total _ (exSpread_input "SSVAR_TOTAL" (by decide)) exRunKey (exLines_key _ _ _) ["A"] "6" "SSVAR_TOTAL"
    (.cons (by decide) .nil) (by decide) (by decide) (by decide +kernel) exSpread_common

end Metcalcpy.Props
