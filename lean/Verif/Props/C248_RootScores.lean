/-
C248 With event equalization, RMSE, BCRMSE, the standard deviations, MAE, MSESS, the scatter index and the correlation of an
     aggregation table computed from SL1L2 lines are those of all matched pairs behind the common cases, pooled.
C249 The same for the anomaly correlations and root mean square anomalies of SAL1L2 lines.
C250 The same for the wind statistics of VL1L2, VCNT and VAL1L2 lines.
C251 RMSE and spread of ensembles (ECNT lines) are the roots of the weighted mean squares over the common cases.
-/
import Verif.Model.AggRoots
import Verif.Props.C243_AggEnsemble
import Verif.Props.C95_Sl1l2Spread
import Verif.Props.C104_VectorCorrValue

namespace Metcalcpy.Props
open Metcalcpy Spec

/-! ### Specification -/

/-- `v` is the number `x` rounded to seven decimals. -/
def RoundsTo (x : ℝ) (v : PyNum) : Prop := ∃ q : ℚ, v = .num q ∧ (q : ℝ) = roundHalfUp x 7

/-- `v` is the square root of the mean square `m`, both rounded to seven decimals, which is within 0.0003 of the root of `m`
and within 0.0000001 if `m` is at least 1. -/
structure RootOf (m : ℚ) (v : PyNum) : Prop where
  value : RoundsTo (Real.sqrt ((roundHalfUp m 7 : ℚ) : ℝ)) v
  near : ∀ q : ℚ, v = .num q → |(q : ℝ) - Real.sqrt (m : ℝ)| ≤ 3 / 10 ^ 4
  close : 1 ≤ m → ∀ q : ℚ, v = .num q → |(q : ℝ) - Real.sqrt (m : ℝ)| ≤ 1 / 10 ^ 7

/-- `v` is the score called `s` of the pool of matched pairs. -/
structure RootScore (s : String) (pool : List Pair) (v : PyNum) : Prop where
  rmse : s = "rmse" → RootOf (meanSquaredError pool) v
  fstdev : s = "fstdev" → (pool.length = 1 → v = .none) ∧
    (pool.length ≠ 1 → RoundsTo (Real.sqrt (sampleVariance Prod.fst pool : ℝ)) v)
  ostdev : s = "ostdev" → (pool.length = 1 → v = .none) ∧
    (pool.length ≠ 1 → RoundsTo (Real.sqrt (sampleVariance Prod.snd pool : ℝ)) v)
  pr_corr : s = "pr_corr" → (0 < variance Prod.fst pool ∧ 0 < variance Prod.snd pool → RoundsTo (pearson pool) v) ∧
    (¬ (0 < variance Prod.fst pool ∧ 0 < variance Prod.snd pool) → v = .none)
  pr_corr_range : s = "pr_corr" → ∀ q : ℚ, v = .num q → -1 ≤ q ∧ q ≤ 1
  msess : s = "msess" → ∀ so, so = roundHalfUp (Real.sqrt (sampleVariance Prod.snd pool : ℝ)) 7 →
    (pool.length = 1 ∨ so = 0 → v = .none) ∧
    (¬ (pool.length = 1 ∨ so = 0) →
      RoundsTo (1 - ((roundHalfUp (meanSquaredError pool) 7 : ℚ) : ℝ) / so ^ 2) v)
  msess_le : s = "msess" → ∀ q : ℚ, v = .num q → q ≤ 1
  bcrmse : s = "bcrmse" → (1 + |meanError pool|) / 10 ^ 7 ≤ biasCorrectedMse pool → ∃ q : ℚ, v = .num q ∧ 0 ≤ q ∧
    |(q : ℝ) - Real.sqrt (biasCorrectedMse pool : ℝ)| ≤
      Real.sqrt (((1 + |meanError pool|) / 10 ^ 7 + 1 / 10 ^ 14 : ℚ) : ℝ) + 1 / 10 ^ 7
  si : s = "si" → roundHalfUp (avg Prod.snd pool) 7 ≠ 0 → RoundsTo
    (roundHalfUp √((roundHalfUp (meanSquaredError pool) 7 : ℚ) : ℝ) 7 / ((roundHalfUp (avg Prod.snd pool) 7 : ℚ) : ℝ)) v

/-- Every row of `f` is the SAL1L2 line of the non-empty batch `pairs r` of anomalies (forecast, observed). -/
structure Sal1l2Lines (f : Frame) (pairs : List Val → List Pair) : Prop where
  batch : ∀ r ∈ f.rows, pairs r ≠ []
  total : ∀ r ∈ f.rows, HasNumber f r "total" (pairs r).length
  fabar : ∀ r ∈ f.rows, HasNumber f r "fabar" (avg Prod.fst (pairs r))
  oabar : ∀ r ∈ f.rows, HasNumber f r "oabar" (avg Prod.snd (pairs r))
  foabar : ∀ r ∈ f.rows, HasNumber f r "foabar" (avg (fun p => p.1 * p.2) (pairs r))
  ffabar : ∀ r ∈ f.rows, HasNumber f r "ffabar" (avg (fun p => p.1 * p.1) (pairs r))
  ooabar : ∀ r ∈ f.rows, HasNumber f r "ooabar" (avg (fun p => p.2 * p.2) (pairs r))

/-- `v` is the score called `s` of the pool of anomalies. -/
structure AnomalyScore (s : String) (pool : List Pair) (v : PyNum) : Prop where
  anom_corr : s = "anom_corr" → (0 < variance Prod.fst pool ∧ 0 < variance Prod.snd pool → RoundsTo (pearson pool) v) ∧
    (¬ (0 < variance Prod.fst pool ∧ 0 < variance Prod.snd pool) → v = .none)
  anom_corr_raw : s = "anom_corr_raw" → ∀ ff oo fo, ff = avg (fun p : Pair => p.1 ^ 2) pool →
    oo = avg (fun p : Pair => p.2 ^ 2) pool → fo = avg (fun p : Pair => p.1 * p.2) pool →
    (ff = 0 ∨ oo = 0 → v = .none) ∧ (¬ (ff = 0 ∨ oo = 0) → RoundsTo ((fo : ℝ) / Real.sqrt ((ff : ℝ) * oo)) v)
  range : s = "anom_corr" ∨ s = "anom_corr_raw" → ∀ q : ℚ, v = .num q → -1 ≤ q ∧ q ≤ 1
  rmsfa : s = "rmsfa" → RoundsTo (Real.sqrt (avg (fun p => p.1 ^ 2) pool : ℚ)) v
  rmsoa : s = "rmsoa" → RoundsTo (Real.sqrt (avg (fun p => p.2 ^ 2) pool : ℚ)) v

/-- Every row of `f` is the line of partial sums `cols` of the non-empty batch `pairs r` of wind vectors. -/
structure WindLines (cols : List String) (f : Frame) (pairs : List Val → List WindPair) : Prop where
  batch : ∀ r ∈ f.rows, pairs r ≠ []
  total : ∀ r ∈ f.rows, HasNumber f r "total" (pairs r).length
  field : ∀ c ∈ cols, ∀ r ∈ f.rows, HasNumber f r c (avg (windSum c) (pairs r))

/-- Variance of the recorded speeds. -/
def speedVariance (g : WindPair → ℚ) (pool : List WindPair) : ℚ := avg (fun p => (g p - avg g pool) ^ 2) pool

/-- `v` is the wind statistic called `s` of the pool of wind vectors. -/
structure WindScore (s : String) (pool : List WindPair) (v : PyNum) : Prop where
  msve : s = "vl1l2_msve" ∨ s = "vcnt_msve" → v = .num (roundHalfUp (vectorMse pool) 7)
  rmsve : s = "vl1l2_rmsve" ∨ s = "vcnt_rmsve" → RootOf (vectorMse pool) v
  bias : s = "vl1l2_bias" → RoundsTo (Real.sqrt (meanSqF pool : ℝ) - Real.sqrt (meanSqO pool : ℝ)) v
  fbar : s = "vcnt_fbar" → v = .num (roundHalfUp (avg WindPair.fs pool) 7)
  obar : s = "vcnt_obar" → v = .num (roundHalfUp (avg WindPair.os pool) 7)
  fs_rms : s = "vcnt_fs_rms" → RoundsTo (Real.sqrt (meanSqF pool : ℝ)) v
  os_rms : s = "vcnt_os_rms" → RoundsTo (Real.sqrt (meanSqO pool : ℝ)) v
  fbar_speed : s = "vcnt_fbar_speed" → RoundsTo (meanSpeedF pool) v
  obar_speed : s = "vcnt_obar_speed" → RoundsTo (meanSpeedO pool) v
  vdiff_speed : s = "vcnt_vdiff_speed" → RoundsTo (Real.sqrt
    ((avg (fun p => p.uf - p.uo) pool : ℝ) ^ 2 + (avg (fun p => p.vf - p.vo) pool : ℝ) ^ 2)) v
  speed_err : s = "vl1l2_speed_err" ∨ s = "vcnt_speed_err" →
    RoundsTo (roundHalfUp (meanSpeedF pool) 7 - roundHalfUp (meanSpeedO pool) 7) v
  speed_abserr : s = "vcnt_speed_abserr" →
    RoundsTo |roundHalfUp (roundHalfUp (meanSpeedF pool) 7 - roundHalfUp (meanSpeedO pool) 7) 7| v
  fvar : s = "vl1l2_fvar" → (∀ p ∈ pool, p.fs ^ 2 = p.uf ^ 2 + p.vf ^ 2) →
    (∀ p ∈ pool, p.os ^ 2 = p.uo ^ 2 + p.vo ^ 2) → v = .num (roundHalfUp (speedVariance WindPair.fs pool) 7)
  ovar : s = "vl1l2_ovar" → (∀ p ∈ pool, p.fs ^ 2 = p.uf ^ 2 + p.vf ^ 2) →
    (∀ p ∈ pool, p.os ^ 2 = p.uo ^ 2 + p.vo ^ 2) → v = .num (roundHalfUp (speedVariance WindPair.os pool) 7)
  fstdev : s = "vcnt_fstdev" → (∀ p ∈ pool, p.fs ^ 2 = p.uf ^ 2 + p.vf ^ 2) →
    (∀ p ∈ pool, p.os ^ 2 = p.uo ^ 2 + p.vo ^ 2) → RootOf (speedVariance WindPair.fs pool) v
  ostdev : s = "vcnt_ostdev" → (∀ p ∈ pool, p.fs ^ 2 = p.uf ^ 2 + p.vf ^ 2) →
    (∀ p ∈ pool, p.os ^ 2 = p.uo ^ 2 + p.vo ^ 2) → RootOf (speedVariance WindPair.os pool) v

/-- `v` is the correlation called `s` of the pool of wind anomalies. -/
structure WindAnomalyScore (s : String) (pool : List WindPair) (v : PyNum) : Prop where
  anom_corr : s = "val1l2_anom_corr" → (vecVarF pool = 0 ∨ vecVarO pool = 0 → v = .none) ∧
    (¬ (vecVarF pool = 0 ∨ vecVarO pool = 0) →
      RoundsTo ((vecCov pool : ℝ) / (Real.sqrt (vecVarF pool : ℝ) * Real.sqrt (vecVarO pool : ℝ))) v)

/-- `v` is the root mean square called `s` of the lines. -/
structure EcntRootScore (n : List Val → ℚ) (x : String → List Val → ℚ) (s : String) (rows : List (List Val))
    (v : PyNum) : Prop where
  root : ∀ c ∈ ["rmse", "rmse_oerr", "spread", "spread_oerr"], s = "ecnt_" ++ c →
    RootOf (caseMean n (fun r => x c r ^ 2) rows) v

/-! ### Rounded roots -/

theorem realNum_rounds (x : ℝ) : RoundsTo x (realNum (some (roundHalfUp x PRECISION))) := by
  refine ⟨_, rfl, ?_⟩
  have h : roundHalfUp x PRECISION * 10 ^ 7 = ((⌊x * (10 : ℝ) ^ (7 : ℤ) + 1 / 2⌋ : ℤ) : ℝ) := by
    unfold roundHalfUp PRECISION
    norm_num
  have h2 : ⌊roundHalfUp x PRECISION * 10 ^ 7 + 1 / 2⌋ = ⌊x * (10 : ℝ) ^ (7 : ℤ) + 1 / 2⌋ := by
    rw [h, Int.floor_eq_iff]
    constructor <;> norm_num
  rw [h2]
  unfold roundHalfUp
  push_cast
  norm_num

theorem realNum_rat (q : ℚ) : realNum (some ((roundHalfUp q PRECISION : ℚ) : ℝ)) = .num (roundHalfUp q 7) := by
  have h : ((roundHalfUp q PRECISION : ℚ) : ℝ) * 10 ^ 7 = ((⌊q * (10 : ℚ) ^ (7 : ℤ) + 1 / 2⌋ : ℤ) : ℝ) := by
    unfold roundHalfUp PRECISION
    push_cast
    norm_num
  have h2 : ⌊((roundHalfUp q PRECISION : ℚ) : ℝ) * 10 ^ 7 + 1 / 2⌋ = ⌊q * (10 : ℚ) ^ (7 : ℤ) + 1 / 2⌋ := by
    rw [h, Int.floor_eq_iff]
    constructor <;> norm_num
  unfold realNum
  simp only [h2]
  unfold roundHalfUp
  norm_num

theorem sqrt_sub_sq (a b : ℝ) (ha : 0 ≤ a) (hb : 0 ≤ b) : (√a - √b) ^ 2 ≤ |a - b| := by
  have e : a - b = (√a - √b) * (√a + √b) := by
    have h1 := Real.mul_self_sqrt ha
    have h2 := Real.mul_self_sqrt hb
    nlinarith
  rw [e, abs_mul, ← sq_abs, sq]
  refine mul_le_mul_of_nonneg_left ?_ (abs_nonneg _)
  have h1 := Real.sqrt_nonneg a
  have h2 := Real.sqrt_nonneg b
  rw [abs_of_nonneg (add_nonneg h1 h2), abs_le]
  constructor <;> linarith

theorem round_real (x : ℝ) : |roundHalfUp x 7 - x| ≤ 1 / 2 / 10 ^ 7 := by
  have := abs_roundHalfUp_sub_le x 7
  norm_num at this ⊢
  exact this

theorem round_rat_real (m : ℚ) : |((roundHalfUp m 7 : ℚ) : ℝ) - m| ≤ 1 / 2 / 10 ^ 7 := by
  have h : |roundHalfUp m 7 - m| ≤ 1 / 2 / 10 ^ 7 := by
    have := abs_roundHalfUp_sub_le m 7
    norm_num at this ⊢
    exact this
  have h2 : ((|roundHalfUp m 7 - m| : ℚ) : ℝ) ≤ ((1 / 2 / 10 ^ 7 : ℚ) : ℝ) := Rat.cast_le.mpr h
  push_cast at h2
  exact h2

theorem rootOf_value {m : ℚ} (hm : 0 ≤ m) :
    RootOf m (realNum (some (roundHalfUp (Real.sqrt ((roundHalfUp m PRECISION : ℚ) : ℝ)) PRECISION))) := by
  have hv := realNum_rounds (Real.sqrt ((roundHalfUp m PRECISION : ℚ) : ℝ))
  have ha : (0 : ℝ) ≤ ((roundHalfUp m PRECISION : ℚ) : ℝ) := by exact_mod_cast round7_nonneg hm
  have hm' : (0 : ℝ) ≤ (m : ℝ) := by exact_mod_cast hm
  have hd := sqrt_sub_sq _ _ ha hm'
  have hr := round_rat_real m
  have hval : ∀ q : ℚ, realNum (some (roundHalfUp (Real.sqrt ((roundHalfUp m PRECISION : ℚ) : ℝ)) PRECISION)) = .num q →
      |(q : ℝ) - Real.sqrt ((roundHalfUp m PRECISION : ℚ) : ℝ)| ≤ 1 / 2 / 10 ^ 7 := by
    intro q hq
    obtain ⟨q', e1, e2⟩ := hv
    rw [e1] at hq
    cases hq
    rw [e2]
    exact round_real _
  generalize realNum (some (roundHalfUp (Real.sqrt ((roundHalfUp m PRECISION : ℚ) : ℝ)) PRECISION)) = v at *
  change |((roundHalfUp m PRECISION : ℚ) : ℝ) - m| ≤ 1 / 2 / 10 ^ 7 at hr
  refine ⟨hv, fun q hq => ?_, fun h1 q hq => ?_⟩
  · have h2 := hval q hq
    have h3 : |√((roundHalfUp m PRECISION : ℚ) : ℝ) - √(m : ℝ)| ≤ 23 / 10 ^ 5 := by
      apply abs_le_of_sq_le_sq
      · refine le_trans hd (le_trans hr ?_)
        norm_num
      · norm_num
    have := abs_sub_le (q : ℝ) √((roundHalfUp m PRECISION : ℚ) : ℝ) √(m : ℝ)
    norm_num at *
    linarith
  · have h2 := hval q hq
    have hs1 : 1 ≤ √(m : ℝ) := by
      rw [Real.one_le_sqrt]
      exact_mod_cast h1
    have h3 : |√((roundHalfUp m PRECISION : ℚ) : ℝ) - √(m : ℝ)| ≤ 1 / 2 / 10 ^ 7 := by
      refine le_trans ?_ hr
      have e : ((roundHalfUp m PRECISION : ℚ) : ℝ) - m =
          (√((roundHalfUp m PRECISION : ℚ) : ℝ) - √(m : ℝ)) * (√((roundHalfUp m PRECISION : ℚ) : ℝ) + √(m : ℝ)) := by
        have h1 := Real.mul_self_sqrt ha
        have h2 := Real.mul_self_sqrt hm'
        nlinarith
      rw [e, abs_mul]
      refine le_mul_of_one_le_right (abs_nonneg _) ?_
      have h4 := Real.sqrt_nonneg ((roundHalfUp m PRECISION : ℚ) : ℝ)
      rw [abs_of_nonneg (by linarith)]
      linarith
    have := abs_sub_le (q : ℝ) √((roundHalfUp m PRECISION : ℚ) : ℝ) √(m : ℝ)
    norm_num at *
    linarith

/-! ### From the lines to the value of a point -/

theorem rootPrepared_ok {l : RootLine} {f : Frame} {s : String} {data : List (List Val)} {t : Table}
    {calculate : Table → Except PyErr (Option ℝ)} {x : Option ℝ}
    (hl : rootFunctions.lookup s = some calculate) (hp : prepareRoot l s (numericTable f.cols data) = .ok t)
    (hx : calculate t = .ok x) : rootPrepared l f s data = .ok (realNum x) := by
  unfold rootPrepared
  simp only [bind, Except.bind, hp, hl, hx, Except.map]

/-- The statistic of the rows of a point is that of the same rows in some order. -/
theorem rootStat_inv {l : RootLine} {f : Frame} {s : String} {rows : List (List Val)} {v : PyNum}
    (h : rootStat l f s rows = .ok v) : ∃ data, data.Perm rows ∧ rootPrepared l f s data = .ok v := by
  unfold rootStat at h
  cases hs : sortData f rows with
  | error e => rw [hs] at h; cases h
  | ok data =>
    rw [hs] at h
    exact ⟨data, (sortData_spec hs).1, h⟩

theorem rootStat_sorted {l : RootLine} {f : Frame} {s : String} {rows data : List (List Val)}
    (hs : sortData f rows = .ok data) : rootStat l f s rows = rootPrepared l f s data := by
  unfold rootStat
  rw [hs]
  rfl

theorem aggregated_inv {α : Type} {s : String} {calculate : Table → Bool → α} {t : Table} {x : α}
    (ha : aggregated s calculate t = .ok x) : ∃ t', prepareFields t (fieldsOf s) = .ok t' ∧ calculate t' true = x := by
  unfold aggregated at ha
  simp only [bind, Except.bind, pure, Except.pure] at ha
  cases hp : prepareFields t (fieldsOf s) with
  | error e => rw [hp] at ha; cases ha
  | ok t' =>
    rw [hp] at ha
    exact ⟨t', rfl, Except.ok.inj ha⟩

theorem root_real {f : Frame} {s : String} {data : List (List Val)} {calculate : Table → Bool → Option ℝ}
    {x : Option ℝ}
    (hl : rootFunctions.lookup s = some (fun t => .ok (calculate t true)))
    (ha : aggregated s calculate (numericTable f.cols data) = .ok x) : rootPrepared .fields f s data = .ok (realNum x) := by
  obtain ⟨t', h1, h2⟩ := aggregated_inv ha
  exact rootPrepared_ok hl h1 (by rw [h2])

theorem root_except {f : Frame} {s : String} {data : List (List Val)}
    {calculate : Table → Bool → Except PyErr (Option ℝ)} {x : Option ℝ}
    (hl : rootFunctions.lookup s = some (fun t => calculate t true))
    (ha : aggregated s calculate (numericTable f.cols data) = .ok (.ok x)) :
    rootPrepared .fields f s data = .ok (realNum x) := by
  obtain ⟨t', h1, h2⟩ := aggregated_inv ha
  exact rootPrepared_ok hl h1 h2

theorem root_rat {f : Frame} {s : String} {data : List (List Val)} {calculate : Table → Bool → Option ℚ}
    {q : ℚ}
    (hl : rootFunctions.lookup s = some (fun t => asReal (calculate t true)))
    (ha : aggregated s calculate (numericTable f.cols data) = .ok (some (roundHalfUp q 7))) :
    rootPrepared .fields f s data = .ok (.num (roundHalfUp q 7)) := by
  obtain ⟨t', h1, h2⟩ := aggregated_inv ha
  rw [rootPrepared_ok (l := .fields) hl h1 (x := some ((roundHalfUp q PRECISION : ℚ) : ℝ)) (by rw [h2]; rfl), realNum_rat]

theorem perm_variance (g : Pair → ℚ) {a b : List Pair} (h : a.Perm b) : variance g a = variance g b := by
  unfold variance
  rw [perm_avg g h]
  exact perm_avg _ h

theorem perm_speedVariance (g : WindPair → ℚ) {a b : List WindPair} (h : a.Perm b) :
    speedVariance g a = speedVariance g b := by
  unfold speedVariance
  rw [perm_avg g h]
  exact perm_avg _ h

theorem perm_sampleVariance (g : Pair → ℚ) {a b : List Pair} (h : a.Perm b) :
    sampleVariance g a = sampleVariance g b := by
  unfold sampleVariance
  rw [perm_avg g h, (h.map _).sum_eq, h.length_eq]

theorem perm_pearson {a b : List Pair} (h : a.Perm b) : pearson a = pearson b := by
  unfold pearson covariance
  rw [perm_variance _ h, perm_variance _ h, perm_avg Prod.fst h, perm_avg Prod.snd h, perm_avg _ h]

theorem perm_meanSpeed {a b : List WindPair} (h : a.Perm b) :
    meanSpeedF a = meanSpeedF b ∧ meanSpeedO a = meanSpeedO b := by
  unfold meanSpeedF meanSpeedO
  rw [perm_avg WindPair.uf h, perm_avg WindPair.vf h, perm_avg WindPair.uo h, perm_avg WindPair.vo h]
  exact ⟨rfl, rfl⟩

theorem perm_vectors {a b : List WindPair} (h : a.Perm b) :
    vecCov a = vecCov b ∧ vecVarF a = vecVarF b ∧ vecVarO a = vecVarO b := by
  unfold vecCov vecVarF vecVarO
  rw [perm_avg WindPair.uf h, perm_avg WindPair.vf h, perm_avg WindPair.uo h, perm_avg WindPair.vo h]
  exact ⟨perm_avg _ h, perm_avg _ h, perm_avg _ h⟩

/-- A rounded number between -1 and 1. -/
theorem RoundsTo.bounds {x lo hi : ℝ} {v : PyNum} (h : RoundsTo x v) (h1 : lo ≤ roundHalfUp x 7)
    (h2 : roundHalfUp x 7 ≤ hi) : ∀ q : ℚ, v = .num q → lo ≤ q ∧ (q : ℝ) ≤ hi := by
  obtain ⟨q', e1, e2⟩ := h
  intro q hq
  rw [e1] at hq
  cases hq
  rw [e2]
  exact ⟨h1, h2⟩

/-! ### SL1L2 lines -/

theorem rmse_value {t : Table} {bs : List (List Pair)} (D : Sl1l2Data t bs) :
    aggregated "rmse" slRmse t = .ok (.ok (some (roundHalfUp
      (Real.sqrt ((roundHalfUp (meanSquaredError bs.flatten) 7 : ℚ) : ℝ)) 7))) := by
  have ms := (C15_me_mse t bs D).2
  obtain ⟨t', h1, h2⟩ := aggregated_inv ms
  have e : fieldsOf "rmse" = fieldsOf "mse" := rfl
  have hm : 0 ≤ roundHalfUp (meanSquaredError bs.flatten) 7 := round7_nonneg (avg_nonneg_sq _ _)
  rw [aggregated_ok (e ▸ h1)]
  simp only [slRmse, h2, lenientSqrt, if_neg (not_lt.mpr hm), Except.map]
  rfl

theorem bcrmse_value {t : Table} {bs : List (List Pair)} (D : Sl1l2Data t bs)
    (hb : (1 + |meanError bs.flatten|) / 10 ^ 7 ≤ biasCorrectedMse bs.flatten) :
    ∃ x : ℚ, 0 ≤ x ∧ |x - biasCorrectedMse bs.flatten| ≤ (1 + |meanError bs.flatten|) / 10 ^ 7 + 1 / 10 ^ 14 ∧
      aggregated "bcrmse" slBcrmse t = .ok (.ok (some (roundHalfUp (Real.sqrt (x : ℝ)) 7))) := by
  obtain ⟨x, hx, hx0⟩ := ((C16_mse_nonneg_partial t bs D).2.2.2.2 hb).1
  obtain ⟨x', hx', hc⟩ := C15_bcmse t bs D
  obtain rfl : x = x' := by
    rw [hx] at hx'
    simpa using hx'
  obtain ⟨t', h1, h2⟩ := aggregated_inv hx
  have e : fieldsOf "bcrmse" = fieldsOf "bcmse" := rfl
  refine ⟨x, hx0, hc, ?_⟩
  rw [aggregated_ok (e ▸ h1)]
  simp only [slBcrmse, h2, lenientSqrt, if_neg (not_lt.mpr hx0), Except.map]
  rfl

/-- The value of a set of SL1L2 lines. -/
theorem sl_root_value {f : Frame} {pairs : List Val → List Pair} (L : Sl1l2Lines f pairs) {rows data : List (List Val)}
    (hs : data.Perm rows) (hne : rows ≠ []) (hsub : ∀ r ∈ rows, r ∈ f.rows) {s : String} {v : PyNum}
    (h : rootPrepared .fields f s data = .ok v) : RootScore s (rows.flatMap pairs) v := by
  have hperm := hs
  have D := sl_table L (perm_ne hs hne) (fun r hr => hsub r (hperm.mem_iff.mp hr))
  have hpool : (data.map pairs).flatten.Perm (rows.flatMap pairs) := by
    rw [← List.flatMap_def]
    exact hperm.flatMap_right pairs
  have hme : meanError (data.map pairs).flatten = meanError (rows.flatMap pairs) := perm_avg _ hpool
  have hmse : meanSquaredError (data.map pairs).flatten = meanSquaredError (rows.flatMap pairs) := perm_avg _ hpool
  have hbc := perm_bcmse hpool
  have hvf := perm_variance Prod.fst hpool
  have hvo := perm_variance Prod.snd hpool
  have hsf := perm_sampleVariance Prod.fst hpool
  have hso := perm_sampleVariance Prod.snd hpool
  have hpe := perm_pearson hpool
  have hlen := hpool.length_eq
  have hob := perm_avg Prod.snd hpool
  have real : ∀ {stat : String} {calculate : Table → Bool → Option ℝ} {x : Option ℝ}, s = stat →
      rootFunctions.lookup stat = some (fun t => .ok (calculate t true)) →
      aggregated stat calculate (numericTable f.cols data) = .ok x → v = realNum x := by
    rintro stat calculate x rfl hl ha
    rw [root_real hl ha] at h
    exact (Except.ok.inj h).symm
  have ex : ∀ {stat : String} {calculate : Table → Bool → Except PyErr (Option ℝ)} {x : Option ℝ}, s = stat →
      rootFunctions.lookup stat = some (fun t => calculate t true) →
      aggregated stat calculate (numericTable f.cols data) = .ok (.ok x) → v = realNum x := by
    rintro stat calculate x rfl hl ha
    rw [root_except hl ha] at h
    exact (Except.ok.inj h).symm
  obtain ⟨d1, d2⟩ := C95_stdev _ _ D
  obtain ⟨c1, c2⟩ := C17_pr_corr _ _ D
  obtain ⟨k1, k2, -⟩ := C95_msess _ _ D
  have r1 := rmse_value D
  rw [hlen, hsf] at d1
  rw [hlen, hso] at d2
  rw [hvf, hvo, hpe] at c1
  rw [hvf, hvo] at c2
  rw [hlen, hso, hmse] at k1
  rw [hmse] at r1
  refine ⟨?_, ?_, ?_, ?_, ?_, ?_, ?_, ?_, ?_⟩
  · intro e
    rw [ex e rfl r1]
    exact rootOf_value (avg_nonneg_sq _ _)
  · intro e
    have hv := real e rfl d1
    constructor
    · intro h1; rw [hv, if_pos h1]; rfl
    · intro h1; rw [hv, if_neg h1]; exact realNum_rounds _
  · intro e
    have hv := real e rfl d2
    constructor
    · intro h1; rw [hv, if_pos h1]; rfl
    · intro h1; rw [hv, if_neg h1]; exact realNum_rounds _
  · intro e
    constructor
    · intro h1
      rw [real e rfl (c1 h1).1]; exact realNum_rounds _
    · intro h1
      rw [real e rfl (c2 h1)]; rfl
  · intro e q hq
    by_cases h1 : 0 < variance Prod.fst (rows.flatMap pairs) ∧ 0 < variance Prod.snd (rows.flatMap pairs)
    · have hv := real e rfl (c1 h1).1
      have := (hv ▸ realNum_rounds _ : RoundsTo (pearson (rows.flatMap pairs)) v).bounds (c1 h1).2.1 (c1 h1).2.2 q hq
      exact ⟨by exact_mod_cast this.1, by exact_mod_cast this.2⟩
    · rw [real e rfl (c2 h1)] at hq; cases hq
  · rintro e so rfl
    have hv := real e rfl k1
    constructor
    · intro h1; rw [hv, if_pos h1]; rfl
    · intro h1; rw [hv, if_neg h1]; exact realNum_rounds _
  · intro e q hq
    have hv := real e rfl k1
    split at hv
    · rw [hv] at hq; cases hq
    · next hc =>
      have h2 := k2 _ (by rw [k1, if_neg hc])
      have h3 : RoundsTo _ v := hv ▸ realNum_rounds _
      have := h3.bounds le_rfl h2 q hq
      exact_mod_cast this.2
  · intro e hb
    rw [← hme, ← hbc] at hb
    obtain ⟨x, hx0, hx1, hx2⟩ := bcrmse_value D hb
    have hv := ex e rfl hx2
    rw [hme, hbc] at hx1
    have hb0 : 0 ≤ biasCorrectedMse (rows.flatMap pairs) := avg_nonneg_sq _ _
    obtain ⟨q, hq1, hq2⟩ := (hv ▸ realNum_rounds _ : RoundsTo (Real.sqrt (x : ℝ)) v)
    refine ⟨q, hq1, ?_, ?_⟩
    · have : (0 : ℝ) ≤ (q : ℝ) := by rw [hq2]; exact round7_nonneg (Real.sqrt_nonneg _)
      exact_mod_cast this
    · have h1 : |(q : ℝ) - √(x : ℝ)| ≤ 1 / 10 ^ 7 := by
        rw [hq2]
        refine le_trans (round_real _) (by norm_num)
      have h2 : |√(x : ℝ) - √(biasCorrectedMse (rows.flatMap pairs) : ℝ)| ≤
          Real.sqrt (((1 + |meanError (rows.flatMap pairs)|) / 10 ^ 7 + 1 / 10 ^ 14 : ℚ) : ℝ) := by
        refine Real.abs_le_sqrt (le_trans (sqrt_sub_sq _ _ (by exact_mod_cast hx0) (by exact_mod_cast hb0)) ?_)
        have : ((|x - biasCorrectedMse (rows.flatMap pairs)| : ℚ) : ℝ) ≤
            (((1 + |meanError (rows.flatMap pairs)|) / 10 ^ 7 + 1 / 10 ^ 14 : ℚ) : ℝ) := Rat.cast_le.mpr hx1
        rwa [Rat.cast_abs, Rat.cast_sub] at this
      have := abs_sub_le (q : ℝ) √(x : ℝ) √(biasCorrectedMse (rows.flatMap pairs) : ℝ)
      linarith
  · intro e hb
    rw [← hob] at hb
    have := C65_si_partial _ _ D hb
    rw [hmse, hob] at this
    rw [ex e rfl this]
    exact realNum_rounds _

/-- The MAE of a set of SL1L2 lines with a column of mean absolute errors. -/
theorem sl_mae_value {f : Frame} {pairs : List Val → List Pair} (L : Sl1l2Lines f pairs)
    (hm : ∀ r ∈ f.rows, HasNumber f r "mae" (meanAbsError (pairs r))) {rows data : List (List Val)}
    (hs : data.Perm rows) (hne : rows ≠ []) (hsub : ∀ r ∈ rows, r ∈ f.rows) :
    rootPrepared .fields f "mae" data = .ok (.num (roundHalfUp (meanAbsError (rows.flatMap pairs)) 7)) := by
  have hperm := hs
  have hsub' : ∀ r ∈ data, r ∈ f.rows := fun r hr => hsub r (hperm.mem_iff.mp hr)
  have D := sl_table L (perm_ne hs hne) hsub'
  have hpool : (data.map pairs).flatten.Perm (rows.flatMap pairs) := by
    rw [← List.flatMap_def]
    exact hperm.flatMap_right pairs
  have ha := C95_mae _ _ D (by
    rw [List.map_map]
    exact completeColumn_numeric (perm_ne hs hne) (fun r hr => hm r (hsub' r hr)))
  have e : meanAbsError (data.map pairs).flatten = meanAbsError (rows.flatMap pairs) := perm_avg _ hpool
  rw [e] at ha
  exact root_rat rfl ha

/-! ### SAL1L2 lines -/

theorem sal_table {f : Frame} {pairs : List Val → List Pair} (L : Sal1l2Lines f pairs) {rows : List (List Val)}
    (hne : rows ≠ []) (hsub : ∀ r ∈ rows, r ∈ f.rows) :
    Sal1l2Data (numericTable f.cols rows) (rows.map pairs) := by
  have key : ∀ c (g : List Pair → ℚ), (∀ r ∈ f.rows, HasNumber f r c (g (pairs r))) →
      CompleteColumn (numericTable f.cols rows) c ((rows.map pairs).map g) := by
    intro c g h
    rw [List.map_map]
    exact completeColumn_numeric hne (fun r hr => h r (hsub r hr))
  exact ⟨by simpa [numericTable] using hne, by
    intro b hb
    obtain ⟨r, hr, rfl⟩ := List.mem_map.mp hb
    exact L.batch r (hsub r hr), key _ _ L.total, key _ _ L.fabar, key _ _ L.oabar, key _ _ L.foabar, key _ _ L.ffabar,
    key _ _ L.ooabar⟩

/-- The value of a set of SAL1L2 lines. -/
theorem sal_root_value {f : Frame} {pairs : List Val → List Pair} (L : Sal1l2Lines f pairs)
    {rows data : List (List Val)} (hs : data.Perm rows) (hne : rows ≠ []) (hsub : ∀ r ∈ rows, r ∈ f.rows)
    {s : String} {v : PyNum} (h : rootPrepared .fields f s data = .ok v) : AnomalyScore s (rows.flatMap pairs) v := by
  have hperm := hs
  have D := sal_table L (perm_ne hs hne) (fun r hr => hsub r (hperm.mem_iff.mp hr))
  have hpool : (data.map pairs).flatten.Perm (rows.flatMap pairs) := by
    rw [← List.flatMap_def]
    exact hperm.flatMap_right pairs
  have hvf := perm_variance Prod.fst hpool
  have hvo := perm_variance Prod.snd hpool
  have hpe := perm_pearson hpool
  have real : ∀ {stat : String} {calculate : Table → Bool → Option ℝ} {x : Option ℝ}, s = stat →
      rootFunctions.lookup stat = some (fun t => .ok (calculate t true)) →
      aggregated stat calculate (numericTable f.cols data) = .ok x → v = realNum x := by
    rintro stat calculate x rfl hl ha
    rw [root_real hl ha] at h
    exact (Except.ok.inj h).symm
  obtain ⟨c1, c2⟩ := C17_anom_corr _ _ D
  obtain ⟨m1, m2⟩ := C96_rms _ _ D
  have w := C96_anom_corr_raw _ _ D
  simp only [perm_avg _ hpool] at m1 m2 w
  rw [hvf, hvo, hpe] at c1
  rw [hvf, hvo] at c2
  refine ⟨?_, ?_, ?_, ?_, ?_⟩
  · intro e
    constructor
    · intro h1
      rw [real e rfl (c1 h1).1]; exact realNum_rounds _
    · intro h1
      rw [real e rfl (c2 h1)]; rfl
  · rintro e ff oo fo rfl rfl rfl
    have hv := real e rfl w
    constructor
    · intro h1; rw [hv, if_pos h1]; rfl
    · intro h1; rw [hv, if_neg h1]; exact realNum_rounds _
  · rintro (e | e) q hq
    · by_cases h1 : 0 < variance Prod.fst (rows.flatMap pairs) ∧ 0 < variance Prod.snd (rows.flatMap pairs)
      · have hv := real e rfl (c1 h1).1
        have := (hv ▸ realNum_rounds _ : RoundsTo (pearson (rows.flatMap pairs)) v).bounds (c1 h1).2.1 (c1 h1).2.2 q hq
        exact ⟨by exact_mod_cast this.1, by exact_mod_cast this.2⟩
      · rw [real e rfl (c2 h1)] at hq; cases hq
    · have hv := real e rfl w
      split at hv
      · rw [hv] at hq; cases hq
      · next hc =>
        rw [if_neg hc] at w
        obtain ⟨t', -, ht⟩ := aggregated_inv w
        have hb := C17_anom_corr_raw t' true _ ht
        have h3 : RoundsTo _ v := hv ▸ realNum_rounds _
        have := h3.bounds hb.1 hb.2 q hq
        exact ⟨by exact_mod_cast this.1, by exact_mod_cast this.2⟩
  · intro e
    rw [real e rfl m1]; exact realNum_rounds _
  · intro e
    rw [real e rfl m2]; exact realNum_rounds _

/-! ### VL1L2, VCNT and VAL1L2 lines -/

theorem wind_table {cols : List String} {f : Frame} {pairs : List Val → List WindPair} (L : WindLines cols f pairs)
    {rows : List (List Val)} (hne : rows ≠ []) (hsub : ∀ r ∈ rows, r ∈ f.rows) :
    BatchData windSum cols (numericTable f.cols rows) (rows.map pairs) where
  rows_ne := by simpa [numericTable] using hne
  batch_ne := by
    intro b hb
    obtain ⟨r, hr, rfl⟩ := List.mem_map.mp hb
    exact L.batch r (hsub r hr)
  total := by
    rw [List.map_map]
    exact completeColumn_numeric hne (fun r hr => L.total r (hsub r hr))
  field := by
    intro c hc
    rw [List.map_map]
    exact completeColumn_numeric hne (fun r hr => L.field c hc r (hsub r hr))

/-- The value of a set of VL1L2 or VCNT lines. -/
theorem wind_root_value {f : Frame} {pairs : List Val → List WindPair} (L : WindLines vl1l2Columns f pairs)
    {rows data : List (List Val)} (hs : data.Perm rows) (hne : rows ≠ []) (hsub : ∀ r ∈ rows, r ∈ f.rows)
    {s : String} {v : PyNum} (h : rootPrepared .fields f s data = .ok v) : WindScore s (rows.flatMap pairs) v := by
  have hperm := hs
  have D := wind_table L (perm_ne hs hne) (fun r hr => hsub r (hperm.mem_iff.mp hr))
  have hpool : (data.map pairs).flatten.Perm (rows.flatMap pairs) := by
    rw [← List.flatMap_def]
    exact hperm.flatMap_right pairs
  have real : ∀ {stat : String} {calculate : Table → Bool → Option ℝ} {x : Option ℝ}, s = stat →
      rootFunctions.lookup stat = some (fun t => .ok (calculate t true)) →
      aggregated stat calculate (numericTable f.cols data) = .ok x → v = realNum x := by
    rintro stat calculate x rfl hl ha
    rw [root_real hl ha] at h
    exact (Except.ok.inj h).symm
  have rat : ∀ {stat : String} {calculate : Table → Bool → Option ℚ} {q : ℚ}, s = stat →
      rootFunctions.lookup stat = some (fun t => asReal (calculate t true)) →
      aggregated stat calculate (numericTable f.cols data) = .ok (some (roundHalfUp q 7)) →
      v = .num (roundHalfUp q 7) := by
    rintro stat calculate x rfl hl ha
    rw [root_rat hl ha] at h
    exact (Except.ok.inj h).symm
  have hvm : vectorMse (data.map pairs).flatten = vectorMse (rows.flatMap pairs) := perm_avg _ hpool
  have hmf : meanSqF (data.map pairs).flatten = meanSqF (rows.flatMap pairs) := perm_avg _ hpool
  have hmo : meanSqO (data.map pairs).flatten = meanSqO (rows.flatMap pairs) := perm_avg _ hpool
  obtain ⟨hsf, hso⟩ := perm_meanSpeed hpool
  obtain ⟨a1, a2⟩ := C68_msve_partial _ _ D "vl1l2" (.inl rfl)
  obtain ⟨a3, a4⟩ := C68_msve_partial _ _ D "vcnt" (.inr rfl)
  obtain ⟨b1, b2, b3, b4, b5⟩ := C68_speeds_partial _ _ D
  obtain ⟨m1, m2, m3, m4⟩ := C68_mean_vectors_partial _ _ D
  have se := C68_speed_err_partial _ _ D
  rw [hvm] at a1 a2 a3 a4
  rw [perm_avg _ hpool] at b1 b2
  rw [hmf] at b3
  rw [hmo] at b4
  rw [hmf, hmo] at b5
  rw [hsf] at m1
  rw [hso] at m2
  rw [perm_avg _ hpool, perm_avg _ hpool] at m3
  rw [hsf, hso] at m4 se
  have var : (∀ p ∈ rows.flatMap pairs, p.fs ^ 2 = p.uf ^ 2 + p.vf ^ 2) →
      (∀ p ∈ rows.flatMap pairs, p.os ^ 2 = p.uo ^ 2 + p.vo ^ 2) → _ := fun hf ho =>
    C68_variance_partial _ _ D (fun p hp => hf p (hpool.mem_iff.mp hp)) (fun p hp => ho p (hpool.mem_iff.mp hp))
  have vf : avg (fun p => (p.fs - avg WindPair.fs (data.map pairs).flatten) ^ 2) (data.map pairs).flatten =
      speedVariance WindPair.fs (rows.flatMap pairs) := perm_speedVariance WindPair.fs hpool
  have vo : avg (fun p => (p.os - avg WindPair.os (data.map pairs).flatten) ^ 2) (data.map pairs).flatten =
      speedVariance WindPair.os (rows.flatMap pairs) := perm_speedVariance WindPair.os hpool
  rw [vf, vo] at var
  have nn : ∀ g, 0 ≤ speedVariance g (rows.flatMap pairs) := fun g => avg_nonneg _ (fun p _ => sq_nonneg _)
  refine ⟨?_, ?_, ?_, ?_, ?_, ?_, ?_, ?_, ?_, ?_, ?_, ?_, ?_, ?_, ?_, ?_⟩
  · rintro (e | e)
    · exact rat e rfl a1
    · exact rat e rfl a3
  · rintro (e | e)
    · rw [real e rfl a2]; exact rootOf_value (vectorMse_nonneg _)
    · rw [real e rfl a4]; exact rootOf_value (vectorMse_nonneg _)
  · intro e; rw [real e rfl b5]; exact realNum_rounds _
  · intro e; exact rat e rfl b1
  · intro e; exact rat e rfl b2
  · intro e; rw [real e rfl b3]; exact realNum_rounds _
  · intro e; rw [real e rfl b4]; exact realNum_rounds _
  · intro e; rw [real e rfl m1]; exact realNum_rounds _
  · intro e; rw [real e rfl m2]; exact realNum_rounds _
  · intro e; rw [real e rfl m3]; exact realNum_rounds _
  · rintro (e | e)
    · rw [real e rfl (se _ (.inl rfl))]; exact realNum_rounds _
    · rw [real e rfl (se _ (.inr rfl))]; exact realNum_rounds _
  · intro e; rw [real e rfl m4]; exact realNum_rounds _
  · intro e hf ho; exact rat e rfl (var hf ho).1
  · intro e hf ho; exact rat e rfl (var hf ho).2.1
  · intro e hf ho; rw [real e rfl (var hf ho).2.2.1]; exact rootOf_value (nn _)
  · intro e hf ho; rw [real e rfl (var hf ho).2.2.2]; exact rootOf_value (nn _)

/-- The value of a set of VAL1L2 lines. -/
theorem val_root_value {f : Frame} {pairs : List Val → List WindPair} (L : WindLines val1l2Columns f pairs)
    {rows data : List (List Val)} (hs : data.Perm rows) (hne : rows ≠ []) (hsub : ∀ r ∈ rows, r ∈ f.rows)
    {s : String} {v : PyNum} (h : rootPrepared .fields f s data = .ok v) : WindAnomalyScore s (rows.flatMap pairs) v := by
  have hperm := hs
  have D := wind_table L (perm_ne hs hne) (fun r hr => hsub r (hperm.mem_iff.mp hr))
  have hpool : (data.map pairs).flatten.Perm (rows.flatMap pairs) := by
    rw [← List.flatMap_def]
    exact hperm.flatMap_right pairs
  have ha := C104_val1l2_partial _ _ D
  obtain ⟨e1, e2, e3⟩ := perm_vectors hpool
  rw [e1, e2, e3] at ha
  refine ⟨?_⟩
  rintro rfl
  rw [root_real rfl ha] at h
  have hv := (Except.ok.inj h).symm
  constructor
  · intro h1; rw [hv, if_pos h1]; rfl
  · intro h1; rw [hv, if_neg h1]; exact realNum_rounds _

/-! ### ECNT lines -/

theorem ecnt_roots {f : Frame} (hwf : FrameWF f) {n : List Val → ℚ} {x : String → List Val → ℚ} (L : EcntLines f n x)
    {rows data : List (List Val)} (hs : data.Perm rows) (hne : rows ≠ [])
    (hsub : ∀ r ∈ rows, r ∈ f.rows) {c : String} (hc : c ∈ ["rmse", "rmse_oerr", "spread", "spread_oerr"]) :
    rootPrepared .ecnt f ("ecnt_" ++ c) data = .ok (realNum (some (roundHalfUp (Real.sqrt ((roundHalfUp
      (caseMean n (fun r => x c r ^ 2) rows) 7 : ℚ) : ℝ)) 7))) := by
  have hperm := hs
  have hne' := perm_ne hs hne
  have hsub' : ∀ r ∈ data, r ∈ f.rows := fun r hr => hsub r (hperm.mem_iff.mp hr)
  have D := ecnt_table hwf L hne' hsub'
  obtain ⟨h1, h2, h3, h4⟩ := C21_roots_partial _ _ _ _ _ _ _ D (by
    intro a ha
    obtain ⟨r, hr, rfl⟩ := List.mem_map.mp ha
    exact (L.pos r (hsub' r hr)).le)
  have sq : ∀ c, wmean (data.map n) (squares (data.map (x c))) = caseMean n (fun r => x c r ^ 2) rows := by
    intro c
    rw [← perm_caseMean _ _ hperm, ← wmean_rows]
    unfold squares
    rw [List.map_map]
    congr 1
    apply List.map_congr_left
    intro r _
    simp only [Function.comp]
    ring
  rw [sq] at h1 h2 h3 h4
  have fin : ∀ {stat : String} {calculate : Table → Bool → Option ℝ} {y : Option ℝ},
      rootFunctions.lookup stat = some (fun t => .ok (calculate t true)) →
      aggregatedEcnt stat calculate (numericTable f.cols data) = .ok y →
      rootPrepared .ecnt f stat data = .ok (realNum y) := by
    intro stat calculate y hl ha
    unfold aggregatedEcnt at ha
    simp only [bind, Except.bind, pure, Except.pure] at ha
    cases hp : prepareEcnt stat (numericTable f.cols data) with
    | error e => rw [hp] at ha; cases ha
    | ok t =>
      rw [hp] at ha
      exact rootPrepared_ok (l := .ecnt) hl hp (by rw [Except.ok.inj ha])
  simp only [List.mem_cons, List.not_mem_nil, or_false] at hc
  rcases hc with rfl | rfl | rfl | rfl
  · exact fin rfl h1
  · exact fin rfl h2
  · exact fin rfl h3
  · exact fin rfl h4

/-- The root mean squares of a set of ECNT lines. -/
theorem ecnt_root_value {f : Frame} (hwf : FrameWF f) {n : List Val → ℚ} {x : String → List Val → ℚ}
    (L : EcntLines f n x) {rows data : List (List Val)} (hs : data.Perm rows) (hne : rows ≠ [])
    (hsub : ∀ r ∈ rows, r ∈ f.rows) {s : String} {v : PyNum} (h : rootPrepared .ecnt f s data = .ok v) :
    EcntRootScore n x s rows v := by
  refine ⟨fun c hc e => ?_⟩
  subst e
  rw [ecnt_roots hwf L hs hne hsub hc] at h
  rw [← Except.ok.inj h]
  refine rootOf_value (div_nonneg (List.sum_nonneg ?_) (List.sum_nonneg ?_))
  · intro a ha
    obtain ⟨r, hr, rfl⟩ := List.mem_map.mp ha
    exact mul_nonneg (L.pos r (hsub r hr)).le (sq_nonneg _)
  · intro a ha
    obtain ⟨r, hr, rfl⟩ := List.mem_map.mp ha
    exact (L.pos r (hsub r hr)).le

/-! ### The statistics of every set of lines exist -/

theorem sl_root_exists {f : Frame} {pairs : List Val → List Pair} (L : Sl1l2Lines f pairs)
    {data : List (List Val)} (hne : data ≠ []) (hsub : ∀ r ∈ data, r ∈ f.rows) {st : String}
    (hst : st ∈ ["rmse", "fstdev", "ostdev", "pr_corr", "msess"]) :
    ∃ v, rootPrepared .fields f st data = .ok v := by
  have D := sl_table L hne hsub
  simp only [List.mem_cons, List.not_mem_nil, or_false] at hst
  rcases hst with rfl | rfl | rfl | rfl | rfl
  · exact ⟨_, root_except rfl (rmse_value D)⟩
  · exact ⟨_, root_real rfl (C95_stdev _ _ D).1⟩
  · exact ⟨_, root_real rfl (C95_stdev _ _ D).2⟩
  · by_cases h1 : 0 < variance Prod.fst (data.map pairs).flatten ∧ 0 < variance Prod.snd (data.map pairs).flatten
    · exact ⟨_, root_real rfl ((C17_pr_corr _ _ D).1 h1).1⟩
    · exact ⟨_, root_real rfl ((C17_pr_corr _ _ D).2 h1)⟩
  · exact ⟨_, root_real rfl (C95_msess _ _ D).1⟩

theorem sal_root_exists {f : Frame} {pairs : List Val → List Pair} (L : Sal1l2Lines f pairs)
    {data : List (List Val)} (hne : data ≠ []) (hsub : ∀ r ∈ data, r ∈ f.rows) {st : String}
    (hst : st ∈ ["anom_corr", "anom_corr_raw", "rmsfa", "rmsoa"]) :
    ∃ v, rootPrepared .fields f st data = .ok v := by
  have D := sal_table L hne hsub
  simp only [List.mem_cons, List.not_mem_nil, or_false] at hst
  rcases hst with rfl | rfl | rfl | rfl
  · by_cases h1 : 0 < variance Prod.fst (data.map pairs).flatten ∧ 0 < variance Prod.snd (data.map pairs).flatten
    · exact ⟨_, root_real rfl ((C17_anom_corr _ _ D).1 h1).1⟩
    · exact ⟨_, root_real rfl ((C17_anom_corr _ _ D).2 h1)⟩
  · exact ⟨_, root_real rfl (C96_anom_corr_raw _ _ D)⟩
  · exact ⟨_, root_real rfl (C96_rms _ _ D).1⟩
  · exact ⟨_, root_real rfl (C96_rms _ _ D).2⟩

theorem wind_root_exists {f : Frame} {pairs : List Val → List WindPair} (L : WindLines vl1l2Columns f pairs)
    {data : List (List Val)} (hne : data ≠ []) (hsub : ∀ r ∈ data, r ∈ f.rows) {st : String}
    (hst : st ∈ ["vl1l2_msve", "vl1l2_rmsve", "vl1l2_bias", "vl1l2_speed_err", "vcnt_msve",
      "vcnt_rmsve", "vcnt_fbar", "vcnt_obar", "vcnt_fs_rms", "vcnt_os_rms", "vcnt_fbar_speed", "vcnt_obar_speed",
      "vcnt_vdiff_speed", "vcnt_speed_err", "vcnt_speed_abserr"]) :
    ∃ v, rootPrepared .fields f st data = .ok v := by
  have D := wind_table L hne hsub
  obtain ⟨a1, a2⟩ := C68_msve_partial _ _ D "vl1l2" (.inl rfl)
  obtain ⟨a3, a4⟩ := C68_msve_partial _ _ D "vcnt" (.inr rfl)
  obtain ⟨b1, b2, b3, b4, b5⟩ := C68_speeds_partial _ _ D
  obtain ⟨m1, m2, m3, m4⟩ := C68_mean_vectors_partial _ _ D
  have se := C68_speed_err_partial _ _ D
  simp only [List.mem_cons, List.not_mem_nil, or_false] at hst
  rcases hst with rfl | rfl | rfl | rfl | rfl | rfl | rfl | rfl | rfl | rfl | rfl | rfl | rfl | rfl | rfl
  · exact ⟨_, root_rat rfl a1⟩
  · exact ⟨_, root_real rfl a2⟩
  · exact ⟨_, root_real rfl b5⟩
  · exact ⟨_, root_real rfl (se _ (.inl rfl))⟩
  · exact ⟨_, root_rat rfl a3⟩
  · exact ⟨_, root_real rfl a4⟩
  · exact ⟨_, root_rat rfl b1⟩
  · exact ⟨_, root_rat rfl b2⟩
  · exact ⟨_, root_real rfl b3⟩
  · exact ⟨_, root_real rfl b4⟩
  · exact ⟨_, root_real rfl m1⟩
  · exact ⟨_, root_real rfl m2⟩
  · exact ⟨_, root_real rfl m3⟩
  · exact ⟨_, root_real rfl (se _ (.inr rfl))⟩
  · exact ⟨_, root_real rfl m4⟩

/-! ### The runs -/

section
variable {f : Frame} {p : AggParams} {init : List (String × List String)} {sv : String × List String}
  {parts : String → List String}
  {fix : List (String × List String)} {fv : String} {sts : List String} {rest : List (String × List String)}

/-- C248: in a run on SL1L2 lines with event equalization, every score in the table is the score of the matched pairs of
all common cases of its point, pooled (`RootScore`). -/
theorem C248_scores (etb : List PyNum → List PyNum → PyNum) (out : List AggOut)
    (R : OneAxisRun f p init sv parts fix fv sts rest) (key : List Val → String)
    (hkey : ∀ r ∈ f.rows, IsCaseKey f p.indyVar true r (key r)) (pairs : List Val → List Pair)
    (L : Sl1l2Lines f pairs) (h : aggRun (rootStat .fields f) etb f p = .ok out) (hne : out ≠ []) :
    ∃ plain derived, out = plain ++ derived ∧
      (∀ pt, pt ∈ plain.map AggOut.point ↔
        ∃ as, List.Forall₂ (fun x q => x ∈ q.2) as (init ++ [sv]) ∧ ∃ i ∈ p.indyVals, ∃ st ∈ p.axis₁.stats,
          pt = as ++ [i, st]) ∧
      ∀ o ∈ plain, ∀ as i st, o.point = as ++ [i, st] →
        ∀ rows, rows = comparedRows f (init ++ [sv]) parts fix fv p.indyVar key as i st →
          (rows = [] → o.value = .none) ∧ (rows ≠ [] → RootScore (lower st) (rows.flatMap pairs) o.value) :=
  run_scores _ (fun s rows v => RootScore s (rows.flatMap pairs) v) etb out R key hkey (fun s rows v hr hsub hv => by
    obtain ⟨data, hs, hv⟩ := rootStat_inv hv
    exact sl_root_value L hs hr hsub hv) h hne

/-- C248: MAE, if the lines have the mean absolute errors. -/
theorem C248_mae (etb : List PyNum → List PyNum → PyNum) (out : List AggOut)
    (R : OneAxisRun f p init sv parts fix fv sts rest) (key : List Val → String)
    (hkey : ∀ r ∈ f.rows, IsCaseKey f p.indyVar true r (key r)) (pairs : List Val → List Pair)
    (L : Sl1l2Lines f pairs) (hm : ∀ r ∈ f.rows, HasNumber f r "mae" (meanAbsError (pairs r)))
    (h : aggRun (rootStat .fields f) etb f p = .ok out) (hne : out ≠ []) :
    ∃ plain derived, out = plain ++ derived ∧
      (∀ pt, pt ∈ plain.map AggOut.point ↔
        ∃ as, List.Forall₂ (fun x q => x ∈ q.2) as (init ++ [sv]) ∧ ∃ i ∈ p.indyVals, ∃ st ∈ p.axis₁.stats,
          pt = as ++ [i, st]) ∧
      ∀ o ∈ plain, ∀ as i st, o.point = as ++ [i, st] →
        ∀ rows, rows = comparedRows f (init ++ [sv]) parts fix fv p.indyVar key as i st →
          (rows = [] → o.value = .none) ∧ (rows ≠ [] → lower st = "mae" →
            o.value = .num (roundHalfUp (meanAbsError (rows.flatMap pairs)) 7)) :=
  run_scores _ (fun s rows v => s = "mae" → v = .num (roundHalfUp (meanAbsError (rows.flatMap pairs)) 7)) etb out R key hkey (fun s rows v hr hsub hv => by
    obtain ⟨data, hs, hv⟩ := rootStat_inv hv
    exact fun e => by
      subst e
      rw [sl_mae_value L hm hs hr hsub] at hv
      exact (Except.ok.inj hv).symm) h hne

/-- C249: in a run on SAL1L2 lines with event equalization, every score in the table is the score of the anomalies of all
common cases of its point, pooled (`AnomalyScore`). -/
theorem C249_scores (etb : List PyNum → List PyNum → PyNum) (out : List AggOut)
    (R : OneAxisRun f p init sv parts fix fv sts rest) (key : List Val → String)
    (hkey : ∀ r ∈ f.rows, IsCaseKey f p.indyVar true r (key r)) (pairs : List Val → List Pair)
    (L : Sal1l2Lines f pairs) (h : aggRun (rootStat .fields f) etb f p = .ok out) (hne : out ≠ []) :
    ∃ plain derived, out = plain ++ derived ∧
      (∀ pt, pt ∈ plain.map AggOut.point ↔
        ∃ as, List.Forall₂ (fun x q => x ∈ q.2) as (init ++ [sv]) ∧ ∃ i ∈ p.indyVals, ∃ st ∈ p.axis₁.stats,
          pt = as ++ [i, st]) ∧
      ∀ o ∈ plain, ∀ as i st, o.point = as ++ [i, st] →
        ∀ rows, rows = comparedRows f (init ++ [sv]) parts fix fv p.indyVar key as i st →
          (rows = [] → o.value = .none) ∧ (rows ≠ [] → AnomalyScore (lower st) (rows.flatMap pairs) o.value) :=
  run_scores _ (fun s rows v => AnomalyScore s (rows.flatMap pairs) v) etb out R key hkey (fun s rows v hr hsub hv => by
    obtain ⟨data, hs, hv⟩ := rootStat_inv hv
    exact sal_root_value L hs hr hsub hv) h hne

/-- C250: in a run on VL1L2 or VCNT lines with event equalization, every wind statistic in the table is that of the wind
vectors of all common cases of its point, pooled (`WindScore`). -/
theorem C250_scores (etb : List PyNum → List PyNum → PyNum) (out : List AggOut)
    (R : OneAxisRun f p init sv parts fix fv sts rest) (key : List Val → String)
    (hkey : ∀ r ∈ f.rows, IsCaseKey f p.indyVar true r (key r)) (pairs : List Val → List WindPair)
    (L : WindLines vl1l2Columns f pairs) (h : aggRun (rootStat .fields f) etb f p = .ok out) (hne : out ≠ []) :
    ∃ plain derived, out = plain ++ derived ∧
      (∀ pt, pt ∈ plain.map AggOut.point ↔
        ∃ as, List.Forall₂ (fun x q => x ∈ q.2) as (init ++ [sv]) ∧ ∃ i ∈ p.indyVals, ∃ st ∈ p.axis₁.stats,
          pt = as ++ [i, st]) ∧
      ∀ o ∈ plain, ∀ as i st, o.point = as ++ [i, st] →
        ∀ rows, rows = comparedRows f (init ++ [sv]) parts fix fv p.indyVar key as i st →
          (rows = [] → o.value = .none) ∧ (rows ≠ [] → WindScore (lower st) (rows.flatMap pairs) o.value) :=
  run_scores _ (fun s rows v => WindScore s (rows.flatMap pairs) v) etb out R key hkey (fun s rows v hr hsub hv => by
    obtain ⟨data, hs, hv⟩ := rootStat_inv hv
    exact wind_root_value L hs hr hsub hv) h hne

/-- C250: the anomaly correlation of VAL1L2 lines is that of the pooled wind anomalies. -/
theorem C250_anomalies (etb : List PyNum → List PyNum → PyNum) (out : List AggOut)
    (R : OneAxisRun f p init sv parts fix fv sts rest) (key : List Val → String)
    (hkey : ∀ r ∈ f.rows, IsCaseKey f p.indyVar true r (key r)) (pairs : List Val → List WindPair)
    (L : WindLines val1l2Columns f pairs) (h : aggRun (rootStat .fields f) etb f p = .ok out) (hne : out ≠ []) :
    ∃ plain derived, out = plain ++ derived ∧
      (∀ pt, pt ∈ plain.map AggOut.point ↔
        ∃ as, List.Forall₂ (fun x q => x ∈ q.2) as (init ++ [sv]) ∧ ∃ i ∈ p.indyVals, ∃ st ∈ p.axis₁.stats,
          pt = as ++ [i, st]) ∧
      ∀ o ∈ plain, ∀ as i st, o.point = as ++ [i, st] →
        ∀ rows, rows = comparedRows f (init ++ [sv]) parts fix fv p.indyVar key as i st →
          (rows = [] → o.value = .none) ∧ (rows ≠ [] → WindAnomalyScore (lower st) (rows.flatMap pairs) o.value) :=
  run_scores _ (fun s rows v => WindAnomalyScore s (rows.flatMap pairs) v) etb out R key hkey (fun s rows v hr hsub hv => by
    obtain ⟨data, hs, hv⟩ := rootStat_inv hv
    exact val_root_value L hs hr hsub hv) h hne

/-- C251: in a run on ECNT lines with event equalization, RMSE and spread are the roots of the weighted mean squares of the
common cases of the point. -/
theorem C251_scores (etb : List PyNum → List PyNum → PyNum) (out : List AggOut)
    (R : OneAxisRun f p init sv parts fix fv sts rest) (key : List Val → String)
    (hkey : ∀ r ∈ f.rows, IsCaseKey f p.indyVar true r (key r)) (n : List Val → ℚ) (x : String → List Val → ℚ)
    (L : EcntLines f n x) (h : aggRun (rootStat .ecnt f) etb f p = .ok out) (hne : out ≠ []) :
    ∃ plain derived, out = plain ++ derived ∧
      (∀ pt, pt ∈ plain.map AggOut.point ↔
        ∃ as, List.Forall₂ (fun x q => x ∈ q.2) as (init ++ [sv]) ∧ ∃ i ∈ p.indyVals, ∃ st ∈ p.axis₁.stats,
          pt = as ++ [i, st]) ∧
      ∀ o ∈ plain, ∀ as i st, o.point = as ++ [i, st] →
        ∀ rows, rows = comparedRows f (init ++ [sv]) parts fix fv p.indyVar key as i st →
          (rows = [] → o.value = .none) ∧ (rows ≠ [] → EcntRootScore n x (lower st) rows o.value) :=
  run_scores _ (EcntRootScore n x) etb out R key hkey (fun s rows v hr hsub hv => by
    obtain ⟨data, hs, hv⟩ := rootStat_inv hv
    exact ecnt_root_value R.input.wf L hs hr hsub hv) h hne

/-- C248: such a run completes when no derived curves are requested and every statistic is one of RMSE, the standard
deviations, the correlation and MSESS. -/
theorem C248_completes (etb : List PyNum → List PyNum → PyNum)
    (R : OneAxisRun f p init sv parts fix fv sts rest) (pairs : List Val → List Pair) (L : Sl1l2Lines f pairs)
    (hd : p.axis₁.derived = [])
    (hs : ∀ s ∈ p.axis₁.stats, lower s ∈ ["rmse", "fstdev", "ostdev", "pr_corr", "msess"]) :
    ∃ out, aggRun (rootStat .fields f) etb f p = .ok out := by
  refine run_completes _ etb R hd (fun s hsm rows hr hsub => ?_)
  obtain ⟨data, hsd⟩ := sortData_exists R.input rows
  rw [rootStat_sorted hsd]
  exact sl_root_exists L (sorted_ne hsd hr) (fun r hr => hsub r ((sortData_spec hsd).1.mem_iff.mp hr)) (hs s hsm)

/-- C249: such a run completes when no derived curves are requested. -/
theorem C249_completes (etb : List PyNum → List PyNum → PyNum)
    (R : OneAxisRun f p init sv parts fix fv sts rest) (pairs : List Val → List Pair) (L : Sal1l2Lines f pairs)
    (hd : p.axis₁.derived = [])
    (hs : ∀ s ∈ p.axis₁.stats, lower s ∈ ["anom_corr", "anom_corr_raw", "rmsfa", "rmsoa"]) :
    ∃ out, aggRun (rootStat .fields f) etb f p = .ok out := by
  refine run_completes _ etb R hd (fun s hsm rows hr hsub => ?_)
  obtain ⟨data, hsd⟩ := sortData_exists R.input rows
  rw [rootStat_sorted hsd]
  exact sal_root_exists L (sorted_ne hsd hr) (fun r hr => hsub r ((sortData_spec hsd).1.mem_iff.mp hr)) (hs s hsm)

/-- C250: such a run completes when no derived curves are requested. -/
theorem C250_completes (etb : List PyNum → List PyNum → PyNum)
    (R : OneAxisRun f p init sv parts fix fv sts rest) (pairs : List Val → List WindPair)
    (L : WindLines vl1l2Columns f pairs) (hd : p.axis₁.derived = [])
    (hs : ∀ s ∈ p.axis₁.stats, lower s ∈ ["vl1l2_msve", "vl1l2_rmsve", "vl1l2_bias", "vl1l2_speed_err", "vcnt_msve",
      "vcnt_rmsve", "vcnt_fbar", "vcnt_obar", "vcnt_fs_rms", "vcnt_os_rms", "vcnt_fbar_speed", "vcnt_obar_speed",
      "vcnt_vdiff_speed", "vcnt_speed_err", "vcnt_speed_abserr"]) :
    ∃ out, aggRun (rootStat .fields f) etb f p = .ok out := by
  refine run_completes _ etb R hd (fun s hsm rows hr hsub => ?_)
  obtain ⟨data, hsd⟩ := sortData_exists R.input rows
  rw [rootStat_sorted hsd]
  exact wind_root_exists L (sorted_ne hsd hr) (fun r hr => hsub r ((sortData_spec hsd).1.mem_iff.mp hr)) (hs s hsm)

/-- C250: a run on VAL1L2 lines completes when no derived curves are requested. -/
theorem C250_anomalies_complete (etb : List PyNum → List PyNum → PyNum)
    (R : OneAxisRun f p init sv parts fix fv sts rest) (pairs : List Val → List WindPair)
    (L : WindLines val1l2Columns f pairs) (hd : p.axis₁.derived = [])
    (hs : ∀ s ∈ p.axis₁.stats, lower s = "val1l2_anom_corr") :
    ∃ out, aggRun (rootStat .fields f) etb f p = .ok out := by
  refine run_completes _ etb R hd (fun s hsm rows hr hsub => ?_)
  obtain ⟨data, hsd⟩ := sortData_exists R.input rows
  obtain ⟨hperm, -⟩ := sortData_spec hsd
  have D := wind_table L (sorted_ne hsd hr) (fun r hr => hsub r (hperm.mem_iff.mp hr))
  rw [hs s hsm]
  rw [rootStat_sorted hsd]
  exact ⟨_, root_real rfl (C104_val1l2_partial _ _ D)⟩

/-- C251: such a run completes when no derived curves are requested. -/
theorem C251_completes (etb : List PyNum → List PyNum → PyNum)
    (R : OneAxisRun f p init sv parts fix fv sts rest) (n : List Val → ℚ) (x : String → List Val → ℚ)
    (L : EcntLines f n x) (hd : p.axis₁.derived = [])
    (hs : ∀ s ∈ p.axis₁.stats, ∃ c ∈ ["rmse", "rmse_oerr", "spread", "spread_oerr"], lower s = "ecnt_" ++ c) :
    ∃ out, aggRun (rootStat .ecnt f) etb f p = .ok out := by
  refine run_completes _ etb R hd (fun s hsm rows hr hsub => ?_)
  obtain ⟨data, hsd⟩ := sortData_exists R.input rows
  obtain ⟨c, hc, e⟩ := hs s hsm
  rw [e]
  rw [rootStat_sorted hsd]
  exact ⟨_, ecnt_roots R.input.wf L (sortData_spec hsd).1 hr hsub hc⟩

/-- The table of a completed run has rows if any case is left by event equalization. -/
theorem run_nonempty (stat : String → List (List Val) → Except PyErr PyNum) (etb : List PyNum → List PyNum → PyNum)
    (out : List AggOut) (R : OneAxisRun f p init sv parts fix fv sts rest) (h : aggRun stat etb f p = .ok out)
    (g : Frame) (hg : p.equalize f = .ok g) (hwf : FrameWF g) (hne : g.rows ≠ [] ∧ g.cols ≠ [])
    (hpts : ∀ q ∈ requestedValues (p.config p.axis₁), q.2.length ≠ 0) : out ≠ [] := by
  have hrv := requested_eq R
  have hfd := config_fields R
  unfold aggRun at h
  rw [R.on, R.second] at h
  have ht : truthy (parseBool "True") = true := rfl
  rw [ht, if_pos rfl, hg] at h
  simp only [bind, Except.bind, List.isEmpty_nil, if_true] at h
  obtain ⟨o₁, ho, e⟩ : ∃ o₁, aggAxis stat etb g (p.config p.axis₁) = .ok o₁ ∧ o₁ = out := by
    split at h
    · simp at h
    · next o₁ ho => exact ⟨o₁, ho, by simpa using h⟩
  subst e
  obtain ⟨plain, derived, e, -, hlen, -⟩ := C99_rows stat etb g (p.config p.axis₁) o₁ hwf hne hfd (by
    rw [hrv]
    intro q hq v hv
    rcases List.mem_append.mp hq with hq | hq
    · rcases List.mem_append.mp hq with hq | hq
      · exact ⟨⟨_, standsFor_group (R.groups q hq v hv).1 (R.groups q hq v hv).2⟩, R.plain.1 q hq v hv⟩
      · simp only [List.mem_singleton] at hq
        subst hq
        exact ⟨R.indy.2 v hv, R.plain.2.1 v hv⟩
    · simp only [List.mem_singleton] at hq
      subst hq
      exact ⟨⟨_, plain_standsFor (R.stats v hv).2.1 (R.stats v hv).2.2.1⟩, R.plain.2.2 v hv⟩) ho
  intro hc
  have hp : plain = [] := by
    rw [hc] at e
    exact (List.append_eq_nil_iff.mp e.symm).1
  rw [hp] at hlen
  have h0 : (0 : ℕ) ∈ (requestedValues (p.config p.axis₁)).map (fun q => q.2.length) :=
    List.prod_eq_zero_iff.mp hlen.symm
  obtain ⟨q, hq, hz⟩ := List.mem_map.mp h0
  exact hpts q hq hz

end

/-! ### Examples -/

/-- The pairs behind the lines of the examples. -/
def exRootPairs (r : List Val) : List Pair :=
  if cellAt r 0 = .str "t2" then [(9, 1)]
  else if cellAt r 0 = .str "t1" then
    if cellAt r 2 = .str "A" then [(2, 1), (4, 3)] else [(1, 1), (3, 3)]
  else if cellAt r 2 = .str "A" then [(3, 2)] else [(8, 2)]

/-- SL1L2 lines (and MAE). -/
def exRootSl (stat : String) : Frame := exLines ["total", "fbar", "obar", "fobar", "ffbar", "oobar", "mae"] stat
  [("t1", "A", [2, 3, 2, 7, 10, 5, 1]), ("t2", "A", [1, 9, 1, 9, 81, 1, 8]), ("t1", "B", [2, 2, 2, 5, 5, 5, 0]),
   ("t3", "A", [1, 3, 2, 6, 9, 4, 1]), ("t3", "B", [1, 8, 2, 16, 64, 4, 6])]

theorem exRootSl_lines : Sl1l2Lines (exRootSl "RMSE") exRootPairs where
  batch := by decide +kernel
  total := exLines_number 5 rfl (by decide +kernel) (by decide +kernel)
  fbar := exLines_number 6 rfl (by decide +kernel) (by decide +kernel)
  obar := exLines_number 7 rfl (by decide +kernel) (by decide +kernel)
  fobar := exLines_number 8 rfl (by decide +kernel) (by decide +kernel)
  ffbar := exLines_number 9 rfl (by decide +kernel) (by decide +kernel)
  oobar := exLines_number 10 rfl (by decide +kernel) (by decide +kernel)

theorem exRootSl_input : OneAxisRun (exRootSl "RMSE") (exLinesParams "RMSE") [] ("model", ["A", "B"]) (fun v => [v]) []
    "TMP" ["RMSE"] [] :=
  exLines_input (by unfold FrameWF; decide +kernel) (by decide)
    ⟨by decide, by decide, plainText_of (by decide) (by decide) (by decide)⟩ (by decide +kernel)

example : ∃ out, aggRun (rootStat .fields (exRootSl "RMSE")) (fun _ _ => .none) (exRootSl "RMSE")
    (exLinesParams "RMSE") = .ok out ∧ out ≠ [] ∧ ∃ plain derived, out = plain ++ derived := by
  obtain ⟨out, h⟩ := C248_completes (fun _ _ => .none) exRootSl_input exRootPairs exRootSl_lines rfl (by decide +kernel)
  have hne := run_nonempty _ _ _ exRootSl_input h _ rfl (by unfold FrameWF; decide +kernel) (by decide +kernel)
    (by decide +kernel)
  obtain ⟨plain, derived, e, -⟩ := C248_scores _ _ exRootSl_input exRunKey (exLines_key _ _ _) _ exRootSl_lines h hne
  obtain ⟨-, -, -, -⟩ := C248_mae _ _ exRootSl_input exRunKey (exLines_key _ _ _) _ exRootSl_lines
    (exLines_number 11 rfl (by decide +kernel) (by decide +kernel)) h hne
  exact ⟨out, h, hne, plain, derived, e⟩

/-- SAL1L2 lines. -/
def exRootSal : Frame := exLines ["total", "fabar", "oabar", "foabar", "ffabar", "ooabar"] "ANOM_CORR"
  [("t1", "A", [2, 3, 2, 7, 10, 5]), ("t2", "A", [1, 9, 1, 9, 81, 1]), ("t1", "B", [2, 2, 2, 5, 5, 5]),
   ("t3", "A", [1, 3, 2, 6, 9, 4]), ("t3", "B", [1, 8, 2, 16, 64, 4])]

theorem exRootSal_lines : Sal1l2Lines exRootSal exRootPairs where
  batch := by decide +kernel
  total := exLines_number 5 rfl (by decide +kernel) (by decide +kernel)
  fabar := exLines_number 6 rfl (by decide +kernel) (by decide +kernel)
  oabar := exLines_number 7 rfl (by decide +kernel) (by decide +kernel)
  foabar := exLines_number 8 rfl (by decide +kernel) (by decide +kernel)
  ffabar := exLines_number 9 rfl (by decide +kernel) (by decide +kernel)
  ooabar := exLines_number 10 rfl (by decide +kernel) (by decide +kernel)

theorem exRootSal_input : OneAxisRun exRootSal (exLinesParams "ANOM_CORR") [] ("model", ["A", "B"]) (fun v => [v]) [] "TMP"
    ["ANOM_CORR"] [] :=
  exLines_input (by unfold FrameWF; decide +kernel) (by decide)
    ⟨by decide, by decide, plainText_of (by decide) (by decide) (by decide)⟩ (by decide +kernel)

example : ∃ out, aggRun (rootStat .fields exRootSal) (fun _ _ => .none) exRootSal (exLinesParams "ANOM_CORR") = .ok out ∧
    out ≠ [] ∧ ∃ plain derived, out = plain ++ derived := by
  obtain ⟨out, h⟩ := C249_completes (fun _ _ => .none) exRootSal_input exRootPairs exRootSal_lines rfl
    (by decide +kernel)
  have hne := run_nonempty _ _ _ exRootSal_input h _ rfl (by unfold FrameWF; decide +kernel) (by decide +kernel)
    (by decide +kernel)
  obtain ⟨plain, derived, e, -⟩ := C249_scores _ _ exRootSal_input exRunKey (exLines_key _ _ _) _ exRootSal_lines h hne
  exact ⟨out, h, hne, plain, derived, e⟩

/-- The wind vectors behind the lines of the examples (uf, vf, uo, vo and the speeds). -/
def exRootWinds (r : List Val) : List WindPair :=
  if cellAt r 0 = .str "t2" then [⟨1, 0, 1, 0, 1, 1⟩]
  else if cellAt r 0 = .str "t1" then
    if cellAt r 2 = .str "A" then [⟨3, 4, 0, 0, 5, 0⟩] else [⟨0, 0, 0, 0, 0, 0⟩]
  else [⟨0, 0, 3, 4, 0, 5⟩, ⟨3, 4, 3, 4, 5, 5⟩]

def exRootWindLines : List (String × String × List ℚ) :=
  [("t1", "A", [1, 3, 4, 0, 0, 0, 25, 0, 5, 0]),
   ("t2", "A", [1, 1, 0, 1, 0, 1, 1, 1, 1, 1]),
   ("t1", "B", [1, 0, 0, 0, 0, 0, 0, 0, 0, 0]),
   ("t3", "A", [2, 3/2, 2, 3, 4, 25/2, 25/2, 25, 5/2, 5]),
   ("t3", "B", [2, 3/2, 2, 3, 4, 25/2, 25/2, 25, 5/2, 5])]

/-- VL1L2 lines. -/
def exRootVl : Frame := exLines ("total" :: vl1l2Columns) "VL1L2_RMSVE" exRootWindLines

theorem exRootVl_lines : WindLines vl1l2Columns exRootVl exRootWinds where
  batch := by decide +kernel
  total := exLines_number 5 rfl (by decide +kernel) (by decide +kernel)
  field := by
    intro c hc
    have h : ∀ c ∈ vl1l2Columns, exRootVl.cols[6 + vl1l2Columns.idxOf c]? = some c ∧
        (∀ j < 6 + vl1l2Columns.idxOf c, exRootVl.cols[j]? ≠ some c) ∧
        ∀ r ∈ exRootVl.rows, numberOf (cellAt r (6 + vl1l2Columns.idxOf c)) = some (avg (windSum c) (exRootWinds r)) := by
      decide +kernel
    obtain ⟨h1, h2, h3⟩ := h c hc
    exact exLines_number _ h1 h2 h3

theorem exRootVl_input : OneAxisRun exRootVl (exLinesParams "VL1L2_RMSVE") [] ("model", ["A", "B"]) (fun v => [v]) [] "TMP"
    ["VL1L2_RMSVE"] [] :=
  exLines_input (by unfold FrameWF; decide +kernel) (by decide)
    ⟨by decide, by decide, plainText_of (by decide) (by decide) (by decide)⟩ (by decide +kernel)

example : ∃ out, aggRun (rootStat .fields exRootVl) (fun _ _ => .none) exRootVl (exLinesParams "VL1L2_RMSVE") = .ok out ∧
    out ≠ [] ∧ ∃ plain derived, out = plain ++ derived := by
  obtain ⟨out, h⟩ := C250_completes (fun _ _ => .none) exRootVl_input exRootWinds exRootVl_lines rfl (by decide +kernel)
  have hne := run_nonempty _ _ _ exRootVl_input h _ rfl (by unfold FrameWF; decide +kernel) (by decide +kernel)
    (by decide +kernel)
  obtain ⟨plain, derived, e, -⟩ := C250_scores _ _ exRootVl_input exRunKey (exLines_key _ _ _) _ exRootVl_lines h hne
  exact ⟨out, h, hne, plain, derived, e⟩

/-- VAL1L2 lines. -/
def exRootVal : Frame := exLines ("total" :: val1l2Columns) "VAL1L2_ANOM_CORR" exRootWindLines

theorem exRootVal_lines : WindLines val1l2Columns exRootVal exRootWinds where
  batch := by decide +kernel
  total := exLines_number 5 rfl (by decide +kernel) (by decide +kernel)
  field := by
    intro c hc
    have h : ∀ c ∈ val1l2Columns, exRootVal.cols[6 + val1l2Columns.idxOf c]? = some c ∧
        (∀ j < 6 + val1l2Columns.idxOf c, exRootVal.cols[j]? ≠ some c) ∧
        ∀ r ∈ exRootVal.rows, numberOf (cellAt r (6 + val1l2Columns.idxOf c)) = some (avg (windSum c) (exRootWinds r)) := by
      decide +kernel
    obtain ⟨h1, h2, h3⟩ := h c hc
    exact exLines_number _ h1 h2 h3

theorem exRootVal_input : OneAxisRun exRootVal (exLinesParams "VAL1L2_ANOM_CORR") [] ("model", ["A", "B"]) (fun v => [v]) [] "TMP"
    ["VAL1L2_ANOM_CORR"] [] :=
  exLines_input (by unfold FrameWF; decide +kernel) (by decide)
    ⟨by decide, by decide, plainText_of (by decide) (by decide) (by decide)⟩ (by decide +kernel)

example : ∃ out, aggRun (rootStat .fields exRootVal) (fun _ _ => .none) exRootVal (exLinesParams "VAL1L2_ANOM_CORR") = .ok out ∧
    out ≠ [] ∧ ∃ plain derived, out = plain ++ derived := by
  obtain ⟨out, h⟩ := C250_anomalies_complete (fun _ _ => .none) exRootVal_input exRootWinds exRootVal_lines rfl
    (by decide +kernel)
  have hne := run_nonempty _ _ _ exRootVal_input h _ rfl (by unfold FrameWF; decide +kernel) (by decide +kernel)
    (by decide +kernel)
  obtain ⟨plain, derived, e, -⟩ := C250_anomalies _ _ exRootVal_input exRunKey (exLines_key _ _ _) _ exRootVal_lines h hne
  exact ⟨out, h, hne, plain, derived, e⟩

/-- ECNT lines. -/
def exRootEcnt : Frame := exLines ("total" :: ecntColumns) "ECNT_RMSE"
  [("t1", "A", [1, 2, 1, 1, 1, 3, 1, 4, 2, 4, 1, 1, 1, 1, 1, 1, 1, 1, 2, 1, -3]),
   ("t1", "B", [1, 3, 1, 1, 1, 3, 2, 4, 2, 4, 1, 1, 1, 1, 1, 1, 1, 1, 2, 1, -3]),
   ("t3", "B", [3, 1, 1, 1, 1, 3, 4, 8, 2, 8, 1, 1, 1, 1, 1, 1, 1, 3, 2, 2, -4]),
   ("t3", "A", [3, 4, 1, 1, 1, 3, 3, 8, 2, 8, 1, 1, 1, 1, 1, 1, 1, 3, 2, 2, -4])]

theorem exRootEcnt_lines : EcntLines exRootEcnt (exNum 5) exEcntField where
  pos := by decide +kernel
  total := exLines_number 5 rfl (by decide +kernel) (by decide +kernel)
  field := by
    intro c hc
    have h : ∀ c ∈ ecntColumns, exRootEcnt.cols[6 + ecntColumns.idxOf c]? = some c ∧
        (∀ j < 6 + ecntColumns.idxOf c, exRootEcnt.cols[j]? ≠ some c) ∧
        ∀ r ∈ exRootEcnt.rows, numberOf (cellAt r (6 + ecntColumns.idxOf c)) = some (exEcntField c r) := by decide +kernel
    obtain ⟨h1, h2, h3⟩ := h c hc
    exact exLines_number _ h1 h2 h3

theorem exRootEcnt_input : OneAxisRun exRootEcnt (exLinesParams "ECNT_RMSE") [] ("model", ["A", "B"]) (fun v => [v]) [] "TMP"
    ["ECNT_RMSE"] [] :=
  exLines_input (by unfold FrameWF; decide +kernel) (by decide)
    ⟨by decide, by decide, plainText_of (by decide) (by decide) (by decide)⟩ (by decide +kernel)

example : ∃ out, aggRun (rootStat .ecnt exRootEcnt) (fun _ _ => .none) exRootEcnt (exLinesParams "ECNT_RMSE") = .ok out ∧
    out ≠ [] ∧ ∃ plain derived, out = plain ++ derived := by
  obtain ⟨out, h⟩ := C251_completes (fun _ _ => .none) exRootEcnt_input _ _ exRootEcnt_lines rfl (by decide +kernel)
  have hne := run_nonempty _ _ _ exRootEcnt_input h _ rfl (by unfold FrameWF; decide +kernel) (by decide +kernel)
    (by decide +kernel)
  obtain ⟨plain, derived, e, -⟩ := C251_scores _ _ exRootEcnt_input exRunKey (exLines_key _ _ _) _ _ exRootEcnt_lines h hne
  exact ⟨out, h, hne, plain, derived, e⟩

end Metcalcpy.Props
