/-
C68  Vector partial sums give the statistics of the pooled wind vectors (false for FSPD and OSPD).
-/
import Verif.Model.Vector
import Verif.Spec.Vector
import Verif.Lemmas.Pairs
import Verif.Lemmas.SetCol
import Verif.Lemmas.Round
import Mathlib.Analysis.Real.Pi.Bounds
import Mathlib.Tactic.Positivity

namespace Metcalcpy.Props
open Metcalcpy Spec

/-- A prepared table: column means are means over the pool. -/
theorem batch_prepared {α : Type} {g : String → α → ℚ} {cols : List String} {t : Table}
    {bs : List (List α)} (D : BatchData g cols t bs) (stat : String) (fields : List String)
    (hf : fieldsOf stat = some fields) (hnd : fields.Nodup) (hnt : "total" ∉ fields)
    (hsub : ∀ c ∈ fields, c ∈ cols) :
    ∃ t', prepareFields t (fieldsOf stat) = .ok t' ∧ sumColumn t' "total" = some (bs.flatten.length : ℚ) ∧
      (∀ c ∈ fields, sumColumn t' c = some (bs.flatten.map (g c)).sum) ∧
      (∀ c ∈ fields, colMean c t' true = some (avg (g c) bs.flatten)) ∧
      0 < (bs.flatten.length : ℚ) := by
  obtain ⟨t', h1, -, h2, h3, h4⟩ := prepared_sums D.rows_ne D.batch_ne D.total g fields hnd hnt
    (fun c hc => D.field c (hsub c hc))
  refine ⟨t', by rw [hf, h1], h2, h3, fun c hc => ?_, h4⟩
  simp only [colMean, getTotalValues, h2, h3 c hc, bind, Option.bind, if_true, pyDiv, h4.ne', if_false, avg]

theorem aggregated_eq {α : Type} {stat : String} {calculate : Table → Bool → α} {t t' : Table}
    (h : prepareFields t (fieldsOf stat) = .ok t') :
    aggregated stat calculate t = .ok (calculate t' true) := by
  simp only [aggregated, h, bind, Except.bind, pure, Except.pure]

section sums
variable {α : Type} (P : List α)

theorem avg_add (g h : α → ℚ) : avg (fun p => g p + h p) P = avg g P + avg h P := by
  unfold avg; rw [sum_map_add', add_div]
theorem avg_sub (g h : α → ℚ) : avg (fun p => g p - h p) P = avg g P - avg h P := by
  unfold avg; rw [sum_map_sub', sub_div]
theorem avg_smul (c : ℚ) (g : α → ℚ) : avg (fun p => c * g p) P = c * avg g P := by
  unfold avg; rw [sum_map_mul_left', mul_div_assoc]
theorem avg_const (hp : 0 < (P.length : ℚ)) (c : ℚ) : avg (fun _ => c) P = c := by
  unfold avg; rw [sum_map_const', mul_div_assoc, mul_div_cancel₀ _ hp.ne']
theorem avg_nonneg {g : α → ℚ} (h : ∀ p ∈ P, 0 ≤ g p) : 0 ≤ avg g P := by
  refine div_nonneg (List.sum_nonneg ?_) (by positivity)
  intro x hx
  obtain ⟨p, hp, rfl⟩ := List.mem_map.mp hx
  exact h p hp
theorem avg_le {g h : α → ℚ} (hl : ∀ p ∈ P, g p ≤ h p) : avg g P ≤ avg h P := by
  have := avg_nonneg P (g := fun p => h p - g p) (fun p hp => by have := hl p hp; linarith)
  rw [avg_sub] at this; linarith
theorem avg_congr {g h : α → ℚ} (hl : ∀ p ∈ P, g p = h p) : avg g P = avg h P := by
  unfold avg; rw [List.map_congr_left hl]

end sums

/-! ### C68 -/

/-- Mean squared length of the vector difference, mean speeds and mean squared speeds of the pool. -/
def vectorMse (P : List WindPair) : ℚ :=
  avg (fun p => (p.uf - p.uo) ^ 2 + (p.vf - p.vo) ^ 2) P
def meanSqF (P : List WindPair) : ℚ := avg (fun p => p.uf ^ 2 + p.vf ^ 2) P
def meanSqO (P : List WindPair) : ℚ := avg (fun p => p.uo ^ 2 + p.vo ^ 2) P

theorem windSum_msve (P : List WindPair) :
    avg (windSum "uvffbar") P - 2 * avg (windSum "uvfobar") P + avg (windSum "uvoobar") P =
      vectorMse P := by
  rw [← avg_smul, ← avg_sub, ← avg_add]
  refine avg_congr P (fun p _ => ?_)
  simp only [windSum]; ring

theorem windSum_ff (P : List WindPair) : avg (windSum "uvffbar") P = meanSqF P :=
  avg_congr P (fun p _ => by simp only [windSum]; ring)
theorem windSum_oo (P : List WindPair) : avg (windSum "uvoobar") P = meanSqO P :=
  avg_congr P (fun p _ => by simp only [windSum]; ring)

theorem vectorMse_nonneg (P : List WindPair) : 0 ≤ vectorMse P :=
  avg_nonneg P (fun p _ => by positivity)
theorem meanSqF_nonneg (P : List WindPair) : 0 ≤ meanSqF P := avg_nonneg P (fun p _ => by positivity)
theorem meanSqO_nonneg (P : List WindPair) : 0 ≤ meanSqO P := avg_nonneg P (fun p _ => by positivity)

/-- C68: MSVE and RMSVE (VL1L2 and VCNT) of a group are those of the pooled vectors. -/
theorem C68_msve_partial (t : Table) (bs : List (List WindPair)) (D : Vl1l2Data t bs)
    (pre : String) (hp : pre = "vl1l2" ∨ pre = "vcnt") :
    aggregated (pre ++ "_msve") vlMsve t = .ok (some (roundHalfUp (vectorMse bs.flatten) 7)) ∧
    aggregated (pre ++ "_rmsve") vlRmsve t =
      .ok (some (roundHalfUp (Real.sqrt ((roundHalfUp (vectorMse bs.flatten) 7 : ℚ) : ℝ)) 7)) := by
  have key : ∀ stat, fieldsOf stat = some ["uvffbar", "uvfobar", "uvoobar"] →
      ∃ t', prepareFields t (fieldsOf stat) = .ok t' ∧
        vlMsve t' true = some (roundHalfUp (vectorMse bs.flatten) 7) := by
    intro stat hs
    obtain ⟨t', h1, -, -, h3, -⟩ := batch_prepared D stat _ hs (by decide) (by decide) (by decide)
    refine ⟨t', h1, ?_⟩
    have hn := vectorMse_nonneg bs.flatten
    have e := windSum_msve bs.flatten
    generalize bs.flatten = P at *
    simp only [vlMsve, h3 "uvffbar" (by simp), h3 "uvfobar" (by simp), h3 "uvoobar" (by simp), bind,
      Option.bind]
    rw [e, if_neg (not_lt.mpr hn)]; rfl
  have hs : fieldsOf (pre ++ "_msve") = some ["uvffbar", "uvfobar", "uvoobar"] ∧
      fieldsOf (pre ++ "_rmsve") = some ["uvffbar", "uvfobar", "uvoobar"] := by
    rcases hp with rfl | rfl <;> exact ⟨by decide +kernel, by decide +kernel⟩
  constructor
  · obtain ⟨t', h1, h2⟩ := key _ hs.1
    rw [aggregated_eq h1, h2]
  · obtain ⟨t', h1, h2⟩ := key _ hs.2
    rw [aggregated_eq h1]
    have hn : ¬ roundHalfUp (vectorMse bs.flatten) 7 < 0 :=
      not_lt.mpr (round7_nonneg (vectorMse_nonneg _))
    simp only [vlRmsve, h2, bind, Option.bind, hn, if_false]; rfl

/-- C68: the mean speeds, root mean square speeds and the VL1L2 bias of a group are those of the pooled
vectors. -/
theorem C68_speeds_partial (t : Table) (bs : List (List WindPair)) (D : Vl1l2Data t bs) :
    aggregated "vcnt_fbar" (weightedAverage "f_speed_bar") t =
      .ok (some (roundHalfUp (avg WindPair.fs bs.flatten) 7)) ∧
    aggregated "vcnt_obar" (weightedAverage "o_speed_bar") t =
      .ok (some (roundHalfUp (avg WindPair.os bs.flatten) 7)) ∧
    aggregated "vcnt_fs_rms" (vcntRms "uvffbar") t =
      .ok (some (roundHalfUp (Real.sqrt (meanSqF bs.flatten : ℝ)) 7)) ∧
    aggregated "vcnt_os_rms" (vcntRms "uvoobar") t =
      .ok (some (roundHalfUp (Real.sqrt (meanSqO bs.flatten : ℝ)) 7)) ∧
    aggregated "vl1l2_bias" vlBias t =
      .ok (some (roundHalfUp (Real.sqrt (meanSqF bs.flatten : ℝ) - Real.sqrt (meanSqO bs.flatten : ℝ)) 7)) := by
  have nf := meanSqF_nonneg bs.flatten
  have no := meanSqO_nonneg bs.flatten
  have ef := windSum_ff bs.flatten
  have eo := windSum_oo bs.flatten
  refine ⟨?_, ?_, ?_, ?_, ?_⟩
  · obtain ⟨t', h1, -, -, h3, -⟩ := batch_prepared D "vcnt_fbar" ["f_speed_bar"] rfl (by decide) (by decide)
      (by decide)
    rw [aggregated_eq h1]
    simp only [weightedAverage, h3 _ (List.mem_singleton.mpr rfl), bind, Option.bind]; rfl
  · obtain ⟨t', h1, -, -, h3, -⟩ := batch_prepared D "vcnt_obar" ["o_speed_bar"] rfl (by decide) (by decide)
      (by decide)
    rw [aggregated_eq h1]
    simp only [weightedAverage, h3 _ (List.mem_singleton.mpr rfl), bind, Option.bind]; rfl
  · obtain ⟨t', h1, -, -, h3, -⟩ := batch_prepared D "vcnt_fs_rms" ["uvffbar"] rfl (by decide) (by decide)
      (by decide)
    rw [aggregated_eq h1]
    simp only [vcntRms, h3 _ (List.mem_singleton.mpr rfl), bind, Option.bind, ef, not_lt.mpr nf, if_false]
    rfl
  · obtain ⟨t', h1, -, -, h3, -⟩ := batch_prepared D "vcnt_os_rms" ["uvoobar"] rfl (by decide) (by decide)
      (by decide)
    rw [aggregated_eq h1]
    simp only [vcntRms, h3 _ (List.mem_singleton.mpr rfl), bind, Option.bind, eo, not_lt.mpr no, if_false]
    rfl
  · obtain ⟨t', h1, -, -, h3, -⟩ := batch_prepared D "vl1l2_bias" ["uvffbar", "uvoobar"] rfl (by decide)
      (by decide) (by decide)
    rw [aggregated_eq h1]
    simp only [vlBias, h3 "uvffbar" (by simp), h3 "uvoobar" (by simp), bind, Option.bind, ef, eo,
      not_lt.mpr nf, not_lt.mpr no, or_self, if_false]
    rfl

/-- C68: if the recorded speeds are the vector lengths, FVAR and OVAR of a group are the variances of the
pooled speeds (never negative), and FSTDEV, OSTDEV their roots. -/
theorem C68_variance_partial (t : Table) (bs : List (List WindPair)) (D : Vl1l2Data t bs)
    (hf : ∀ p ∈ bs.flatten, p.fs ^ 2 = p.uf ^ 2 + p.vf ^ 2)
    (ho : ∀ p ∈ bs.flatten, p.os ^ 2 = p.uo ^ 2 + p.vo ^ 2) :
    aggregated "vl1l2_fvar" vlFvar t =
      .ok (some (roundHalfUp (avg (fun p => (p.fs - avg WindPair.fs bs.flatten) ^ 2) bs.flatten) 7)) ∧
    aggregated "vl1l2_ovar" vlOvar t =
      .ok (some (roundHalfUp (avg (fun p => (p.os - avg WindPair.os bs.flatten) ^ 2) bs.flatten) 7)) ∧
    aggregated "vcnt_fstdev" (vcntStdev "uvffbar" "f_speed_bar") t = .ok (some (roundHalfUp (Real.sqrt
      ((roundHalfUp (avg (fun p => (p.fs - avg WindPair.fs bs.flatten) ^ 2) bs.flatten) 7 : ℚ) : ℝ)) 7)) ∧
    aggregated "vcnt_ostdev" (vcntStdev "uvoobar" "o_speed_bar") t = .ok (some (roundHalfUp (Real.sqrt
      ((roundHalfUp (avg (fun p => (p.os - avg WindPair.os bs.flatten) ^ 2) bs.flatten) 7 : ℚ) : ℝ)) 7)) := by
  have var : ∀ (P : List WindPair) (s : WindPair → ℚ) (q : WindPair → ℚ), 0 < (P.length : ℚ) →
      (∀ p ∈ P, s p ^ 2 = q p) →
      avg q P - avg s P * avg s P = avg (fun p => (s p - avg s P) ^ 2) P := by
    intro P s q hp h
    have : avg (fun p => (s p - avg s P) ^ 2) P =
        avg (fun p => q p - 2 * avg s P * s p + avg s P ^ 2) P :=
      avg_congr P (fun p hp => by rw [← h p hp]; ring)
    rw [this, avg_add, avg_sub, avg_smul, avg_const P hp]; ring
  have key : ∀ stat sqc spc (s : WindPair → ℚ) (q : WindPair → ℚ), fieldsOf stat = some [sqc, spc] →
      sqc ≠ spc → sqc ≠ "total" → spc ≠ "total" → sqc ∈ vl1l2Columns → spc ∈ vl1l2Columns →
      windSum spc = s → windSum sqc = q → (∀ p ∈ bs.flatten, s p ^ 2 = q p) →
      ∃ t', prepareFields t (fieldsOf stat) = .ok t' ∧ vlVar sqc spc t' true =
        some (roundHalfUp (avg (fun p => (s p - avg s bs.flatten) ^ 2) bs.flatten) 7) := by
    intro stat sqc spc s q hs hne h1 h2 h3 h4 es eq hq
    obtain ⟨t', e1, -, -, e3, e4⟩ := batch_prepared D stat _ hs (by simp [hne])
      (by simp [Ne.symm h1, Ne.symm h2]) (by simp [h3, h4])
    refine ⟨t', e1, ?_⟩
    simp only [vlVar, e3 sqc (by simp), e3 spc (by simp), bind, Option.bind, es, eq,
      var bs.flatten s q e4 hq]; rfl
  have hf' : ∀ p ∈ bs.flatten, p.fs ^ 2 = windSum "uvffbar" p := by
    intro p hp; rw [hf p hp]; simp only [windSum]; ring
  have ho' : ∀ p ∈ bs.flatten, p.os ^ 2 = windSum "uvoobar" p := by
    intro p hp; rw [ho p hp]; simp only [windSum]; ring
  have nn : ∀ (s : WindPair → ℚ), ¬ roundHalfUp
      (avg (fun p => (s p - avg s bs.flatten) ^ 2) bs.flatten) 7 < 0 :=
    fun s => not_lt.mpr (round7_nonneg (avg_nonneg _ (fun p _ => by positivity)))
  refine ⟨?_, ?_, ?_, ?_⟩
  · obtain ⟨t', h1, h2⟩ := key "vl1l2_fvar" "uvffbar" "f_speed_bar" WindPair.fs _ rfl (by decide) (by decide)
      (by decide) (by decide) (by decide) rfl rfl hf'
    rw [aggregated_eq h1, vlFvar, h2]
  · obtain ⟨t', h1, h2⟩ := key "vl1l2_ovar" "uvoobar" "o_speed_bar" WindPair.os _ rfl (by decide) (by decide)
      (by decide) (by decide) (by decide) rfl rfl ho'
    rw [aggregated_eq h1, vlOvar, h2]
  · obtain ⟨t', h1, h2⟩ := key "vcnt_fstdev" "uvffbar" "f_speed_bar" WindPair.fs _ rfl (by decide) (by decide)
      (by decide) (by decide) (by decide) rfl rfl hf'
    rw [aggregated_eq h1]
    simp only [vcntStdev, h2, bind, Option.bind, nn WindPair.fs, if_false]; rfl
  · obtain ⟨t', h1, h2⟩ := key "vcnt_ostdev" "uvoobar" "o_speed_bar" WindPair.os _ rfl (by decide) (by decide)
      (by decide) (by decide) (by decide) rfl rfl ho'
    rw [aggregated_eq h1]
    simp only [vcntStdev, h2, bind, Option.bind, nn WindPair.os, if_false]; rfl

/-- Lengths of the mean vectors of the pool. -/
noncomputable def meanSpeedF (P : List WindPair) : ℝ :=
  Real.sqrt ((avg WindPair.uf P : ℝ) ^ 2 + (avg WindPair.vf P : ℝ) ^ 2)
noncomputable def meanSpeedO (P : List WindPair) : ℝ :=
  Real.sqrt ((avg WindPair.uo P : ℝ) ^ 2 + (avg WindPair.vo P : ℝ) ^ 2)

theorem vlSpeed_of {t : Table} {u v : String} {a : Bool} {x y : ℚ} (hx : colMean u t a = some x)
    (hy : colMean v t a = some y) :
    vlSpeed u v t a = some (roundHalfUp (Real.sqrt ((x : ℝ) ^ 2 + (y : ℝ) ^ 2)) 7) := by
  simp only [vlSpeed, hx, hy, bind, Option.bind, calcSpeed, pow_two]; rfl

/-- C68: the speed error of a group is the difference of the lengths of the pooled mean vectors. -/
theorem C68_speed_err_partial (t : Table) (bs : List (List WindPair)) (D : Vl1l2Data t bs)
    (stat : String) (hs : stat = "vl1l2_speed_err" ∨ stat = "vcnt_speed_err") :
    aggregated stat vlSpeedErr t = .ok (some (roundHalfUp
      (roundHalfUp (meanSpeedF bs.flatten) 7 - roundHalfUp (meanSpeedO bs.flatten) 7) 7)) := by
  have hf : fieldsOf stat = some ["ufbar", "vfbar", "uobar", "vobar"] := by
    rcases hs with rfl | rfl <;> decide +kernel
  obtain ⟨t', h1, -, -, h3, -⟩ := batch_prepared D stat _ hf (by decide) (by decide) (by decide)
  rw [aggregated_eq h1]
  simp only [vlSpeedErr, vlFspd, vlOspd, vlSpeed_of (h3 "ufbar" (by simp)) (h3 "vfbar" (by simp)),
    vlSpeed_of (h3 "uobar" (by simp)) (h3 "vobar" (by simp)), bind, Option.bind]
  rfl

/-- C68: the lengths of the pooled mean vectors, of their difference, and the absolute speed error (VCNT). -/
theorem C68_mean_vectors_partial (t : Table) (bs : List (List WindPair)) (D : Vl1l2Data t bs) :
    aggregated "vcnt_fbar_speed" vlFspd t = .ok (some (roundHalfUp (meanSpeedF bs.flatten) 7)) ∧
    aggregated "vcnt_obar_speed" vlOspd t = .ok (some (roundHalfUp (meanSpeedO bs.flatten) 7)) ∧
    aggregated "vcnt_vdiff_speed" vcntVdiffSpeed t = .ok (some (roundHalfUp (Real.sqrt
      ((avg (fun p => p.uf - p.uo) bs.flatten : ℝ) ^ 2 + (avg (fun p => p.vf - p.vo) bs.flatten : ℝ) ^ 2)) 7)) ∧
    aggregated "vcnt_speed_abserr" vcntSpeedAbserr t = .ok (some (roundHalfUp
      |roundHalfUp (roundHalfUp (meanSpeedF bs.flatten) 7 - roundHalfUp (meanSpeedO bs.flatten) 7) 7| 7)) := by
  refine ⟨?_, ?_, ?_, ?_⟩
  · obtain ⟨t', h1, -, -, h3, -⟩ := batch_prepared D "vcnt_fbar_speed" ["ufbar", "vfbar"] rfl (by decide) (by decide)
      (by decide)
    rw [aggregated_eq h1, vlFspd, vlSpeed_of (h3 "ufbar" (by simp)) (h3 "vfbar" (by simp))]
    rfl
  · obtain ⟨t', h1, -, -, h3, -⟩ := batch_prepared D "vcnt_obar_speed" ["uobar", "vobar"] rfl (by decide) (by decide)
      (by decide)
    rw [aggregated_eq h1, vlOspd, vlSpeed_of (h3 "uobar" (by simp)) (h3 "vobar" (by simp))]
    rfl
  · obtain ⟨t', h1, -, -, h3, -⟩ := batch_prepared D "vcnt_vdiff_speed" ["ufbar", "uobar", "vfbar", "vobar"] rfl
      (by decide) (by decide) (by decide)
    rw [aggregated_eq h1, avg_sub, avg_sub]
    simp only [vcntVdiffSpeed, h3 "ufbar" (by simp), h3 "uobar" (by simp), h3 "vfbar" (by simp), h3 "vobar" (by simp),
      bind, Option.bind, calcSpeed, ← pow_two]
    rfl
  · obtain ⟨t', h1, -, -, h3, -⟩ := batch_prepared D "vcnt_speed_abserr" ["ufbar", "vfbar", "uobar", "vobar"] rfl
      (by decide) (by decide) (by decide)
    rw [aggregated_eq h1]
    simp only [vcntSpeedAbserr, vlSpeedErr, vlFspd, vlOspd, vlSpeed_of (h3 "ufbar" (by simp)) (h3 "vfbar" (by simp)),
      vlSpeed_of (h3 "uobar" (by simp)) (h3 "vobar" (by simp)), bind, Option.bind]
    rfl

/-- Two batches of winds: one pair, and two pairs. -/
def windBatches : List (List WindPair) :=
  [[⟨3, 4, 3, 4, 5, 5⟩], [⟨3, 4, 0, 0, 5, 0⟩, ⟨3, 4, 0, 0, 5, 0⟩]]

def windTable : Table :=
  { cols := ["total", "ufbar", "vfbar", "uobar", "vobar", "uvfobar", "uvffbar", "uvoobar", "f_speed_bar",
      "o_speed_bar"]
    rows := [[some 1, some 3, some 4, some 3, some 4, some 25, some 25, some 25, some 5, some 5],
             [some 2, some 3, some 4, some 0, some 0, some 0, some 25, some 0, some 5, some 0]] }

theorem windTable_data : Vl1l2Data windTable windBatches where
  rows_ne := by decide
  batch_ne := by decide
  total := ⟨0, by decide, by decide, by decide +kernel⟩
  field := by
    intro c hc
    simp only [vl1l2Columns, List.mem_cons, List.not_mem_nil, or_false] at hc
    rcases hc with rfl | rfl | rfl | rfl | rfl | rfl | rfl | rfl | rfl
    · exact ⟨1, by decide, by decide, by decide +kernel⟩
    · exact ⟨2, by decide, by decide, by decide +kernel⟩
    · exact ⟨3, by decide, by decide, by decide +kernel⟩
    · exact ⟨4, by decide, by decide, by decide +kernel⟩
    · exact ⟨5, by decide, by decide, by decide +kernel⟩
    · exact ⟨6, by decide, by decide, by decide +kernel⟩
    · exact ⟨7, by decide, by decide, by decide +kernel⟩
    · exact ⟨8, by decide, by decide, by decide +kernel⟩
    · exact ⟨9, by decide, by decide, by decide +kernel⟩

/-- The hypotheses of C68 are satisfiable: pooled MSVE 50/3. -/
example : aggregated "vl1l2_msve" vlMsve windTable = .ok (some (roundHalfUp (50 / 3) 7)) := by
  decide +kernel
example : ∀ p ∈ windBatches.flatten, p.fs ^ 2 = p.uf ^ 2 + p.vf ^ 2 := by decide +kernel
example : ∀ p ∈ windBatches.flatten, p.os ^ 2 = p.uo ^ 2 + p.vo ^ 2 := by decide +kernel

/-- C68 fails for VL1L2_FSPD (and OSPD, by the same missing table entry): every forecast vector of the
pool is (3,4), of length 5, but the group value is 10/3: the row means are summed without weights and divided
by the total. -/
theorem C68_fspd_counterexample :
    ∃ (t : Table) (bs : List (List WindPair)), Vl1l2Data t bs ∧
      meanSpeedF bs.flatten = 5 ∧
      aggregated "vl1l2_fspd" vlFspd t = .ok (some (roundHalfUp (10 / 3 : ℝ) 7)) := by
  refine ⟨windTable, windBatches, windTable_data, ?_, ?_⟩
  · have h1 : avg WindPair.uf windBatches.flatten = 3 := by decide +kernel
    have h2 : avg WindPair.vf windBatches.flatten = 4 := by decide +kernel
    unfold meanSpeedF
    rw [h1, h2, show (((3 : ℚ) : ℝ) ^ 2 + ((4 : ℚ) : ℝ) ^ 2) = 5 ^ 2 by norm_num,
      Real.sqrt_sq (by norm_num)]
  · have hp : prepareFields windTable (fieldsOf "vl1l2_fspd") = .ok windTable := by decide +kernel
    have h1 : colMean "ufbar" windTable true = some 2 := by decide +kernel
    have h2 : colMean "vfbar" windTable true = some (8 / 3) := by decide +kernel
    rw [aggregated_eq hp, vlFspd, vlSpeed_of h1 h2]
    have : Real.sqrt (((2 : ℚ) : ℝ) ^ 2 + ((8 / 3 : ℚ) : ℝ) ^ 2) = 10 / 3 := by
      rw [show (((2 : ℚ) : ℝ) ^ 2 + ((8 / 3 : ℚ) : ℝ) ^ 2) = (10 / 3) ^ 2 by norm_num,
        Real.sqrt_sq (by norm_num)]
    rw [this]

end Metcalcpy.Props
