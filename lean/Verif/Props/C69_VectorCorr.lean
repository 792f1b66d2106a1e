/-
C69  Vector anomaly correlations lie in [-1,1].
C70  Wind directions are angles in degrees in [0,360) (false: the angle is in radians).
C71  The direction error depends only on the mean vectors (false for large groups).
C72  Gradient scores are those of the pooled gradients and S1 lies in [0,200].
-/
import Verif.Props.C68_Vector

namespace Metcalcpy.Props
open Metcalcpy Spec

/-! ### C69 -/

/-- Cauchy-Schwarz for the centred vectors of a pool. -/
theorem wind_cauchy (P : List WindPair) (hp : 0 < (P.length : ℚ)) (U V X Y : ℚ)
    (hU : avg WindPair.uf P = U) (hV : avg WindPair.vf P = V) (hX : avg WindPair.uo P = X)
    (hY : avg WindPair.vo P = Y) (hb : 0 < avg (windSum "uvooabar") P - X * X - Y * Y) :
    (avg (windSum "uvfoabar") P - U * X - V * Y) ^ 2 ≤
      (avg (windSum "uvffabar") P - U * U - V * V) * (avg (windSum "uvooabar") P - X * X - Y * Y) := by
  have key : ∀ l : ℚ, 0 ≤ (avg (windSum "uvffabar") P - U * U - V * V) -
      2 * l * (avg (windSum "uvfoabar") P - U * X - V * Y) +
      l ^ 2 * (avg (windSum "uvooabar") P - X * X - Y * Y) := by
    intro l
    have h := avg_nonneg P (g := fun p => ((p.uf - U) - l * (p.uo - X)) ^ 2 +
      ((p.vf - V) - l * (p.vo - Y)) ^ 2) (fun p _ => by positivity)
    have e : avg (fun p : WindPair => ((p.uf - U) - l * (p.uo - X)) ^ 2 +
        ((p.vf - V) - l * (p.vo - Y)) ^ 2) P =
        avg (fun p => windSum "uvffabar" p - (2 * l) * windSum "uvfoabar" p +
          l ^ 2 * windSum "uvooabar" p + (2 * (l * X - U)) * p.uf + (2 * (l * U - l ^ 2 * X)) * p.uo +
          (2 * (l * Y - V)) * p.vf + (2 * (l * V - l ^ 2 * Y)) * p.vo +
          ((U - l * X) ^ 2 + (V - l * Y) ^ 2)) P :=
      avg_congr P (fun p _ => by simp only [windSum]; ring)
    rw [e, avg_add, avg_add, avg_add, avg_add, avg_add, avg_add, avg_sub, avg_smul, avg_smul, avg_smul,
      avg_smul, avg_smul, avg_smul, avg_const P hp, hU, hV, hX, hY] at h
    nlinarith [h]
  generalize avg (windSum "uvfoabar") P - U * X - V * Y = c at *
  generalize avg (windSum "uvffabar") P - U * U - V * V = a at *
  generalize avg (windSum "uvooabar") P - X * X - Y * Y = b at *
  have h := key (c / b)
  have hc : c / b * b = c := div_mul_cancel₀ _ hb.ne'
  have : 0 ≤ a - c * (c / b) := by
    have e : a - 2 * (c / b) * c + (c / b) ^ 2 * b = a - c * (c / b) := by
      rw [pow_two, mul_assoc (c / b) (c / b) b, hc]; ring
    rwa [e] at h
  have h2 := mul_nonneg this hb.le
  have e : (a - c * (c / b)) * b = a * b - c ^ 2 := by rw [sub_mul, mul_assoc, hc]; ring
  rw [e] at h2; linarith

theorem corr_range (a b c : ℚ) (ha : 0 < a) (hb : 0 < b) (h : c ^ 2 ≤ a * b) :
    -1 ≤ (c : ℝ) / (Real.sqrt (a : ℝ) * Real.sqrt (b : ℝ)) ∧
      (c : ℝ) / (Real.sqrt (a : ℝ) * Real.sqrt (b : ℝ)) ≤ 1 := by
  have ha' : (0 : ℝ) < a := by exact_mod_cast ha
  have hb' : (0 : ℝ) < b := by exact_mod_cast hb
  have hs : 0 < Real.sqrt (a : ℝ) * Real.sqrt (b : ℝ) :=
    mul_pos (Real.sqrt_pos.mpr ha') (Real.sqrt_pos.mpr hb')
  have h' : (c : ℝ) ^ 2 ≤ (Real.sqrt (a : ℝ) * Real.sqrt (b : ℝ)) ^ 2 := by
    rw [mul_pow, Real.sq_sqrt ha'.le, Real.sq_sqrt hb'.le]; exact_mod_cast h
  have h2 := abs_le_of_sq_le_sq h' hs.le
  rw [abs_le] at h2
  exact ⟨by rw [le_div_iff₀ hs]; linarith [h2.1], by rw [div_le_one hs]; exact h2.2⟩

theorem abs_le_of_sq (x y : ℝ) (hy : 0 ≤ y) (h : x ^ 2 ≤ y ^ 2) : -y ≤ x ∧ x ≤ y :=
  abs_le.mp (abs_le_of_sq_le_sq h hy)

/-- C69: the VAL1L2 anomaly correlation of a group is None or lies in [-1,1]. -/
theorem C69_val1l2_anom_corr (t : Table) (bs : List (List WindPair)) (D : Val1l2Data t bs) :
    ∃ r, aggregated "val1l2_anom_corr" valAnomCorr t = .ok r ∧ ∀ v, r = some v → -1 ≤ v ∧ v ≤ 1 := by
  obtain ⟨t', h1, -, -, h3, h4⟩ := batch_prepared D "val1l2_anom_corr"
    ["ufabar", "vfabar", "uoabar", "voabar", "uvfoabar", "uvffabar", "uvooabar"] rfl (by decide)
    (by decide) (by decide)
  refine ⟨_, aggregated_eq h1, ?_⟩
  intro v hv
  simp only [valAnomCorr, h3 "ufabar" (by simp), h3 "vfabar" (by simp), h3 "uoabar" (by simp),
    h3 "voabar" (by simp), h3 "uvfoabar" (by simp), h3 "uvffabar" (by simp), h3 "uvooabar" (by simp),
    bind, Option.bind, calcWindCorr] at hv
  have cs := wind_cauchy bs.flatten h4 _ _ _ _ rfl rfl rfl rfl
  have e1 : avg (windSum "ufabar") bs.flatten = avg WindPair.uf bs.flatten := rfl
  have e2 : avg (windSum "vfabar") bs.flatten = avg WindPair.vf bs.flatten := rfl
  have e3 : avg (windSum "uoabar") bs.flatten = avg WindPair.uo bs.flatten := rfl
  have e4 : avg (windSum "voabar") bs.flatten = avg WindPair.vo bs.flatten := rfl
  rw [e1, e2, e3, e4] at hv
  generalize avg (windSum "uvfoabar") bs.flatten - avg WindPair.uf bs.flatten * avg WindPair.uo bs.flatten -
    avg WindPair.vf bs.flatten * avg WindPair.vo bs.flatten = c at *
  generalize avg (windSum "uvffabar") bs.flatten - avg WindPair.uf bs.flatten * avg WindPair.uf bs.flatten -
    avg WindPair.vf bs.flatten * avg WindPair.vf bs.flatten = a at *
  generalize avg (windSum "uvooabar") bs.flatten - avg WindPair.uo bs.flatten * avg WindPair.uo bs.flatten -
    avg WindPair.vo bs.flatten * avg WindPair.vo bs.flatten = b at *
  by_cases hlt : a < 0 ∨ b < 0
  · simp [hlt] at hv
  by_cases hz : a = 0 ∨ b = 0
  · simp [hlt, hz] at hv
  simp only [hlt, hz, if_false, Option.some.injEq] at hv
  push Not at hlt hz
  have ha := lt_of_le_of_ne hlt.1 (Ne.symm hz.1)
  have hb := lt_of_le_of_ne hlt.2 (Ne.symm hz.2)
  obtain ⟨l, u⟩ := corr_range a b c ha hb (cs hb)
  rw [← hv]
  exact ⟨round7_ge_neg_one l, round7_le_one u⟩

theorem clampCorr_range (r : ℝ) : -1 ≤ clampCorr r ∧ clampCorr r ≤ 1 := by
  unfold clampCorr
  split_ifs with h1 h2
  · norm_num
  · norm_num
  · exact ⟨not_lt.mp h2, not_lt.mp h1⟩

/-- C69: the VCNT anomaly correlations of any table are None or lie in [-1,1]. -/
theorem C69_vcnt_anom_corr (t : Table) (a : Bool) (v : ℝ) :
    (vcntAnomCorr t a = some v → -1 ≤ v ∧ v ≤ 1) ∧
    (vcntAnomCorrUncntr t a = some v → -1 ≤ v ∧ v ≤ 1) := by
  constructor
  · intro h
    simp only [vcntAnomCorr, bind, Option.bind_eq_some_iff] at h
    obtain ⟨_, -, _, -, _, -, _, -, _, -, _, -, h⟩ := h
    split_ifs at h
    obtain rfl := Option.some.inj h
    exact clampCorr_range _
  · intro h
    simp only [vcntAnomCorrUncntr, bind, Option.bind_eq_some_iff] at h
    obtain ⟨_, -, _, -, _, -, h⟩ := h
    split_ifs at h
    obtain rfl := Option.some.inj h
    exact clampCorr_range _

/-- C69: for genuine anomalies the uncentred VCNT correlation needs no clamping: it is the pooled uncentred
correlation. -/
theorem C69_vcnt_uncntr (t : Table) (bs : List (List WindPair)) (D : Val1l2Data t bs)
    (hf : 0 < avg (windSum "uvffabar") bs.flatten) (ho : 0 < avg (windSum "uvooabar") bs.flatten) :
    aggregated "vcnt_anom_corr_uncntr" vcntAnomCorrUncntr t = .ok (some
      ((avg (fun p => p.uf * p.uo + p.vf * p.vo) bs.flatten : ℝ) /
        Real.sqrt (((avg (fun p => p.uf ^ 2 + p.vf ^ 2) bs.flatten : ℚ) : ℝ) *
          ((avg (fun p => p.uo ^ 2 + p.vo ^ 2) bs.flatten : ℚ) : ℝ)))) := by
  obtain ⟨t', h1, -, h2, -, h4⟩ := batch_prepared D "vcnt_anom_corr_uncntr"
    ["uvffabar", "uvfoabar", "uvooabar"] rfl (by decide) (by decide) (by decide)
  rw [aggregated_eq h1]
  have eff : avg (fun p : WindPair => p.uf ^ 2 + p.vf ^ 2) bs.flatten =
      avg (windSum "uvffabar") bs.flatten := avg_congr _ (fun p _ => by simp only [windSum]; ring)
  have eoo : avg (fun p : WindPair => p.uo ^ 2 + p.vo ^ 2) bs.flatten =
      avg (windSum "uvooabar") bs.flatten := avg_congr _ (fun p _ => by simp only [windSum]; ring)
  have efo : avg (fun p : WindPair => p.uf * p.uo + p.vf * p.vo) bs.flatten =
      avg (windSum "uvfoabar") bs.flatten := rfl
  rw [eff, eoo, efo]
  have cs : avg (windSum "uvfoabar") bs.flatten ^ 2 ≤
      avg (windSum "uvffabar") bs.flatten * avg (windSum "uvooabar") bs.flatten := by
    have key : ∀ l : ℚ, 0 ≤ avg (windSum "uvffabar") bs.flatten -
        2 * l * avg (windSum "uvfoabar") bs.flatten + l ^ 2 * avg (windSum "uvooabar") bs.flatten := by
      intro l
      have h := avg_nonneg bs.flatten (g := fun p => (p.uf - l * p.uo) ^ 2 + (p.vf - l * p.vo) ^ 2)
        (fun p _ => by positivity)
      have e : avg (fun p : WindPair => (p.uf - l * p.uo) ^ 2 + (p.vf - l * p.vo) ^ 2) bs.flatten =
          avg (fun p => windSum "uvffabar" p - (2 * l) * windSum "uvfoabar" p +
            l ^ 2 * windSum "uvooabar" p) bs.flatten :=
        avg_congr _ (fun p _ => by simp only [windSum]; ring)
      rwa [e, avg_add, avg_sub, avg_smul, avg_smul] at h
    generalize avg (windSum "uvfoabar") bs.flatten = c at *
    generalize avg (windSum "uvffabar") bs.flatten = a at *
    generalize avg (windSum "uvooabar") bs.flatten = b at *
    have h := key (c / b)
    have hc : c / b * b = c := div_mul_cancel₀ _ ho.ne'
    have e : a - 2 * (c / b) * c + (c / b) ^ 2 * b = a - c * (c / b) := by
      rw [pow_two, mul_assoc (c / b) (c / b) b, hc]; ring
    rw [e] at h
    have h2 := mul_nonneg h ho.le
    have e : (a - c * (c / b)) * b = a * b - c ^ 2 := by rw [sub_mul, mul_assoc, hc]; ring
    rw [e] at h2; linarith
  have toSum : ∀ c : String, (bs.flatten.map (windSum c)).sum =
      (bs.flatten.length : ℚ) * avg (windSum c) bs.flatten := by
    intro c; unfold avg; rw [mul_div_cancel₀ _ h4.ne']
  have hs : ∀ c ∈ ["uvffabar", "uvfoabar", "uvooabar"],
      sumColumn t' c = some ((bs.flatten.length : ℚ) * avg (windSum c) bs.flatten) := by
    intro c hc; rw [h2 c hc, toSum]
  simp only [vcntAnomCorrUncntr, hs "uvffabar" (by simp), hs "uvfoabar" (by simp),
    hs "uvooabar" (by simp), bind, Option.bind]
  generalize avg (windSum "uvfoabar") bs.flatten = c at *
  generalize avg (windSum "uvffabar") bs.flatten = a at *
  generalize avg (windSum "uvooabar") bs.flatten = b at *
  generalize (bs.flatten.length : ℚ) = N at *
  have hv : 0 < N * a * (N * b) := by positivity
  rw [if_neg (not_le.mpr hv)]
  have hN : (0 : ℝ) < N := by exact_mod_cast h4
  have ha : (0 : ℝ) < a := by exact_mod_cast hf
  have hb : (0 : ℝ) < b := by exact_mod_cast ho
  have er : ((N * c : ℚ) : ℝ) / Real.sqrt ((N * a * (N * b) : ℚ) : ℝ) =
      (c : ℝ) / Real.sqrt ((a : ℝ) * (b : ℝ)) := by
    have : ((N * a * (N * b) : ℚ) : ℝ) = (N : ℝ) ^ 2 * ((a : ℝ) * b) := by push_cast; ring
    rw [this, Real.sqrt_mul (by positivity), Real.sqrt_sq hN.le]
    push_cast
    rw [mul_div_mul_left _ _ hN.ne']
  rw [er]
  have hr := corr_range a b c hf ho cs
  rw [← Real.sqrt_mul ha.le] at hr
  unfold clampCorr
  rw [if_neg (not_lt.mpr hr.2), if_neg (not_lt.mpr hr.1)]

/-! ### C70 -/

/-- C70 (the part that holds): a direction is at least 0 and less than 360. -/
theorem C70_direction_range_partial (u v d : ℝ) (h : calcDirection u v = some d) : 0 ≤ d ∧ d < 360 := by
  unfold calcDirection at h
  split_ifs at h
  obtain rfl := Option.some.inj h
  generalize Complex.arg ⟨v, u⟩ = a
  have h1 := Int.floor_le (a / 360)
  have h2 := Int.lt_floor_add_one (a / 360)
  rw [le_div_iff₀ (by norm_num)] at h1
  rw [div_lt_iff₀ (by norm_num)] at h2
  constructor <;> linarith

/-- C70: what the number is: the angle in radians if it is not negative, otherwise the angle in radians plus
360. -/
theorem C70_direction_actual (u v : ℝ) (h : ¬ (|u| < 1 / 10 ^ 5 ∧ |v| < 1 / 10 ^ 5)) :
    calcDirection u v = some (if 0 ≤ Complex.arg ⟨v, u⟩ then Complex.arg ⟨v, u⟩
      else Complex.arg ⟨v, u⟩ + 360) := by
  have h1 := Complex.arg_le_pi ⟨v, u⟩
  have h2 := Complex.neg_pi_lt_arg ⟨v, u⟩
  have h3 := Real.pi_lt_four
  unfold calcDirection
  rw [if_neg h]
  simp only
  generalize Complex.arg ⟨v, u⟩ = a at *
  by_cases ha : 0 ≤ a
  · have : ⌊a / 360⌋ = 0 := by
      rw [Int.floor_eq_iff]; constructor
      · simp; positivity
      · rw [div_lt_iff₀ (by norm_num)]; push_cast; linarith
    simp [this, ha]
  · have : ⌊a / 360⌋ = -1 := by
      rw [Int.floor_eq_iff]; push Not at ha; constructor
      · rw [le_div_iff₀ (by norm_num)]; push_cast; linarith
      · rw [div_lt_iff₀ (by norm_num)]; push_cast; linarith
    simp [this, ha]

/-- One pair with an easterly forecast wind. -/
def eastTable : Table :=
  { cols := ["total", "ufbar", "vfbar", "uobar", "vobar", "uvfobar", "uvffbar", "uvoobar", "f_speed_bar",
      "o_speed_bar"]
    rows := [[some 1, some (-1), some 0, some 0, some 0, some 0, some 1, some 0, some 1, some 0]] }

/-- C70 fails: for an easterly mean wind (u = -1, v = 0; it blows from 90 degrees) the forecast direction
is pi/2 rounded, less than 2. -/
theorem C70_degrees_counterexample :
    ∃ (t : Table) (bs : List (List WindPair)), Vl1l2Data t bs ∧
      avg WindPair.uf bs.flatten = -1 ∧ avg WindPair.vf bs.flatten = 0 ∧
      ∃ d, aggregated "vcnt_fdir" (vcntDir "ufbar" "vfbar") t = .ok (some d) ∧ d < 2 ∧ d ≠ 90 := by
  refine ⟨eastTable,
    [[⟨-1, 0, 0, 0, 1, 0⟩]], ⟨by decide, by decide, ⟨0, by decide, by decide, by decide +kernel⟩, ?_⟩,
    by decide +kernel, by decide +kernel, roundHalfUp (Real.pi / 2) 7, ?_, ?_⟩
  · intro c hc
    simp only [vl1l2Columns, List.mem_cons, List.not_mem_nil, or_false] at hc
    rcases hc with rfl | rfl | rfl | rfl | rfl | rfl | rfl | rfl | rfl
    · exact ⟨1, by decide, by decide, by decide +kernel⟩
    · exact ⟨2, by decide, by decide, by decide +kernel⟩
    · exact ⟨3, by decide, by decide, by decide +kernel⟩
    · exact ⟨4, by decide, by decide, by decide +kernel⟩
    · exact ⟨5, by decide, by decide, by decide +kernel⟩
    · exact ⟨6, by decide, by decide, by decide +kernel⟩
    · exact ⟨7, by decide, by decide, by decide +kernel⟩
    · exact ⟨8, by decide, by decide, by decide +kernel⟩
    · exact ⟨9, by decide, by decide, by decide +kernel⟩
  · have hp : prepareFields eastTable (fieldsOf "vcnt_fdir") = .ok eastTable ∧
        colMean "ufbar" eastTable true = some (-1) ∧ colMean "vfbar" eastTable true = some 0 := by
      decide +kernel
    obtain ⟨e1, e2, e3⟩ := hp
    rw [aggregated_eq e1]
    have hI : Complex.arg ⟨-((0 : ℚ) : ℝ), -((-1 : ℚ) : ℝ)⟩ = Real.pi / 2 := by
      have : (⟨-((0 : ℚ) : ℝ), -((-1 : ℚ) : ℝ)⟩ : ℂ) = Complex.I := by
        apply Complex.ext <;> simp
      rw [this, Complex.arg_I]
    simp only [vcntDir, e2, e3, bind, Option.bind]
    rw [C70_direction_actual _ _ (by norm_num), hI, if_pos (by positivity)]
    rfl
  · have h1 := roundHalfUp_le (Real.pi / 2) 7
    have h2 := Real.pi_lt_d2
    norm_num at h1
    have : roundHalfUp (Real.pi / 2) 7 < 2 := by linarith
    exact ⟨this, by linarith⟩

/-! ### C71 -/

/-- The wrapped angle of a vector, as `calc_direction` reports it. -/
noncomputable def reportedAngle (a b : ℝ) : ℝ :=
  Complex.arg ⟨b, a⟩ - 360 * ⌊Complex.arg ⟨b, a⟩ / 360⌋

theorem arg_scale (k a b : ℝ) (hk : 0 < k) : Complex.arg ⟨k * b, k * a⟩ = Complex.arg ⟨b, a⟩ := by
  have : (⟨k * b, k * a⟩ : ℂ) = (k : ℂ) * ⟨b, a⟩ := by
    apply Complex.ext <;> simp
  rw [this, Complex.arg_real_mul _ hk]

/-- C71 (the part that holds): when a direction error is reported for a group, it is the angle between the
pooled mean vectors. -/
theorem C71_dir_err_partial (t : Table) (bs : List (List WindPair)) (D : Vl1l2Data t bs) (d : ℝ)
    (h : aggregated "vcnt_dir_err" vcntDirErr t = .ok (some d)) :
    d = roundHalfUp (reportedAngle
      ((avg WindPair.vf bs.flatten : ℝ) * (avg WindPair.uo bs.flatten : ℝ) -
        (avg WindPair.uf bs.flatten : ℝ) * (avg WindPair.vo bs.flatten : ℝ))
      ((avg WindPair.uf bs.flatten : ℝ) * (avg WindPair.uo bs.flatten : ℝ) +
        (avg WindPair.vf bs.flatten : ℝ) * (avg WindPair.vo bs.flatten : ℝ))) 7 := by
  obtain ⟨t', h1, -, h2, h3, h4⟩ := batch_prepared D "vcnt_dir_err" ["ufbar", "vfbar", "uobar", "vobar"]
    rfl (by decide) (by decide) (by decide)
  rw [aggregated_eq h1, Except.ok.injEq] at h
  have hf : ∀ c ∈ ["ufbar", "vfbar", "uobar", "vobar"],
      colMean c t' false = some (bs.flatten.map (windSum c)).sum := by
    intro c hc
    simp [colMean, getTotalValues, h2 c hc, pyDiv]
  simp only [vcntDirErr, vlFspd, vlOspd, vlSpeed_of (h3 "ufbar" (by simp)) (h3 "vfbar" (by simp)),
    vlSpeed_of (hf "uobar" (by simp)) (hf "vobar" (by simp)), h3 "ufbar" (by simp), h3 "vfbar" (by simp),
    h3 "uobar" (by simp), h3 "vobar" (by simp), bind, Option.bind] at h
  have n1 : 0 ≤ roundHalfUp (Real.sqrt ((avg (windSum "ufbar") bs.flatten : ℝ) ^ 2 +
      (avg (windSum "vfbar") bs.flatten : ℝ) ^ 2)) 7 := round7_nonneg (Real.sqrt_nonneg _)
  have n2 : 0 ≤ roundHalfUp (Real.sqrt (((bs.flatten.map (windSum "uobar")).sum : ℝ) ^ 2 +
      ((bs.flatten.map (windSum "vobar")).sum : ℝ) ^ 2)) 7 := round7_nonneg (Real.sqrt_nonneg _)
  have e1 : avg WindPair.uf bs.flatten = avg (windSum "ufbar") bs.flatten := rfl
  have e2 : avg WindPair.vf bs.flatten = avg (windSum "vfbar") bs.flatten := rfl
  have e3 : avg WindPair.uo bs.flatten = avg (windSum "uobar") bs.flatten := rfl
  have e4 : avg WindPair.vo bs.flatten = avg (windSum "vobar") bs.flatten := rfl
  rw [e1, e2, e3, e4]
  generalize roundHalfUp (Real.sqrt ((avg (windSum "ufbar") bs.flatten : ℝ) ^ 2 +
      (avg (windSum "vfbar") bs.flatten : ℝ) ^ 2)) 7 = fl at *
  generalize roundHalfUp (Real.sqrt (((bs.flatten.map (windSum "uobar")).sum : ℝ) ^ 2 +
      ((bs.flatten.map (windSum "vobar")).sum : ℝ) ^ 2)) 7 = ol at *
  generalize avg (windSum "ufbar") bs.flatten = uf at *
  generalize avg (windSum "vfbar") bs.flatten = vf at *
  generalize avg (windSum "uobar") bs.flatten = uo at *
  generalize avg (windSum "vobar") bs.flatten = vo at *
  by_cases hz : fl = 0 ∨ ol = 0
  · simp [hz] at h
  · rw [if_neg hz] at h
    push Not at hz
    have p1 := lt_of_le_of_ne n1 (Ne.symm hz.1)
    have p2 := lt_of_le_of_ne n2 (Ne.symm hz.2)
    have k : 0 < 1 / (fl * ol) := by positivity
    have ea : (vf : ℝ) / fl * ((uo : ℝ) / ol) - (uf : ℝ) / fl * ((vo : ℝ) / ol) =
        1 / (fl * ol) * ((vf : ℝ) * uo - uf * vo) := by field_simp
    have eb : (uf : ℝ) / fl * ((uo : ℝ) / ol) + (vf : ℝ) / fl * ((vo : ℝ) / ol) =
        1 / (fl * ol) * ((uf : ℝ) * uo + vf * vo) := by field_simp
    rw [ea, eb] at h
    unfold calcDirection at h
    rw [arg_scale _ _ _ k] at h
    split_ifs at h with hc
    simp only [Option.some.injEq] at h
    rw [← h]; rfl

/-- One group of 200000 identical pairs. -/
def bigGroup : Table :=
  { cols := ["total", "ufbar", "vfbar", "uobar", "vobar", "uvfobar", "uvffbar", "uvoobar", "f_speed_bar",
      "o_speed_bar"]
    rows := [[some 200000, some 1, some 0, some 1, some 0, some 1, some 1, some 1, some 1, some 1]] }

theorem avg_replicate {α : Type} (g : α → ℚ) (p : α) (n : ℕ) (h : n ≠ 0) :
    avg g (List.replicate n p) = g p := by
  have : (n : ℚ) ≠ 0 := by exact_mod_cast h
  simp only [avg, List.map_replicate, List.sum_replicate, List.length_replicate, nsmul_eq_mul]
  field_simp

theorem bigGroup_data : Vl1l2Data bigGroup [List.replicate 200000 ⟨1, 0, 1, 0, 1, 1⟩] where
  rows_ne := by decide
  batch_ne := by
    intro b hb
    rw [List.mem_singleton] at hb
    rw [hb, Ne, List.replicate_eq_nil_iff]; norm_num
  total := ⟨0, by decide, by decide, by
    simp only [bigGroup, List.map_cons, List.map_nil, List.length_replicate]; norm_num⟩
  field := by
    intro c hc
    rw [List.map_cons, List.map_nil, avg_replicate _ _ _ (by norm_num)]
    simp only [vl1l2Columns, List.mem_cons, List.not_mem_nil, or_false] at hc
    rcases hc with rfl | rfl | rfl | rfl | rfl | rfl | rfl | rfl | rfl
    · exact ⟨1, by decide, by decide, by decide +kernel⟩
    · exact ⟨2, by decide, by decide, by decide +kernel⟩
    · exact ⟨3, by decide, by decide, by decide +kernel⟩
    · exact ⟨4, by decide, by decide, by decide +kernel⟩
    · exact ⟨5, by decide, by decide, by decide +kernel⟩
    · exact ⟨6, by decide, by decide, by decide +kernel⟩
    · exact ⟨7, by decide, by decide, by decide +kernel⟩
    · exact ⟨8, by decide, by decide, by decide +kernel⟩
    · exact ⟨9, by decide, by decide, by decide +kernel⟩

theorem round7_nat (n : ℕ) : roundHalfUp (n : ℝ) 7 = n := by
  have := round7_int (K := ℝ) n
  simpa [PRECISION] using this

theorem dirErr_of (t : Table) (n : ℕ) (hn : n ≠ 0)
    (h : colMean "ufbar" t true = some 1 ∧ colMean "vfbar" t true = some 0 ∧
      colMean "uobar" t true = some 1 ∧ colMean "vobar" t true = some 0 ∧
      colMean "uobar" t false = some n ∧ colMean "vobar" t false = some 0) :
    vcntDirErr t true = (calcDirection 0 (1 / (n : ℝ))).bind fun d => some (roundHalfUp d PRECISION) := by
  obtain ⟨h1, h2, h3, h4, h5, h6⟩ := h
  have s1 : Real.sqrt (((1 : ℚ) : ℝ) ^ 2 + ((0 : ℚ) : ℝ) ^ 2) = ((1 : ℕ) : ℝ) := by norm_num
  have s2 : Real.sqrt ((((n : ℚ) : ℚ) : ℝ) ^ 2 + ((0 : ℚ) : ℝ) ^ 2) = (n : ℝ) := by
    rw [show (((n : ℚ) : ℝ) ^ 2 + ((0 : ℚ) : ℝ) ^ 2) = (n : ℝ) ^ 2 by push_cast; ring]
    exact Real.sqrt_sq (by positivity)
  have hn' : (n : ℝ) ≠ 0 := by exact_mod_cast hn
  simp only [vcntDirErr, vlFspd, vlOspd, vlSpeed_of h1 h2, vlSpeed_of h5 h6, h1, h2, h3, h4, bind,
    Option.bind, s1, s2, round7_nat]
  simp only [Nat.cast_one, one_ne_zero, hn', or_self, if_false, Rat.cast_one, Rat.cast_zero, div_one,
    zero_mul, zero_div, mul_zero, sub_zero, one_mul, add_zero]

/-- C71 fails: a group of 200000 pairs whose mean vectors are both (1,0) has no direction error, although
the error of a group of one such pair is 0: the observed length is calculated without aggregation, so both
components fall below the tolerance when the group is large. -/
theorem C71_large_group_counterexample :
    aggregated "vcnt_dir_err" vcntDirErr bigGroup = .ok none ∧
    aggregated "vcnt_dir_err" vcntDirErr
      { bigGroup with rows := [[some 1, some 1, some 0, some 1, some 0, some 1, some 1, some 1, some 1,
          some 1]] } = .ok (some 0) := by
  constructor
  · have hp : prepareFields bigGroup (fieldsOf "vcnt_dir_err") = .ok { bigGroup with
        rows := [[some 200000, some 200000, some 0, some 200000, some 0, some 1, some 1, some 1, some 1,
          some 1]] } := by decide +kernel
    rw [aggregated_eq hp, dirErr_of _ 200000 (by norm_num) (by decide +kernel)]
    have : calcDirection 0 (1 / ((200000 : ℕ) : ℝ)) = none := by
      unfold calcDirection
      rw [if_pos]
      rw [abs_of_nonneg (by positivity : (0 : ℝ) ≤ 1 / ((200000 : ℕ) : ℝ))]
      norm_num
    rw [this]; rfl
  · have hp : prepareFields { bigGroup with rows := [[some 1, some 1, some 0, some 1, some 0, some 1,
        some 1, some 1, some 1, some 1]] } (fieldsOf "vcnt_dir_err") = .ok { bigGroup with
        rows := [[some 1, some 1, some 0, some 1, some 0, some 1, some 1, some 1, some 1, some 1]] } := by
      decide +kernel
    rw [aggregated_eq hp, dirErr_of _ 1 (by norm_num) (by decide +kernel)]
    have : calcDirection 0 (1 / ((1 : ℕ) : ℝ)) = some 0 := by
      rw [C70_direction_actual _ _ (by norm_num)]
      have : Complex.arg ⟨1 / ((1 : ℕ) : ℝ), 0⟩ = 0 := by
        have e : (⟨1 / ((1 : ℕ) : ℝ), 0⟩ : ℂ) = 1 := by apply Complex.ext <;> simp
        rw [e, Complex.arg_one]
      rw [this]; simp
    rw [this]
    simp only [Option.bind]
    rw [round7_zero]

/-! ### C72 -/

/-- C72: the gradient scores of a group are ratios of pooled means, and S1 lies in [0,200]. -/
theorem C72_grad (t : Table) (bs : List (List Pair)) (D : GradData t bs) :
    (0 < avg (fun p => max |p.1| |p.2|) bs.flatten →
      aggregated "s1" (gradRatio "egbar" "mgbar") t = .ok (some (roundHalfUp
        (100 * avg (fun p => |p.1 - p.2|) bs.flatten / avg (fun p => max |p.1| |p.2|) bs.flatten) 7))) ∧
    (0 < avg (fun p : Pair => |p.2|) bs.flatten →
      aggregated "s1_og" (gradRatio "egbar" "ogbar") t = .ok (some (roundHalfUp
        (100 * avg (fun p => |p.1 - p.2|) bs.flatten / avg (fun p => |p.2|) bs.flatten) 7)) ∧
      aggregated "fgog_ratio" (gradRatio "fgbar" "ogbar") t = .ok (some (roundHalfUp
        (100 * avg (fun p => |p.1|) bs.flatten / avg (fun p => |p.2|) bs.flatten) 7))) ∧
    (∃ r, aggregated "s1" (gradRatio "egbar" "mgbar") t = .ok r ∧ ∀ v, r = some v → 0 ≤ v ∧ v ≤ 200) := by
  have key : ∀ stat a b, fieldsOf stat = some [a, b] → a ≠ b → a ≠ "total" → b ≠ "total" →
      a ∈ ["fgbar", "ogbar", "mgbar", "egbar"] → b ∈ ["fgbar", "ogbar", "mgbar", "egbar"] →
      aggregated stat (gradRatio a b) t = .ok (if avg (gradSum b) bs.flatten = 0 then none else
        some (roundHalfUp (100 * avg (gradSum a) bs.flatten / avg (gradSum b) bs.flatten) 7)) := by
    intro stat a b hs hne ha hb h1 h2
    obtain ⟨t', e1, -, -, e3, -⟩ := batch_prepared D stat _ hs (by simp [hne])
      (by simp [Ne.symm ha, Ne.symm hb]) (by
        intro c hc; simp only [List.mem_cons, List.not_mem_nil, or_false] at hc
        rcases hc with rfl | rfl <;> assumption)
    rw [aggregated_eq e1]
    simp only [gradRatio, e3 a (by simp), e3 b (by simp), bind, Option.bind, pyDiv]
    by_cases hz : avg (gradSum b) bs.flatten = 0 <;> simp [hz, PRECISION]
  have e1 : avg (gradSum "egbar") bs.flatten = avg (fun p => |p.1 - p.2|) bs.flatten := rfl
  have e2 : avg (gradSum "mgbar") bs.flatten = avg (fun p => max |p.1| |p.2|) bs.flatten := rfl
  have e3 : avg (gradSum "ogbar") bs.flatten = avg (fun p => |p.2|) bs.flatten := rfl
  have e4 : avg (gradSum "fgbar") bs.flatten = avg (fun p => |p.1|) bs.flatten := rfl
  have k1 := key "s1" "egbar" "mgbar" rfl (by decide) (by decide) (by decide) (by decide) (by decide)
  have k2 := key "s1_og" "egbar" "ogbar" rfl (by decide) (by decide) (by decide) (by decide) (by decide)
  have k3 := key "fgog_ratio" "fgbar" "ogbar" rfl (by decide) (by decide) (by decide) (by decide)
    (by decide)
  rw [e1, e2] at k1; rw [e1, e3] at k2; rw [e4, e3] at k3
  refine ⟨fun hp => ?_, fun hp => ⟨?_, ?_⟩, _, k1, ?_⟩
  · rw [k1, if_neg hp.ne']
  · rw [k2, if_neg hp.ne']
  · rw [k3, if_neg hp.ne']
  · intro v hv
    split_ifs at hv with hz
    obtain rfl := Option.some.inj hv
    have n1 : 0 ≤ avg (fun p : Pair => |p.1 - p.2|) bs.flatten := avg_nonneg _ (fun p _ => abs_nonneg _)
    have n2 : 0 ≤ avg (fun p : Pair => max |p.1| |p.2|) bs.flatten :=
      avg_nonneg _ (fun p _ => le_max_of_le_left (abs_nonneg _))
    have n3 : avg (fun p : Pair => |p.1 - p.2|) bs.flatten ≤
        2 * avg (fun p : Pair => max |p.1| |p.2|) bs.flatten := by
      rw [← avg_smul]
      refine avg_le _ (fun p _ => ?_)
      have := abs_sub p.1 p.2
      have h1 := le_max_left |p.1| |p.2|
      have h2 := le_max_right |p.1| |p.2|
      linarith
    have hp := lt_of_le_of_ne n2 (Ne.symm hz)
    refine ⟨round7_nonneg (by positivity), ?_⟩
    have e200 : roundHalfUp (200 : ℚ) 7 = 200 := by decide +kernel
    rw [← e200]
    apply roundHalfUp_mono
    rw [div_le_iff₀ hp]; linarith

def gradTable : Table :=
  { cols := ["total", "fgbar", "ogbar", "mgbar", "egbar"]
    rows := [[some 1, some 1, some 3, some 3, some 4], [some 1, some 2, some 2, some 2, some 0]] }

example : GradData gradTable [[(1, -3)], [(2, 2)]] where
  rows_ne := by decide
  batch_ne := by decide
  total := ⟨0, by decide, by decide, by decide +kernel⟩
  field := by
    intro c hc
    simp only [List.mem_cons, List.not_mem_nil, or_false] at hc
    rcases hc with rfl | rfl | rfl | rfl
    · exact ⟨1, by decide, by decide, by decide +kernel⟩
    · exact ⟨2, by decide, by decide, by decide +kernel⟩
    · exact ⟨3, by decide, by decide, by decide +kernel⟩
    · exact ⟨4, by decide, by decide, by decide +kernel⟩

/-- Pooled S1 of the example: 100 · 2 / (5/2) = 80. -/
example : aggregated "s1" (gradRatio "egbar" "mgbar") gradTable = .ok (some 80) := by decide +kernel

end Metcalcpy.Props
