/-
C259, C260: the direction of the vector difference and the direction error of winds.
-/
import Verif.Model.WindDirection
import Verif.Props.C06_Round
import Verif.Props.C69_VectorCorr

namespace Metcalcpy.Props

open Metcalcpy Spec

/-! ### C259 -/

/-- C259 (the part that holds): the direction of the vector difference of a group is that of the difference of the pooled
mean vectors, and is missing exactly if both components are below 0.00001; as in C70 the number is an angle in radians, increased
by 360 if it is negative. -/
theorem C259_vdiff_dir_partial (t : Table) (bs : List (List WindPair)) (D : Vl1l2Data t bs) (du dv : ℝ)
    (hu : du = (avg WindPair.uf bs.flatten : ℝ) - (avg WindPair.uo bs.flatten : ℝ))
    (hv : dv = (avg WindPair.vf bs.flatten : ℝ) - (avg WindPair.vo bs.flatten : ℝ)) :
    (|du| < 1 / 10 ^ 5 ∧ |dv| < 1 / 10 ^ 5 → aggregated "vcnt_vdiff_dir" vcntVdiffDir t = .ok none) ∧
    (¬ (|du| < 1 / 10 ^ 5 ∧ |dv| < 1 / 10 ^ 5) → aggregated "vcnt_vdiff_dir" vcntVdiffDir t =
      .ok (some (roundHalfUp (if 0 ≤ Complex.arg ⟨-dv, -du⟩ then Complex.arg ⟨-dv, -du⟩
        else Complex.arg ⟨-dv, -du⟩ + 360) 7))) := by
  obtain ⟨t', h1, -, -, h3, -⟩ := batch_prepared D "vcnt_vdiff_dir" ["ufbar", "uobar", "vfbar", "vobar"] rfl
    (by decide) (by decide) (by decide)
  rw [aggregated_eq h1]
  simp only [vcntVdiffDir, h3 "ufbar" (by simp), h3 "uobar" (by simp), h3 "vfbar" (by simp), h3 "vobar" (by simp), bind,
    Option.bind]
  have eu : -(((avg (windSum "ufbar") bs.flatten - avg (windSum "uobar") bs.flatten : ℚ)) : ℝ) = -du := by
    rw [hu]; push_cast; rfl
  have ev : -(((avg (windSum "vfbar") bs.flatten - avg (windSum "vobar") bs.flatten : ℚ)) : ℝ) = -dv := by
    rw [hv]; push_cast; rfl
  rw [eu, ev]
  constructor
  · intro h
    unfold calcDirection
    rw [if_pos (by simpa using h)]
  · intro h
    rw [C70_direction_actual _ _ (by simpa using h)]
    rfl

/-- C259 fails: the forecast (-1, 0) minus the observation (0, 0) blows from the east, 90 degrees, but the result is pi/2
rounded. -/
theorem C259_degrees_counterexample :
    ∃ (t : Table) (bs : List (List WindPair)), Vl1l2Data t bs ∧
      avg WindPair.uf bs.flatten - avg WindPair.uo bs.flatten = -1 ∧ avg WindPair.vf bs.flatten - avg WindPair.vo bs.flatten = 0 ∧
      ∃ d, aggregated "vcnt_vdiff_dir" vcntVdiffDir t = .ok (some d) ∧ d < 2 ∧ d ≠ 90 := by
  have D : Vl1l2Data eastTable [[⟨-1, 0, 0, 0, 1, 0⟩]] := by
    refine ⟨by decide, by decide, ⟨0, by decide, by decide, by decide +kernel⟩, ?_⟩
    intro c hc
    simp only [vl1l2Columns, List.mem_cons, List.not_mem_nil, or_false] at hc
    rcases hc with rfl | rfl | rfl | rfl | rfl | rfl | rfl | rfl | rfl
    · exact ⟨1, by decide, by decide, by decide +kernel⟩
    · exact ⟨2, by decide, by decide, by decide +kernel⟩
    · exact ⟨3, by decide, by decide, by decide +kernel⟩
    · exact ⟨4, by decide, by decide, by decide +kernel⟩
    · exact ⟨5, by decide, by decide, by decide +kernel⟩
    · exact ⟨6, by decide, by decide, by decide +kernel⟩
    · exact ⟨7, by decide, by decide, by decide +kernel⟩
    · exact ⟨8, by decide, by decide, by decide +kernel⟩
    · exact ⟨9, by decide, by decide, by decide +kernel⟩
  have hq : avg WindPair.uf ([[⟨-1, 0, 0, 0, 1, 0⟩]] : List (List WindPair)).flatten = -1 ∧
      avg WindPair.uo ([[⟨-1, 0, 0, 0, 1, 0⟩]] : List (List WindPair)).flatten = 0 ∧
      avg WindPair.vf ([[⟨-1, 0, 0, 0, 1, 0⟩]] : List (List WindPair)).flatten = 0 ∧
      avg WindPair.vo ([[⟨-1, 0, 0, 0, 1, 0⟩]] : List (List WindPair)).flatten = 0 := by decide +kernel
  refine ⟨eastTable, _, D, by rw [hq.1, hq.2.1]; norm_num, by rw [hq.2.2.1, hq.2.2.2]; norm_num,
    roundHalfUp (Real.pi / 2) 7, ?_, ?_⟩
  · rw [(C259_vdiff_dir_partial _ _ D (-1) 0 (by rw [hq.1, hq.2.1]; norm_num) (by rw [hq.2.2.1, hq.2.2.2]; norm_num)).2
      (by norm_num)]
    have hI : Complex.arg ⟨-(0 : ℝ), -(-1 : ℝ)⟩ = Real.pi / 2 := by
      have : (⟨-(0 : ℝ), -(-1 : ℝ)⟩ : ℂ) = Complex.I := by apply Complex.ext <;> simp
      rw [this, Complex.arg_I]
    rw [hI, if_pos (by positivity)]
  · have h1 := roundHalfUp_le (Real.pi / 2) 7
    have h2 := Real.pi_lt_d2
    norm_num at h1
    have : roundHalfUp (Real.pi / 2) 7 < 2 := by linarith
    exact ⟨this, by linarith⟩

/-! ### C260 -/

theorem dirErr_nonneg {t : Table} {aggregation : Bool} {d : ℝ} (h : vcntDirErr t aggregation = some d) :
    ∃ x, 0 ≤ x ∧ d = roundHalfUp x 7 := by
  unfold vcntDirErr at h
  simp only [bind, Option.bind_eq_some_iff] at h
  obtain ⟨_, -, _, -, _, -, _, -, _, -, _, -, h⟩ := h
  split_ifs at h
  simp only [Option.bind_eq_some_iff, Option.some.injEq] at h
  obtain ⟨x, hx, rfl⟩ := h
  exact ⟨x, (C70_direction_range_partial _ _ _ hx).1, rfl⟩

/-- C260: the absolute direction error is always the direction error, which is never negative. -/
theorem C260_abs_is_err (t : Table) :
    aggregated "vcnt_dir_abser" vcntDirAbser t = aggregated "vcnt_dir_err" vcntDirErr t ∧
    ∀ d, aggregated "vcnt_dir_err" vcntDirErr t = .ok (some d) → 0 ≤ d := by
  have hf : fieldsOf "vcnt_dir_abser" = fieldsOf "vcnt_dir_err" := by decide
  have key : ∀ t b, vcntDirAbser t b = vcntDirErr t b := by
    intro t b
    unfold vcntDirAbser
    cases h : vcntDirErr t b with
    | none => rfl
    | some d =>
      obtain ⟨x, hx, rfl⟩ := dirErr_nonneg h
      show some (roundHalfUp |roundHalfUp x 7| PRECISION) = _
      have h0 : 0 ≤ roundHalfUp x 7 := round7_nonneg hx
      rw [abs_of_nonneg h0]
      exact congrArg some (C06_round_half_up_idem x 7)
  refine ⟨?_, ?_⟩
  · unfold aggregated
    rw [hf]
    simp only [key]
  · intro d h
    unfold aggregated at h
    cases hp : prepareFields t (fieldsOf "vcnt_dir_err") with
    | error e => rw [hp] at h; simp [bind, Except.bind] at h
    | ok t' =>
      rw [hp] at h
      simp only [bind, Except.bind, pure, Except.pure, Except.ok.injEq] at h
      obtain ⟨x, hx, rfl⟩ := dirErr_nonneg h
      exact round7_nonneg hx

/-- The angle in radians, between 0 and pi, of two vectors that are not zero. -/
noncomputable def angleBetween (u v u' v' : ℝ) : ℝ :=
  Real.arccos ((u * u' + v * v') / (Real.sqrt (u ^ 2 + v ^ 2) * Real.sqrt (u' ^ 2 + v' ^ 2)))

theorem reported_angle (u v u' v' : ℝ) (h : u ^ 2 + v ^ 2 ≠ 0) (h' : u' ^ 2 + v' ^ 2 ≠ 0) :
    reportedAngle (v * u' - u * v') (u * u' + v * v') =
      if 0 ≤ v * u' - u * v' then angleBetween u v u' v' else 360 - angleBetween u v u' v' := by
  have hn : ‖(⟨u * u' + v * v', v * u' - u * v'⟩ : ℂ)‖ = Real.sqrt (u ^ 2 + v ^ 2) * Real.sqrt (u' ^ 2 + v' ^ 2) := by
    rw [Complex.norm_def, Complex.normSq_mk, ← Real.sqrt_mul (by positivity)]
    congr 1; ring
  have hp : 0 < Real.sqrt (u ^ 2 + v ^ 2) * Real.sqrt (u' ^ 2 + v' ^ 2) := by
    have : 0 < u ^ 2 + v ^ 2 := lt_of_le_of_ne (by positivity) (Ne.symm h)
    have : 0 < u' ^ 2 + v' ^ 2 := lt_of_le_of_ne (by positivity) (Ne.symm h')
    positivity
  have hz : (⟨u * u' + v * v', v * u' - u * v'⟩ : ℂ) ≠ 0 := by
    intro e
    rw [e, norm_zero] at hn
    exact hp.ne hn
  have h4 := Real.pi_lt_four
  have a0 : 0 ≤ angleBetween u v u' v' := Real.arccos_nonneg _
  have a1 : angleBetween u v u' v' ≤ Real.pi := Real.arccos_le_pi _
  unfold reportedAngle
  by_cases hc : 0 ≤ v * u' - u * v'
  · have e : Complex.arg ⟨u * u' + v * v', v * u' - u * v'⟩ = angleBetween u v u' v' := by
      rw [Complex.arg_of_im_nonneg_of_ne_zero (by exact hc) hz, hn]; rfl
    rw [e, if_pos hc]
    have : ⌊angleBetween u v u' v' / 360⌋ = 0 := by
      rw [Int.floor_eq_iff]; constructor
      · push_cast; positivity
      · rw [div_lt_iff₀ (by norm_num)]; push_cast; linarith
    simp [this]
  · have e : Complex.arg ⟨u * u' + v * v', v * u' - u * v'⟩ = -angleBetween u v u' v' := by
      rw [Complex.arg_of_im_neg (by push Not at hc; exact hc), hn]; rfl
    have hlt : Complex.arg ⟨u * u' + v * v', v * u' - u * v'⟩ < 0 := by
      rw [Complex.arg_neg_iff]; push Not at hc; exact hc
    rw [e] at hlt
    rw [e, if_neg hc]
    have : ⌊-angleBetween u v u' v' / 360⌋ = -1 := by
      rw [Int.floor_eq_iff]; constructor
      · rw [le_div_iff₀ (by norm_num)]; push_cast; linarith
      · rw [div_lt_iff₀ (by norm_num)]; push_cast; linarith
    rw [this]; push_cast; ring

/-- C260 (the part that holds): the absolute direction error of a group, if reported, is the angle (in radians) between the
pooled mean vectors when the forecast is turned counterclockwise from the observation; otherwise it is 360 minus this
angle. -/
theorem C260_dir_abser_partial (t : Table) (bs : List (List WindPair)) (D : Vl1l2Data t bs) (d uf vf uo vo : ℝ)
    (huf : uf = (avg WindPair.uf bs.flatten : ℝ)) (hvf : vf = (avg WindPair.vf bs.flatten : ℝ))
    (huo : uo = (avg WindPair.uo bs.flatten : ℝ)) (hvo : vo = (avg WindPair.vo bs.flatten : ℝ))
    (hf : uf ^ 2 + vf ^ 2 ≠ 0) (ho : uo ^ 2 + vo ^ 2 ≠ 0)
    (h : aggregated "vcnt_dir_abser" vcntDirAbser t = .ok (some d)) :
    d = roundHalfUp (if 0 ≤ vf * uo - uf * vo then angleBetween uf vf uo vo else 360 - angleBetween uf vf uo vo) 7 := by
  rw [(C260_abs_is_err t).1] at h
  rw [C71_dir_err_partial t bs D d h, ← huf, ← hvf, ← huo, ← hvo, reported_angle _ _ _ _ hf ho]

/-- One pair with forecast `(a, b)` and observation `(b, a)`. -/
def turnedTable (a b : ℚ) : Table :=
  { cols := ["total", "ufbar", "vfbar", "uobar", "vobar", "uvfobar", "uvffbar", "uvoobar", "f_speed_bar",
      "o_speed_bar"]
    rows := [[some 1, some a, some b, some b, some a, some 0, some 1, some 1, some 1, some 1]] }

theorem turnedTable_data : Vl1l2Data (turnedTable 1 0) [[⟨1, 0, 0, 1, 1, 1⟩]] ∧
    Vl1l2Data (turnedTable 0 1) [[⟨0, 1, 1, 0, 1, 1⟩]] := by
  constructor
  all_goals
    refine ⟨by decide, by decide, ⟨0, by decide, by decide, by decide +kernel⟩, ?_⟩
    intro c hc
    simp only [vl1l2Columns, List.mem_cons, List.not_mem_nil, or_false] at hc
    rcases hc with rfl | rfl | rfl | rfl | rfl | rfl | rfl | rfl | rfl
    · exact ⟨1, by decide, by decide, by decide +kernel⟩
    · exact ⟨2, by decide, by decide, by decide +kernel⟩
    · exact ⟨3, by decide, by decide, by decide +kernel⟩
    · exact ⟨4, by decide, by decide, by decide +kernel⟩
    · exact ⟨5, by decide, by decide, by decide +kernel⟩
    · exact ⟨6, by decide, by decide, by decide +kernel⟩
    · exact ⟨7, by decide, by decide, by decide +kernel⟩
    · exact ⟨8, by decide, by decide, by decide +kernel⟩
    · exact ⟨9, by decide, by decide, by decide +kernel⟩

theorem turned_err (t : Table) (a b : ℚ) (hab : a ^ 2 + b ^ 2 = 1)
    (h : ∀ g, colMean "ufbar" t g = some a ∧ colMean "vfbar" t g = some b ∧ colMean "uobar" t g = some b ∧
      colMean "vobar" t g = some a) :
    vcntDirErr t true = (calcDirection ((b : ℝ) * b - a * a) ((a : ℝ) * b + b * a)).bind fun d => some (roundHalfUp d PRECISION) := by
  have hr : (a : ℝ) ^ 2 + (b : ℝ) ^ 2 = 1 := by exact_mod_cast hab
  have s1 : Real.sqrt ((a : ℝ) ^ 2 + (b : ℝ) ^ 2) = ((1 : ℕ) : ℝ) := by rw [hr]; simp
  have s2 : Real.sqrt ((b : ℝ) ^ 2 + (a : ℝ) ^ 2) = ((1 : ℕ) : ℝ) := by rw [add_comm, hr]; simp
  simp only [vcntDirErr, vlFspd, vlOspd, vlSpeed_of (h true).1 (h true).2.1, vlSpeed_of (h false).2.2.1 (h false).2.2.2,
    (h true).1, (h true).2.1, (h true).2.2.1, (h true).2.2.2, bind, Option.bind, s1, s2, round7_nat]
  simp only [Nat.cast_one, one_ne_zero, or_self, if_false, div_one]

/-- C260 fails: the forecast (1, 0) is turned clockwise by a right angle from the observation (0, 1).  The direction error
should be -90 and the absolute one 90 degrees, and exchanging forecast and observation should change only the sign; but
the results are 360 - pi/2 and, exchanged, pi/2 (rounded). -/
theorem C260_clockwise_counterexample :
    ∃ d d', aggregated "vcnt_dir_abser" vcntDirAbser (turnedTable 1 0) = .ok (some d) ∧
      aggregated "vcnt_dir_abser" vcntDirAbser (turnedTable 0 1) = .ok (some d') ∧
      d = roundHalfUp (360 - Real.pi / 2) 7 ∧ d' = roundHalfUp (Real.pi / 2) 7 ∧ 358 < d ∧ d' < 2 := by
  have hp : prepareFields (turnedTable 1 0) (fieldsOf "vcnt_dir_err") = .ok (turnedTable 1 0) ∧
      prepareFields (turnedTable 0 1) (fieldsOf "vcnt_dir_err") = .ok (turnedTable 0 1) := by decide +kernel
  have hc : ∀ g, colMean "ufbar" (turnedTable 1 0) g = some 1 ∧ colMean "vfbar" (turnedTable 1 0) g = some 0 ∧
      colMean "uobar" (turnedTable 1 0) g = some 0 ∧ colMean "vobar" (turnedTable 1 0) g = some 1 := by decide +kernel
  have hc' : ∀ g, colMean "ufbar" (turnedTable 0 1) g = some 0 ∧ colMean "vfbar" (turnedTable 0 1) g = some 1 ∧
      colMean "uobar" (turnedTable 0 1) g = some 1 ∧ colMean "vobar" (turnedTable 0 1) g = some 0 := by decide +kernel
  have hI : Complex.arg ⟨0, 1⟩ = Real.pi / 2 := Complex.arg_I
  have hJ : Complex.arg ⟨0, -1⟩ = -(Real.pi / 2) := by
    have : (⟨0, -1⟩ : ℂ) = -Complex.I := by apply Complex.ext <;> simp
    rw [this, Complex.arg_neg_I]
  have hpi := Real.pi_pos
  have e1 : vcntDirErr (turnedTable 1 0) true = some (roundHalfUp (360 - Real.pi / 2) 7) := by
    rw [turned_err _ 1 0 (by norm_num) hc]
    have : calcDirection (((0 : ℚ) : ℝ) * ((0 : ℚ) : ℝ) - ((1 : ℚ) : ℝ) * ((1 : ℚ) : ℝ))
        (((1 : ℚ) : ℝ) * ((0 : ℚ) : ℝ) + ((0 : ℚ) : ℝ) * ((1 : ℚ) : ℝ)) = some (360 - Real.pi / 2) := by
      rw [show ((0 : ℚ) : ℝ) * ((0 : ℚ) : ℝ) - ((1 : ℚ) : ℝ) * ((1 : ℚ) : ℝ) = -1 by norm_num,
        show ((1 : ℚ) : ℝ) * ((0 : ℚ) : ℝ) + ((0 : ℚ) : ℝ) * ((1 : ℚ) : ℝ) = 0 by norm_num,
        C70_direction_actual _ _ (by norm_num), hJ, if_neg (by linarith)]
      congr 1; ring
    rw [this]; rfl
  have e2 : vcntDirErr (turnedTable 0 1) true = some (roundHalfUp (Real.pi / 2) 7) := by
    rw [turned_err _ 0 1 (by norm_num) hc']
    have : calcDirection (((1 : ℚ) : ℝ) * ((1 : ℚ) : ℝ) - ((0 : ℚ) : ℝ) * ((0 : ℚ) : ℝ))
        (((0 : ℚ) : ℝ) * ((1 : ℚ) : ℝ) + ((1 : ℚ) : ℝ) * ((0 : ℚ) : ℝ)) = some (Real.pi / 2) := by
      rw [show ((1 : ℚ) : ℝ) * ((1 : ℚ) : ℝ) - ((0 : ℚ) : ℝ) * ((0 : ℚ) : ℝ) = 1 by norm_num,
        show ((0 : ℚ) : ℝ) * ((1 : ℚ) : ℝ) + ((1 : ℚ) : ℝ) * ((0 : ℚ) : ℝ) = 0 by norm_num,
        C70_direction_actual _ _ (by norm_num), hI, if_pos (by positivity)]
    rw [this]; rfl
  refine ⟨_, _, ?_, ?_, rfl, rfl, ?_, ?_⟩
  · rw [(C260_abs_is_err _).1, aggregated_eq hp.1, e1]
  · rw [(C260_abs_is_err _).1, aggregated_eq hp.2, e2]
  · have h1 := lt_roundHalfUp (360 - Real.pi / 2) 7
    have h2 := Real.pi_lt_d2
    norm_num at h1
    linarith
  · have h1 := roundHalfUp_le (Real.pi / 2) 7
    have h2 := Real.pi_lt_d2
    norm_num at h1
    linarith

/-- The hypotheses of the partial statement are met by both tables. -/
example (d : ℝ) := C260_dir_abser_partial _ _ turnedTable_data.1 d 1 0 0 1 (by norm_num [avg]) (by norm_num [avg])
  (by norm_num [avg]) (by norm_num [avg]) (by norm_num) (by norm_num)

end Metcalcpy.Props
