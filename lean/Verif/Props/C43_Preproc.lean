/-
C43  Meridional mean averages the requested latitude band (false of the code).
C56  Wind decomposition preserves the wind speed.
-/
import Verif.Spec.Preproc
import Mathlib.Tactic.Ring
import Mathlib.Tactic.FieldSimp
import Mathlib.Tactic.Linarith
import Mathlib.Tactic.NormNum
import Mathlib.Tactic.LinearCombination

namespace Metcalcpy.Props
open Metcalcpy Spec

/-! ### C43 -/

/-- C43: the call is rejected exactly when the first limit is not below the second. -/
theorem C43_rejects_iff (dat : List LatCell) (lat1 lat2 : ℝ) :
    meridionalMean dat lat1 lat2 = .error .valueError ↔ lat2 ≤ lat1 := by
  unfold meridionalMean
  split_ifs with h1 h2
  · exact ⟨fun _ => le_of_lt h1, fun _ => rfl⟩
  · exact ⟨fun _ => h2.ge, fun _ => rfl⟩
  · constructor
    · intro h; simp at h
    · intro h; exact absurd (lt_of_le_of_ne h (fun e => h2 e.symm)) (by simpa using h1)

theorem valid_band (dat : List LatCell) :
    ((dat.filter (fun c => decide (c.lat ≥ 60 ∧ c.lat ≤ 90))).map
      (fun c => (cosDeg c.lat, c.value))).filterMap (fun p => p.2.map (fun v => (p.1, v))) =
    (bandValues dat 60 90).map (fun p => (cosDeg p.1, p.2)) := by
  induction dat with
  | nil => rfl
  | cons c l ih =>
    unfold bandValues at ih ⊢
    by_cases h : 60 ≤ c.lat ∧ c.lat ≤ 90
    · have h' : c.lat ≥ 60 ∧ c.lat ≤ 90 := h
      rw [List.filter_cons, if_pos (by simpa using h'), List.map_cons, List.filterMap_cons,
        List.filterMap_cons, if_pos h, ih]
      cases c.value <;> simp
    · have h' : ¬ (c.lat ≥ 60 ∧ c.lat ≤ 90) := h
      rw [List.filter_cons, if_neg (by simpa using h'), List.filterMap_cons, if_neg h, ih]

/-- C43 (partial): for the band that the code uses, or any band containing the same data, the result is the
cosine-weighted mean of the valid values in the requested band.  Missing: every other band, for which the
claim is false (`C43_ignores_limits`). -/
theorem C43_band_partial (dat : List LatCell) (lat1 lat2 : ℝ) (hlt : lat1 < lat2)
    (hband : ∀ c ∈ dat, (lat1 ≤ c.lat ∧ c.lat ≤ lat2) ↔ (60 ≤ c.lat ∧ c.lat ≤ 90))
    (hne : ∃ p ∈ bandValues dat lat1 lat2, p.1 < 90) :
    ∃ m, meridionalMean dat lat1 lat2 = .ok (some m) ∧ IsCosMean (bandValues dat lat1 lat2) m := by
  have hb : bandValues dat lat1 lat2 = bandValues dat 60 90 := by
    unfold bandValues
    apply List.filterMap_congr
    intro c hc
    by_cases h : lat1 ≤ c.lat ∧ c.lat ≤ lat2
    · rw [if_pos h, if_pos ((hband c hc).mp h)]
    · rw [if_neg h, if_neg (fun h' => h ((hband c hc).mpr h'))]
  rw [hb] at hne ⊢
  have hcos : ∀ x : ℝ, cosDeg x = Real.cos (Real.pi * x / 180) := by
    intro x; unfold cosDeg; congr 1; ring
  have hin : ∀ p ∈ bandValues dat 60 90, 60 ≤ p.1 ∧ p.1 ≤ 90 := by
    intro p hp
    unfold bandValues at hp
    rw [List.mem_filterMap] at hp
    obtain ⟨c, -, hc⟩ := hp
    split_ifs at hc with h
    · rw [Option.map_eq_some_iff] at hc
      obtain ⟨v, -, rfl⟩ := hc
      exact h
  have hpi := Real.pi_pos
  have hnn : ∀ p ∈ bandValues dat 60 90, 0 ≤ cosDeg p.1 := by
    intro p hp
    obtain ⟨a, b⟩ := hin p hp
    rw [hcos]
    apply Real.cos_nonneg_of_neg_pi_div_two_le_of_le
    · have : 0 ≤ Real.pi * p.1 / 180 := by positivity
      linarith
    · have : Real.pi * p.1 ≤ Real.pi * 90 := by nlinarith
      linarith
  have hpos : 0 < ((bandValues dat 60 90).map (fun p => cosDeg p.1)).sum := by
    obtain ⟨p, hp, hp90⟩ := hne
    have h1 : 0 < cosDeg p.1 := by
      obtain ⟨a, b⟩ := hin p hp
      rw [hcos]
      apply Real.cos_pos_of_mem_Ioo
      constructor
      · have : 0 ≤ Real.pi * p.1 / 180 := by positivity
        linarith
      · have : Real.pi * p.1 < Real.pi * 90 := by nlinarith
        linarith
    have h2 : cosDeg p.1 ≤ ((bandValues dat 60 90).map (fun p => cosDeg p.1)).sum := by
      apply List.single_le_sum
      · intro x hx
        obtain ⟨q, hq, rfl⟩ := List.mem_map.mp hx
        exact hnn q hq
      · exact List.mem_map_of_mem hp
    linarith
  unfold meridionalMean
  rw [if_neg (not_lt.mpr hlt.le), if_neg hlt.ne]
  simp only [weightedMean, valid_band, List.map_map, Function.comp_def]
  rw [if_neg hpos.ne']
  refine ⟨_, rfl, ?_⟩
  unfold IsCosMean
  simp only [← hcos]
  field_simp

/-- C43 fails: the accepted limits have no influence on the result. -/
theorem C43_ignores_limits (dat : List LatCell) (lat1 lat2 lat1' lat2' : ℝ) (h : lat1 < lat2)
    (h' : lat1' < lat2') : meridionalMean dat lat1 lat2 = meridionalMean dat lat1' lat2' := by
  simp [meridionalMean, not_lt.mpr h.le, not_lt.mpr h'.le, h.ne, h'.ne]

/-- C43 as stated is false: the mean over 0..30 degrees of a profile with a value at 15 is missing. -/
theorem C43_counterexample :
    ¬ ∀ (dat : List LatCell) (lat1 lat2 : ℝ), lat1 < lat2 → (∃ p ∈ bandValues dat lat1 lat2, |p.1| < 90) →
      ∃ m, meridionalMean dat lat1 lat2 = .ok (some m) ∧ IsCosMean (bandValues dat lat1 lat2) m := by
  intro h
  obtain ⟨m, hm, -⟩ := h [⟨15, some 1⟩] 0 30 (by norm_num) ⟨(15, 1), by norm_num [bandValues], by norm_num⟩
  rw [meridionalMean, if_neg (by norm_num), if_neg (by norm_num)] at hm
  norm_num [weightedMean] at hm
  simp at hm

example : ∃ m, meridionalMean [⟨50, some 3⟩, ⟨60, some 1⟩, ⟨70, some 5⟩, ⟨80, none⟩, ⟨90, some 7⟩] 60 90 =
    .ok (some m) ∧ IsCosMean [(60, 1), (70, 5), (90, 7)] m := by
  have := C43_band_partial [⟨50, some 3⟩, ⟨60, some 1⟩, ⟨70, some 5⟩, ⟨80, none⟩, ⟨90, some 7⟩] 60 90
    (by norm_num) (fun c _ => Iff.rfl) ⟨(60, 1), by norm_num [bandValues], by norm_num⟩
  have e : bandValues [⟨50, some 3⟩, ⟨60, some 1⟩, ⟨70, some 5⟩, ⟨80, none⟩, ⟨90, some 7⟩] 60 90 =
      [(60, 1), (70, 5), (90, 7)] := by
    norm_num [bandValues, List.filterMap_cons]
  rwa [e] at this

/-- The zonal mean of complete data is the arithmetic mean. -/
theorem C43_zonal (vals : List ℝ) (h : vals ≠ []) :
    zonalMean (vals.map some) = some (vals.sum / vals.length) := by
  have : (vals.map some).filterMap id = vals := by
    induction vals with
    | nil => rfl
    | cons a l ih => cases l with
      | nil => rfl
      | cons b l => simpa using ih (by simp)
  simp [zonalMean, this, h]

/-! ### C56 -/

theorem windTheta_trig (az : ℕ → ℝ) (j : ℕ) :
    Real.cos (windTheta az j) = -Real.sin (Real.pi / 180 * az j) ∧
    Real.sin (windTheta az j) = Real.cos (Real.pi / 180 * az j) := by
  unfold windTheta
  simp only
  split_ifs
  · rw [Real.cos_sub_two_pi, Real.sin_sub_two_pi, Real.cos_add_pi_div_two, Real.sin_add_pi_div_two]
    exact ⟨rfl, rfl⟩
  · rw [Real.cos_add_pi_div_two, Real.sin_add_pi_div_two]
    exact ⟨rfl, rfl⟩

/-- C56: at every point the two components have the speed of the wind. -/
theorem C56_speed (az : ℕ → ℝ) (u v : ℕ → ℕ → ℕ → ℕ → ℝ) (i j k t : ℕ) :
    (windComponents az u v i j k t).1 ^ 2 + (windComponents az u v i j k t).2 ^ 2 =
      u i j k t ^ 2 + v i j k t ^ 2 := by
  unfold windComponents
  simp only
  have h := Real.sin_sq_add_cos_sq (windTheta az j)
  generalize Real.cos (windTheta az j) = c at *
  generalize Real.sin (windTheta az j) = s at *
  linear_combination (u i j k t ^ 2 + v i j k t ^ 2) * h

/-- C56: the decomposition is the one in the rotated frame: a wind with radial part `a` and tangential part
`b`, i.e. `a` times the unit vector at `azimuth + 90` degrees plus `b` times that vector turned by 90 degrees,
has components `a` and `b`. -/
theorem C56_components (az : ℕ → ℝ) (u v : ℕ → ℕ → ℕ → ℕ → ℝ) (i j k t : ℕ) (a b : ℝ)
    (hu : u i j k t = a * Real.cos (Real.pi * (az j + 90) / 180) - b * Real.sin (Real.pi * (az j + 90) / 180))
    (hv : v i j k t = a * Real.sin (Real.pi * (az j + 90) / 180) + b * Real.cos (Real.pi * (az j + 90) / 180)) :
    windComponents az u v i j k t = (a, b) := by
  have e : Real.pi * (az j + 90) / 180 = Real.pi / 180 * az j + Real.pi / 2 := by ring
  have hc := (windTheta_trig az j).1
  have hs := (windTheta_trig az j).2
  rw [e, Real.cos_add_pi_div_two, Real.sin_add_pi_div_two] at hu hv
  unfold windComponents
  simp only [hc, hs, hu, hv]
  have h := Real.sin_sq_add_cos_sq (Real.pi / 180 * az j)
  generalize Real.cos (Real.pi / 180 * az j) = c at *
  generalize Real.sin (Real.pi / 180 * az j) = s at *
  refine Prod.ext ?_ ?_
  · simp only; linear_combination a * h
  · simp only; linear_combination b * h

/-- C56: the components determine the wind. -/
theorem C56_injective (az : ℕ → ℝ) (u v u' v' : ℕ → ℕ → ℕ → ℕ → ℝ) (i j k t : ℕ)
    (h : windComponents az u v i j k t = windComponents az u' v' i j k t) :
    u i j k t = u' i j k t ∧ v i j k t = v' i j k t := by
  have h2 := C56_speed az (fun i j k t => u i j k t - u' i j k t) (fun i j k t => v i j k t - v' i j k t) i j k t
  unfold windComponents at h h2
  simp only [Prod.mk.injEq] at h
  simp only at h2
  have a1 : Real.cos (windTheta az j) * (u i j k t - u' i j k t) +
      Real.sin (windTheta az j) * (v i j k t - v' i j k t) = 0 := by linarith [h.1]
  have a2 : -Real.sin (windTheta az j) * (u i j k t - u' i j k t) +
      Real.cos (windTheta az j) * (v i j k t - v' i j k t) = 0 := by linarith [h.2]
  rw [a1, a2] at h2
  constructor <;> nlinarith [sq_nonneg (u i j k t - u' i j k t), sq_nonneg (v i j k t - v' i j k t)]

/-- A wind blowing from the centre outwards at azimuth 0 is purely radial. -/
example : windComponents (fun _ => 0) (fun _ _ _ _ => 0) (fun _ _ _ _ => 5) 0 0 0 0 = (5, 0) :=
  C56_components _ _ _ 0 0 0 0 5 0 
    (by
      have : Real.pi * (0 + 90) / 180 = Real.pi / 2 := by ring
      simp only [this]; norm_num)
    (by
      have : Real.pi * (0 + 90) / 180 = Real.pi / 2 := by ring
      simp only [this]; norm_num)

end Metcalcpy.Props
