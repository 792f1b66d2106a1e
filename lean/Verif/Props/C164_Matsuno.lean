import Mathlib.Topology.Order.IntermediateValue
import Mathlib.Topology.Algebra.Polynomial
import Mathlib.Tactic.Linarith
import Mathlib.Tactic.Ring
import Mathlib.Tactic.FieldSimp
import Mathlib.Tactic.LinearCombination
import Mathlib.Tactic.Positivity
import Mathlib.Analysis.SpecialFunctions.Trigonometric.Basic
import Verif.Model.Matsuno

/-!
C164-C167: the dispersion curves of the equatorial waves.

Specification: on the circle of latitude `lat`, with `c = sqrt (9.80665 he)` the speed of a gravity wave of equivalent
depth `he`, `beta` the gradient of the Coriolis parameter there, and `k` the wavenumber in radians per metre of the
global wavenumber `wn`, the waves of meridional mode `n` are the solutions `w` of
`w³ - (c² k² + (2n+1) beta c) w - beta c² k = 0` (Matsuno 1966); the Kelvin wave is `w = c k`.
-/

namespace Metcalcpy.Spec

/-- Speed of a gravity wave of equivalent depth `he`, metres per second. -/
noncomputable def waveSpeed (he : ℝ) : ℝ := Real.sqrt (9.80665 * he)

/-- Length of the circle of latitude `lat` (degrees), metres. -/
noncomputable def circleLength (lat : ℝ) : ℝ := 2 * Real.pi * (6371008 * Real.cos (lat * (Real.pi / 180)))

/-- Gradient of the Coriolis parameter at latitude `lat`. -/
noncomputable def coriolisGradient (lat : ℝ) : ℝ := 2 * 7.292e-5 * Real.cos (lat * (Real.pi / 180)) / 6371008

/-- Radians per metre of the global wavenumber `wn` (waves around the circle). -/
noncomputable def radPerMetre (lat wn : ℝ) : ℝ := 2 * Real.pi * wn / circleLength lat

/-- Radians per second of `nu` cycles per day. -/
noncomputable def radPerSecond (nu : ℝ) : ℝ := 2 * Real.pi * nu / 86400

/-- Matsuno's dispersion relation of mode `n`. -/
def MatsunoRelation (c beta k : ℝ) (n : ℕ) (w : ℝ) : Prop :=
  w ^ 3 - (c ^ 2 * k ^ 2 + (2 * n + 1) * beta * c) * w - beta * c ^ 2 * k = 0

/-- The relation left for mode 0 after the solution `w = -c k`, which is not a wave, has been divided out. -/
def MixedRelation (c beta k w : ℝ) : Prop := w ^ 2 - c * k * w - beta * c = 0

/-- Cycles per day of a Kelvin wave with `wn` waves around the circle: what passes a point at the speed of the wave. -/
noncomputable def kelvinLine (he lat wn : ℝ) : ℝ := 86400 * waveSpeed he * wn / circleLength lat

/-- `r` is a positive zero of `f` and there is no other zero between it and `s`: what a search from `s` that does not
    jump over zeros can end in. -/
def AdjacentZero (f : ℝ → ℝ) (s r : ℝ) : Prop :=
  0 < r ∧ f r = 0 ∧ ∀ x, (s ≤ x ∧ x < r) ∨ (r < x ∧ x ≤ s) → f x ≠ 0

end Metcalcpy.Spec

namespace Metcalcpy

open Spec

/-! ### helper facts -/

theorem wn2k_eq (P wn : ℝ) : wn2k P wn = 2 * Real.pi * wn / P := by
  unfold wn2k; rw [div_div_eq_mul_div]

theorem afreq2freq_eq (w : ℝ) : afreq2freq w = 86400 * w / (2 * Real.pi) := by
  have h : (2 * Real.pi) ≠ 0 := by positivity
  unfold afreq2freq sec2day
  by_cases hw : w = 0
  · subst hw; simp
  · field_simp; norm_num

theorem radPerSecond_afreq (w : ℝ) : radPerSecond (afreq2freq w) = w := by
  have h : (2 * Real.pi) ≠ 0 := by positivity
  rw [afreq2freq_eq]; unfold radPerSecond; field_simp

theorem afreq_radPerSecond (v : ℝ) : afreq2freq (radPerSecond v) = v := by
  have h : (2 * Real.pi) ≠ 0 := by positivity
  rw [afreq2freq_eq]; unfold radPerSecond; field_simp

theorem afreq2freq_lt {a b : ℝ} (h : a < b) : afreq2freq a < afreq2freq b := by
  rw [afreq2freq_eq, afreq2freq_eq]
  have := Real.pi_pos
  apply div_lt_div_of_pos_right _ (by positivity)
  linarith

theorem afreq2freq_pos {a : ℝ} (h : 0 < a) : 0 < afreq2freq a := by
  rw [afreq2freq_eq]; have := Real.pi_pos; positivity

theorem waveSpeed_eq (he : ℝ) : Real.sqrt (gravityMat * he) = waveSpeed he := by
  unfold gravityMat waveSpeed; norm_num

theorem waveSpeed_pos {he : ℝ} (h : 0 < he) : 0 < waveSpeed he := by
  unfold waveSpeed; positivity

theorem waveSpeed_sq {he : ℝ} (h : 0 < he) : gravityMat * he = waveSpeed he ^ 2 := by
  rw [← waveSpeed_eq, Real.sq_sqrt]; unfold gravityMat; positivity

theorem cos_lat_abs (lat : ℝ) : Real.cos (|lat| * deg2rad) = Real.cos (lat * (Real.pi / 180)) := by
  unfold deg2rad
  rcases abs_choice lat with h | h <;> rw [h]
  rw [neg_mul, Real.cos_neg]

theorem cos_lat_pos {lat : ℝ} (h : |lat| < 90) : 0 < Real.cos (lat * (Real.pi / 180)) := by
  have hp := Real.pi_pos
  obtain ⟨h1, h2⟩ := abs_lt.mp h
  apply Real.cos_pos_of_mem_Ioo
  constructor <;> nlinarith

theorem beta_eq (lat : ℝ) : (betaParameters lat).1 = coriolisGradient lat := by
  unfold betaParameters coriolisGradient omegaEarth earthRadius
  simp only [cos_lat_abs]; norm_num

theorem perimeter_eq (lat : ℝ) : (betaParameters lat).2 = circleLength lat := by
  unfold betaParameters circleLength earthRadius
  simp only [cos_lat_abs]; ring

theorem circleLength_pos {lat : ℝ} (h : |lat| < 90) : 0 < circleLength lat := by
  have := cos_lat_pos h
  unfold circleLength; positivity

theorem coriolis_pos {lat : ℝ} (h : |lat| < 90) : 0 < coriolisGradient lat := by
  have := cos_lat_pos h
  unfold coriolisGradient; positivity

theorem wn2k_rad (lat wn : ℝ) : wn2k (betaParameters lat).2 wn = radPerMetre lat wn := by
  rw [wn2k_eq, perimeter_eq]; rfl

theorem rad_pos_iff {lat wn : ℝ} (h : |lat| < 90) : 0 < radPerMetre lat wn ↔ 0 < wn := by
  have hc := circleLength_pos h
  have hp := Real.pi_pos
  unfold radPerMetre
  rw [div_pos_iff_of_pos_right hc]
  constructor
  · intro h; by_contra hn; push Not at hn; nlinarith
  · intro h; positivity

theorem rad_neg_iff {lat wn : ℝ} (h : |lat| < 90) : radPerMetre lat wn < 0 ↔ wn < 0 := by
  have := rad_pos_iff (wn := -wn) h
  have e : radPerMetre lat (-wn) = - radPerMetre lat wn := by unfold radPerMetre; ring
  rw [e] at this
  constructor
  · intro h; linarith [this.mp (by linarith)]
  · intro h; linarith [this.mpr (by linarith)]

/-- The angular frequency in one row of a column. -/
noncomputable def modeOmega (solve : (ℝ → ℝ) → ℝ → ℝ) (m : WaveMode) (he beta k : ℝ) : Option ℝ :=
  match m with
  | .kelvin => kelvinOmega he k
  | .mrg => mrgOmega he beta k
  | .eig0 => eig0Omega he beta k
  | .er n => erOmega solve he beta n k
  | .eig n => eigOmega solve he beta n k
  | .wig n => wigOmega solve he beta n k

theorem modeColumn_eq (solve : (ℝ → ℝ) → ℝ → ℝ) (m : WaveMode) (he lat maxWn : ℝ) (nWn : ℤ) :
    modeColumn solve m he lat maxWn nWn = (wnArray maxWn nWn).map (fun wn : ℝ =>
      (wn, (modeOmega solve m he (coriolisGradient lat) (radPerMetre lat wn)).map afreq2freq)) := by
  unfold modeColumn
  dsimp only
  apply List.map_congr_left
  intro wn _
  rw [wn2k_rad, beta_eq]
  cases m <;> rfl

theorem mem_modeColumn {solve : (ℝ → ℝ) → ℝ → ℝ} {m : WaveMode} {he lat maxWn : ℝ} {nWn : ℤ} {wn : ℝ} {f : Option ℝ}
    (h : (wn, f) ∈ modeColumn solve m he lat maxWn nWn) :
    wn ∈ wnArray maxWn nWn ∧
    f = (modeOmega solve m he (coriolisGradient lat) (radPerMetre lat wn)).map afreq2freq := by
  rw [modeColumn_eq, List.mem_map] at h
  obtain ⟨x, hx, he⟩ := h
  obtain ⟨h1, h2⟩ := Prod.mk.inj he
  subst h1
  exact ⟨hx, h2.symm⟩

/-! cubic equations -/

theorem cubic_factor_two {A B s : ℝ} (hB : 0 < B) (hs : 0 < s) (h : s ^ 3 - A * s + B < 0) :
    ∃ a b, 0 < a ∧ a < s ∧ s < b ∧ ∀ w : ℝ, w ^ 3 - A * w + B = (w - a) * (w - b) * (w + a + b) := by
  have hcont : Continuous (fun w : ℝ => w ^ 3 - A * w + B) := by fun_prop
  have h0 : (0 : ℝ) ∈ Set.Ioo (s ^ 3 - A * s + B) ((0 : ℝ) ^ 3 - A * 0 + B) := ⟨h, by norm_num; exact hB⟩
  obtain ⟨a, ⟨ha0, has⟩, hfa⟩ := intermediate_value_Ioo' hs.le hcont.continuousOn h0
  have hfa' : a ^ 3 - A * a + B = 0 := hfa
  set M := s + |A| + 1 with hM
  have hA : A ≤ |A| := le_abs_self A
  have hA0 : 0 ≤ |A| := abs_nonneg A
  have hM1 : 1 ≤ M := by linarith
  have hfM : 0 < M ^ 3 - A * M + B := by
    have : A < M ^ 2 := by nlinarith
    nlinarith
  have h1 : (0 : ℝ) ∈ Set.Ioo (s ^ 3 - A * s + B) (M ^ 3 - A * M + B) := ⟨h, hfM⟩
  obtain ⟨b, ⟨hsb, _⟩, hfb⟩ := intermediate_value_Ioo (by linarith : s ≤ M) hcont.continuousOn h1
  have hfb' : b ^ 3 - A * b + B = 0 := hfb
  refine ⟨a, b, ha0, has, hsb, fun w => ?_⟩
  have hAq : A = a ^ 2 + a * b + b ^ 2 := by
    have : (b - a) * (a ^ 2 + a * b + b ^ 2 - A) = 0 := by linear_combination hfb' - hfa'
    rcases mul_eq_zero.mp this with h | h <;> linarith
  have hBq : B = A * a - a ^ 3 := by linarith
  rw [hBq, hAq]; ring

theorem cubic_factor_one {A B : ℝ} (hB : 0 < B) :
    ∃ b, 0 < b ∧ A < b ^ 2 ∧ ∀ w : ℝ, w ^ 3 - A * w - B = (w - b) * (w ^ 2 + b * w + (b ^ 2 - A)) := by
  have hcont : Continuous (fun w : ℝ => w ^ 3 - A * w - B) := by fun_prop
  set M := |A| + B + 1 with hM
  have hA : A ≤ |A| := le_abs_self A
  have hA0 : 0 ≤ |A| := abs_nonneg A
  have hfM : 0 < M ^ 3 - A * M - B := by
    have : A + B ≤ M ^ 2 := by nlinarith
    nlinarith
  have h1 : (0 : ℝ) ∈ Set.Ioo ((0 : ℝ) ^ 3 - A * 0 - B) (M ^ 3 - A * M - B) := ⟨by norm_num; exact hB, hfM⟩
  obtain ⟨b, ⟨hb, _⟩, hfb⟩ := intermediate_value_Ioo (by linarith : (0 : ℝ) ≤ M) hcont.continuousOn h1
  have hfb' : b ^ 3 - A * b - B = 0 := hfb
  refine ⟨b, hb, ?_, fun w => ?_⟩
  · by_contra hn; push Not at hn; nlinarith
  · have hBq : B = b ^ 3 - A * b := by linarith
    rw [hBq]; ring

theorem dispersion_eq {he : ℝ} (hhe : 0 < he) (k : ℝ) (n : ℕ) (beta w : ℝ) :
    dispersion k n he beta w =
      w ^ 3 - (waveSpeed he ^ 2 * k ^ 2 + (2 * n + 1) * beta * waveSpeed he) * w - beta * waveSpeed he ^ 2 * k := by
  have hc := waveSpeed_pos hhe
  have : dispersion k n he beta w =
      w ^ 3 - (gravityMat * he) * (k ^ 2 + beta * (2 * n + 1) / Real.sqrt (gravityMat * he)) * w
        - k * beta * (gravityMat * he) := by unfold dispersion; ring
  rw [this, waveSpeed_eq, waveSpeed_sq hhe]
  field_simp

theorem erSeed_eq (k : ℝ) (n : ℕ) (he beta : ℝ) :
    erSeed k n he beta = -beta * k / (k * k + (2 * n + 1) * (beta / waveSpeed he)) := by
  unfold erSeed; rw [waveSpeed_eq]

theorem igSeed_eq {he : ℝ} (hhe : 0 < he) (k : ℝ) (n : ℕ) (beta : ℝ) :
    igSeed k n he beta = Real.sqrt (waveSpeed he ^ 2 * k ^ 2 + (2 * n + 1) * beta * waveSpeed he) := by
  unfold igSeed
  rw [waveSpeed_eq]
  congr 1
  have := waveSpeed_sq hhe
  linear_combination k ^ 2 * this

/-- Westward waves: the two positive solutions and where the searches start. -/
theorem westward_roots {he beta k : ℝ} {n : ℕ} (hhe : 0 < he) (hb : 0 < beta) (hk : k < 0) (hn : 1 ≤ n) :
    ∃ er wig, 0 < er ∧ er < waveSpeed he * -k ∧ waveSpeed he * -k < wig ∧
      (∀ w, dispersion k n he beta w = (w - er) * (w - wig) * (w + er + wig)) ∧
      0 < erSeed k n he beta ∧ erSeed k n he beta < er ∧ wig < igSeed k n he beta := by
  have hc := waveSpeed_pos hhe
  set c := waveSpeed he with hcdef
  have hn1 : (1 : ℝ) ≤ n := by exact_mod_cast hn
  have hs : 0 < c * -k := mul_pos hc (by linarith)
  have hB : 0 < beta * c ^ 2 * -k := by have : 0 < -k := by linarith
                                        positivity
  have hneg : (c * -k) ^ 3 - (c ^ 2 * k ^ 2 + (2 * n + 1) * beta * c) * (c * -k) + beta * c ^ 2 * -k < 0 := by
    have : (c * -k) ^ 3 - (c ^ 2 * k ^ 2 + (2 * n + 1) * beta * c) * (c * -k) + beta * c ^ 2 * -k
        = -(2 * n * (beta * c ^ 2 * -k)) := by ring
    rw [this]
    have : 0 < (n : ℝ) := by linarith
    have : 0 < 2 * n * (beta * c ^ 2 * -k) := by positivity
    linarith
  obtain ⟨a, b, ha, has, hsb, hf⟩ := cubic_factor_two hB hs hneg
  have hd : ∀ w, dispersion k n he beta w = (w - a) * (w - b) * (w + a + b) := by
    intro w; rw [dispersion_eq hhe, ← hf w]; ring
  have hden : 0 < k * k + (2 * n + 1) * (beta / c) := by
    have : 0 < beta / c := by positivity
    have : 0 < k * k := by nlinarith
    positivity
  have hseed0 : 0 < erSeed k n he beta := by
    rw [erSeed_eq]; apply div_pos _ hden; nlinarith
  refine ⟨a, b, ha, has, hsb, hd, hseed0, ?_, ?_⟩
  · -- the value at the seed is the cube of the seed
    have hval : dispersion k n he beta (erSeed k n he beta) = (erSeed k n he beta) ^ 3 := by
      rw [dispersion_eq hhe]
      have e : erSeed k n he beta * (k * k + (2 * n + 1) * (beta / c)) = -beta * k := by
        rw [erSeed_eq, div_mul_cancel₀]; exact hden.ne'
      have e2 : erSeed k n he beta * (c ^ 2 * k ^ 2 + (2 * n + 1) * beta * c) = -beta * k * c ^ 2 := by
        have : erSeed k n he beta * (c ^ 2 * k ^ 2 + (2 * n + 1) * beta * c)
            = (erSeed k n he beta * (k * k + (2 * n + 1) * (beta / c))) * c ^ 2 := by field_simp
        rw [this, e]
      rw [← hcdef]
      linear_combination -e2
    have hlt : erSeed k n he beta < c * -k := by
      rw [erSeed_eq, div_lt_iff₀ hden]
      have h1 : c * -k * (k * k + (2 * n + 1) * (beta / c)) = c * -k * (k * k) + (2 * n + 1) * beta * -k := by
        field_simp; ring
      rw [h1]
      have h2 : 0 < c * -k * (k * k) := mul_pos hs (by nlinarith)
      have h3 : 0 < beta * -k := mul_pos hb (by linarith)
      nlinarith
    by_contra hge
    push Not at hge
    have h1 : 0 < dispersion k n he beta (erSeed k n he beta) := by rw [hval]; positivity
    rw [hd] at h1
    have h2 : 0 ≤ erSeed k n he beta - a := by linarith
    have h3 : 0 < b - erSeed k n he beta := by linarith
    have h4 : 0 < erSeed k n he beta + a + b := by linarith
    have h5 : 0 ≤ (erSeed k n he beta - a) * (b - erSeed k n he beta) * (erSeed k n he beta + a + b) := by positivity
    nlinarith
  · have hA : 0 < c ^ 2 * k ^ 2 + (2 * n + 1) * beta * c := by positivity
    have hsq : igSeed k n he beta ^ 2 = c ^ 2 * k ^ 2 + (2 * n + 1) * beta * c := by
      rw [igSeed_eq hhe, Real.sq_sqrt hA.le]
    have hpos : 0 < igSeed k n he beta := by rw [igSeed_eq hhe]; exact Real.sqrt_pos.mpr hA
    have hgt : c * -k < igSeed k n he beta := by
      have : 0 < (2 * n + 1) * beta * c := by positivity
      nlinarith
    have hval : dispersion k n he beta (igSeed k n he beta) = beta * c ^ 2 * -k := by
      rw [dispersion_eq hhe, ← hcdef, ← hsq]; ring
    by_contra hge
    push Not at hge
    have h1 : 0 < dispersion k n he beta (igSeed k n he beta) := by rw [hval]; exact hB
    rw [hd] at h1
    have h2 : 0 < igSeed k n he beta - a := by linarith
    have h3 : 0 ≤ b - igSeed k n he beta := by linarith
    have h4 : 0 < igSeed k n he beta + a + b := by linarith
    have h5 : 0 ≤ (igSeed k n he beta - a) * (b - igSeed k n he beta) * (igSeed k n he beta + a + b) := by positivity
    nlinarith

/-- Eastward waves: the only positive solution. -/
theorem eastward_root {he beta k : ℝ} (n : ℕ) (hhe : 0 < he) (hb : 0 < beta) (hk : 0 < k) :
    ∃ eig, waveSpeed he * k < eig ∧
      (∀ w, dispersion k n he beta w =
        (w - eig) * (w ^ 2 + eig * w + (eig ^ 2 - (waveSpeed he ^ 2 * k ^ 2 + (2 * n + 1) * beta * waveSpeed he)))) ∧
      waveSpeed he ^ 2 * k ^ 2 + (2 * n + 1) * beta * waveSpeed he < eig ^ 2 ∧
      0 < igSeed k n he beta ∧ igSeed k n he beta < eig := by
  have hc := waveSpeed_pos hhe
  set c := waveSpeed he with hcdef
  have hB : 0 < beta * c ^ 2 * k := by positivity
  obtain ⟨b, hb0, hAb, hf⟩ := cubic_factor_one (A := c ^ 2 * k ^ 2 + (2 * n + 1) * beta * c) hB
  have hd : ∀ w, dispersion k n he beta w =
      (w - b) * (w ^ 2 + b * w + (b ^ 2 - (c ^ 2 * k ^ 2 + (2 * n + 1) * beta * c))) := by
    intro w; rw [dispersion_eq hhe, ← hf w]
  have hA : 0 < c ^ 2 * k ^ 2 + (2 * n + 1) * beta * c := by positivity
  have hsq : igSeed k n he beta ^ 2 = c ^ 2 * k ^ 2 + (2 * n + 1) * beta * c := by
    rw [igSeed_eq hhe, Real.sq_sqrt hA.le]
  have hpos : 0 < igSeed k n he beta := by rw [igSeed_eq hhe]; exact Real.sqrt_pos.mpr hA
  have hlt : igSeed k n he beta < b := by nlinarith
  refine ⟨b, ?_, hd, hAb, hpos, hlt⟩
  have : 0 < (2 * n + 1) * beta * c := by positivity
  have hck : 0 < c * k := by positivity
  nlinarith

theorem adjacent_er {he beta k : ℝ} {n : ℕ} {a b r : ℝ} (ha : 0 < a) (hab : a < b)
    (hd : ∀ w, dispersion k n he beta w = (w - a) * (w - b) * (w + a + b))
    {s : ℝ} (hs0 : 0 < s) (hs : s < a) (h : AdjacentZero (dispersion k n he beta) s r) : r = a := by
  obtain ⟨hr, hz, hno⟩ := h
  rw [hd] at hz
  have h3 : r + a + b ≠ 0 := by linarith
  rcases mul_eq_zero.mp hz with h | h
  · rcases mul_eq_zero.mp h with h | h
    · linarith
    · exfalso
      have hrb : r = b := by linarith
      exact hno a (Or.inl ⟨hs.le, by linarith⟩) (by rw [hd]; ring)
  · exact absurd h h3

theorem adjacent_wig {he beta k : ℝ} {n : ℕ} {a b r : ℝ} (ha : 0 < a) (hab : a < b)
    (hd : ∀ w, dispersion k n he beta w = (w - a) * (w - b) * (w + a + b))
    {s : ℝ} (hs : b < s) (h : AdjacentZero (dispersion k n he beta) s r) : r = b := by
  obtain ⟨hr, hz, hno⟩ := h
  rw [hd] at hz
  have h3 : r + a + b ≠ 0 := by linarith
  rcases mul_eq_zero.mp hz with h | h
  · rcases mul_eq_zero.mp h with h | h
    · exfalso
      exact hno b (Or.inr ⟨by linarith, hs.le⟩) (by rw [hd]; ring)
    · linarith
  · exact absurd h h3

theorem zero_eig {he beta k : ℝ} {n : ℕ} {b r A : ℝ} (hb : 0 < b)
    (hd : ∀ w, dispersion k n he beta w = (w - b) * (w ^ 2 + b * w + (b ^ 2 - A))) (hA : A < b ^ 2)
    (hr : 0 < r) (hz : dispersion k n he beta r = 0) : r = b := by
  rw [hd] at hz
  rcases mul_eq_zero.mp hz with h | h
  · linarith
  · have : 0 < r ^ 2 + b * r + (b ^ 2 - A) := by
      have : 0 < b ^ 2 - A := by linarith
      positivity
    linarith

end Metcalcpy

namespace Metcalcpy.Props

open Metcalcpy Spec

/-- C164.  The wavenumbers of every curve: as many as asked for, evenly spread from `-max_wn` to `max_wn`, mirrored about
    zero; wavenumber zero is among them exactly when their number is odd. -/
theorem C164_wavenumbers (maxWn : ℝ) (nWn : ℤ) (n : ℕ) (hn : nWn = n ∨ nWn = -n) (h2 : 2 ≤ n) (hm : maxWn ≠ 0) :
    ∃ wn : ℕ → ℝ, wnArray maxWn nWn = (List.range n).map wn ∧
      wn 0 = -maxWn ∧ wn (n - 1) = maxWn ∧
      (∀ j, wn (j + 1) - wn j = 2 * maxWn / (n - 1)) ∧
      (∀ j, j < n → wn (n - 1 - j) = -wn j) ∧
      (0 ∈ wnArray maxWn nWn ↔ Odd n) := by
  have hna : nWn.natAbs = n := by rcases hn with h | h <;> subst h <;> simp
  have hn1 : ((n : ℝ) - 1) ≠ 0 := by
    have : (2 : ℝ) ≤ n := by exact_mod_cast h2
    linarith
  have hE : wnArray maxWn nWn = (List.range n).map
      (fun j : ℕ => -maxWn + (j : ℝ) * ((maxWn - -maxWn) / ((n : ℝ) - 1))) := by
    unfold wnArray; rw [hna]
  refine ⟨fun j : ℕ => -maxWn + (j : ℝ) * ((maxWn - -maxWn) / ((n : ℝ) - 1)), hE, by simp, ?_, ?_, ?_, ?_⟩
  · simp only
    rw [Nat.cast_sub (by omega)]
    field_simp; push_cast; ring
  · intro j; simp only; push_cast; ring
  · intro j hj
    simp only
    rw [Nat.cast_sub (by omega), Nat.cast_sub (by omega)]
    field_simp; push_cast; ring
  · rw [hE, List.mem_map]
    constructor
    · rintro ⟨j, _, hj⟩
      have h3 : -maxWn * ((n : ℝ) - 1) + j * (maxWn - -maxWn) = 0 := by
        field_simp at hj; linarith
      have h4 : maxWn * (2 * (j : ℝ) - (n - 1)) = 0 := by linarith
      rcases mul_eq_zero.mp h4 with h | h
      · exact absurd h hm
      · have : (n : ℝ) = ((2 * j + 1 : ℕ) : ℝ) := by push_cast; linarith
        exact ⟨j, by exact_mod_cast this⟩
    · rintro ⟨j, rfl⟩
      refine ⟨j, by simp; omega, ?_⟩
      push_cast
      have : (2 * (j : ℝ) + 1 - 1) ≠ 0 := by
        have : (0 : ℝ) < j := by exact_mod_cast (by omega : 0 < j)
        linarith
      have hj0 : (j : ℝ) ≠ 0 := by
        have : (0 : ℝ) < j := by exact_mod_cast (by omega : 0 < j)
        linarith
      rw [show (2 * (j : ℝ) + 1 - 1) = 2 * j by ring]
      field_simp; ring

/-- C164.  The Kelvin curve: exactly the eastward wavenumbers have a frequency, and it is that of waves passing at the
    speed `sqrt (g he)`. -/
theorem C164_kelvin (solve : (ℝ → ℝ) → ℝ → ℝ) (he lat maxWn : ℝ) (nWn : ℤ) (hlat : |lat| < 90)
    (wn : ℝ) (f : Option ℝ) (h : (wn, f) ∈ modeColumn solve .kelvin he lat maxWn nWn) :
    f = if 0 < wn then some (kelvinLine he lat wn) else none := by
  obtain ⟨_, hf⟩ := mem_modeColumn h
  rw [hf]
  unfold modeOmega kelvinOmega
  have hi := rad_pos_iff (wn := wn) hlat
  by_cases hw : 0 < wn
  · have hk := hi.mpr hw
    rw [if_neg (by linarith), if_pos hw]
    simp only [Option.map_some]
    rw [afreq2freq_eq, waveSpeed_eq]
    have := circleLength_pos hlat
    have hp := Real.pi_pos
    unfold kelvinLine radPerMetre
    congr 1
    field_simp
  · have hk : ¬ 0 < radPerMetre lat wn := fun h => hw (hi.mp h)
    rw [if_pos (by linarith), if_neg hw]
    rfl

/-- C165.  The curves of mode 0: westward wavenumbers (mixed Rossby-gravity) and eastward ones (EIG, n = 0) carry the only
    positive solution of the relation of mode 0, all others are missing. -/
theorem C165_mode_zero (solve : (ℝ → ℝ) → ℝ → ℝ) (he lat maxWn : ℝ) (nWn : ℤ) (hhe : 0 < he) (hlat : |lat| < 90)
    (wn : ℝ) (f : Option ℝ) :
    ((wn, f) ∈ modeColumn solve .mrg he lat maxWn nWn → (0 ≤ wn → f = none) ∧
      (wn < 0 → ∀ v, f = some v ↔
        0 < v ∧ MixedRelation (waveSpeed he) (coriolisGradient lat) (radPerMetre lat wn) (radPerSecond v))) ∧
    ((wn, f) ∈ modeColumn solve .eig0 he lat maxWn nWn → (wn ≤ 0 → f = none) ∧
      (0 < wn → ∀ v, f = some v ↔
        0 < v ∧ MixedRelation (waveSpeed he) (coriolisGradient lat) (radPerMetre lat wn) (radPerSecond v))) := by
  have hc := waveSpeed_pos hhe
  have hb := coriolis_pos hlat
  set c := waveSpeed he with hcd
  set b := coriolisGradient lat with hbd
  -- at most one positive solution
  have huniq : ∀ k w w', 0 < w → 0 < w' → MixedRelation c b k w → MixedRelation c b k w' → w = w' := by
    intro k w w' hw hw' h1 h2
    unfold MixedRelation at h1 h2
    have : (w - w') * (w + w' - c * k) = 0 := by linear_combination h1 - h2
    rcases mul_eq_zero.mp this with h | h
    · linarith
    · exfalso
      have h3 : c * k = w + w' := by linarith
      rw [h3] at h1
      have h4 : 0 < w * w' := mul_pos hw hw'
      have h5 : 0 < b * c := mul_pos hb hc
      nlinarith
  have hiff : ∀ k w0 : ℝ, 0 < w0 → MixedRelation c b k w0 → ∀ v, some (afreq2freq w0) = some v ↔
      0 < v ∧ MixedRelation c b k (radPerSecond v) := by
    intro k w0 hw0 hr v
    constructor
    · intro h
      obtain rfl := Option.some.inj h
      rw [radPerSecond_afreq]
      exact ⟨afreq2freq_pos hw0, hr⟩
    · rintro ⟨hv, hrv⟩
      have hvp : 0 < radPerSecond v := by
        have := Real.pi_pos
        unfold radPerSecond; positivity
      rw [huniq k _ _ hw0 hvp hr hrv, afreq_radPerSecond]
  have hroot : ∀ k : ℝ, k ≠ 0 → 1 < Real.sqrt (1 + 4 * b / (k * k * c)) ∧
      Real.sqrt (1 + 4 * b / (k * k * c)) ^ 2 = 1 + 4 * b / (k * k * c) := by
    intro k hk
    have hkk : 0 < k * k := mul_self_pos.mpr hk
    have hpos : 0 < 4 * b / (k * k * c) := by positivity
    constructor
    · rw [Real.lt_sqrt (by norm_num)]; linarith
    · rw [Real.sq_sqrt]; linarith
  constructor
  · intro h
    obtain ⟨_, hf⟩ := mem_modeColumn h
    have hi := rad_neg_iff (wn := wn) hlat
    rw [hf]
    unfold modeOmega mrgOmega
    rw [waveSpeed_eq]
    constructor
    · intro hw
      have : ¬ radPerMetre lat wn < 0 := fun h => by linarith [hi.mp h]
      rw [if_pos (by linarith)]; rfl
    · intro hw
      have hk := hi.mpr hw
      rw [if_neg (by linarith)]
      simp only [Option.map_some]
      obtain ⟨hR1, hR2⟩ := hroot _ hk.ne
      apply hiff
      · have : 0 < c * -radPerMetre lat wn := mul_pos hc (by linarith)
        nlinarith
      · unfold MixedRelation
        set k := radPerMetre lat wn
        set R := Real.sqrt (1 + 4 * b / (k * k * c))
        have hk0 : k ≠ 0 := hk.ne
        have e : c ^ 2 * k ^ 2 * (R ^ 2 - 1) = 4 * b * c := by
          rw [hR2]; field_simp; ring
        linear_combination e / 4
  · intro h
    obtain ⟨_, hf⟩ := mem_modeColumn h
    have hi := rad_pos_iff (wn := wn) hlat
    rw [hf]
    unfold modeOmega eig0Omega
    rw [waveSpeed_eq]
    constructor
    · intro hw
      have : ¬ 0 < radPerMetre lat wn := fun h => by linarith [hi.mp h]
      rw [if_pos (by linarith)]; rfl
    · intro hw
      have hk := hi.mpr hw
      rw [if_neg (by linarith)]
      simp only [Option.map_some]
      obtain ⟨hR1, hR2⟩ := hroot _ hk.ne'
      apply hiff
      · have : 0 < c * radPerMetre lat wn := mul_pos hc hk
        nlinarith
      · unfold MixedRelation
        set k := radPerMetre lat wn
        set R := Real.sqrt (1 + 4 * b / (k * k * c))
        have hk0 : k ≠ 0 := hk.ne'
        have e : c ^ 2 * k ^ 2 * (R ^ 2 - 1) = 4 * b * c := by
          rw [hR2]; field_simp; ring
        linear_combination e / 4

/-- C165.  What the relation of mode 0 implies: it is Matsuno's relation for `n = 0`; westward solutions stay below, eastward
    ones above the frequency `sqrt (beta c)`; and the solutions of opposite wavenumbers multiply to its square. -/
theorem C165_mixed_relation (c beta k w : ℝ) (hc : 0 < c) (hb : 0 < beta) (hw : 0 < w)
    (h : MixedRelation c beta k w) :
    MatsunoRelation c beta k 0 w ∧
    (k < 0 → w ^ 2 < beta * c) ∧ (0 < k → beta * c < w ^ 2 ∧ c * k < w) ∧
    MixedRelation c beta (-k) (beta * c / w) := by
  unfold MixedRelation at h ⊢
  unfold MatsunoRelation
  refine ⟨?_, ?_, ?_, ?_⟩
  · push_cast
    linear_combination (w + c * k) * h
  · intro hk
    have : 0 < c * -k * w := by have : 0 < -k := by linarith
                                positivity
    linarith
  · intro hk
    have h1 : 0 < c * k * w := by positivity
    have h2 : 0 < beta * c := by positivity
    refine ⟨by linarith, ?_⟩
    nlinarith
  · have h2 : 0 < beta * c := by positivity
    field_simp
    linear_combination (-(beta * c)) * h

/-- A search that ends in the positive zero next to where it starts, for the equations that the functions solve. -/
def SearchOK (solve : (ℝ → ℝ) → ℝ → ℝ) (he beta : ℝ) (n : ℕ) (k : ℝ) : Prop :=
  (k < 0 → AdjacentZero (dispersion k n he beta) (erSeed k n he beta)
    (solve (dispersion k n he beta) (erSeed k n he beta))) ∧
  (k ≠ 0 → AdjacentZero (dispersion k n he beta) (igSeed k n he beta)
    (solve (dispersion k n he beta) (igSeed k n he beta)))

/-- C166.  Westward: if the search ends in the zero next to its start, the Rossby and the gravity curve are the two positive
    solutions of Matsuno's relation, one below and one above the Kelvin wave of the same length. -/
theorem C166_westward (solve : (ℝ → ℝ) → ℝ → ℝ) (he lat maxWn : ℝ) (nWn : ℤ) (n : ℕ) (hn : 1 ≤ n) (hhe : 0 < he)
    (hlat : |lat| < 90) (wn : ℝ) (hwn : wn < 0) (f g : Option ℝ)
    (hs : SearchOK solve he (coriolisGradient lat) n (radPerMetre lat wn))
    (hf : (wn, f) ∈ modeColumn solve (.er n) he lat maxWn nWn)
    (hg : (wn, g) ∈ modeColumn solve (.wig n) he lat maxWn nWn) :
    ∃ v1 v2, f = some v1 ∧ g = some v2 ∧ 0 < v1 ∧ v1 < kelvinLine he lat (-wn) ∧ kelvinLine he lat (-wn) < v2 ∧
      ∀ v, (0 < v ∧ MatsunoRelation (waveSpeed he) (coriolisGradient lat) (radPerMetre lat wn) n (radPerSecond v))
        ↔ v = v1 ∨ v = v2 := by
  obtain ⟨_, hf⟩ := mem_modeColumn hf
  obtain ⟨_, hg⟩ := mem_modeColumn hg
  have hb := coriolis_pos hlat
  have hk := (rad_neg_iff (wn := wn) hlat).mpr hwn
  obtain ⟨er, wig, h0, h1, h2, hd, hs0, hs1, hs2⟩ := westward_roots (n := n) hhe hb hk hn
  have e1 := adjacent_er h0 (h1.trans h2) hd hs0 hs1 (hs.1 hk)
  have e2 := adjacent_wig h0 (h1.trans h2) hd hs2 (hs.2 hk.ne)
  have hline : kelvinLine he lat (-wn) = afreq2freq (waveSpeed he * -radPerMetre lat wn) := by
    rw [afreq2freq_eq]
    have := circleLength_pos hlat
    have hp := Real.pi_pos
    unfold kelvinLine radPerMetre
    field_simp
  refine ⟨afreq2freq er, afreq2freq wig, ?_, ?_, afreq2freq_pos h0, ?_, ?_, ?_⟩
  · rw [hf]; simp only [modeOmega]; unfold erOmega; rw [if_neg (by linarith), e1]; rfl
  · rw [hg]; simp only [modeOmega]; unfold wigOmega; rw [if_neg (by linarith), e2]; rfl
  · rw [hline]; exact afreq2freq_lt h1
  · rw [hline]; exact afreq2freq_lt h2
  · intro v
    have hrel : MatsunoRelation (waveSpeed he) (coriolisGradient lat) (radPerMetre lat wn) n (radPerSecond v) ↔
        (radPerSecond v - er) * (radPerSecond v - wig) * (radPerSecond v + er + wig) = 0 := by
      rw [← hd, dispersion_eq hhe]; rfl
    have hp := Real.pi_pos
    rw [hrel]
    constructor
    · rintro ⟨hv, hz⟩
      have hvp : 0 < radPerSecond v := by unfold radPerSecond; positivity
      rcases mul_eq_zero.mp hz with h | h
      · rcases mul_eq_zero.mp h with h | h
        · left; rw [← afreq_radPerSecond v]; congr 1; linarith
        · right; rw [← afreq_radPerSecond v]; congr 1; linarith
      · exfalso; linarith
    · rintro (rfl | rfl)
      · exact ⟨afreq2freq_pos h0, by rw [radPerSecond_afreq]; ring⟩
      · exact ⟨afreq2freq_pos (by linarith), by rw [radPerSecond_afreq]; ring⟩

/-- C166.  Eastward: the gravity curve is the only positive solution, above the Kelvin wave. -/
theorem C166_eastward (solve : (ℝ → ℝ) → ℝ → ℝ) (he lat maxWn : ℝ) (nWn : ℤ) (n : ℕ) (hhe : 0 < he)
    (hlat : |lat| < 90) (wn : ℝ) (hwn : 0 < wn) (f : Option ℝ)
    (hs : SearchOK solve he (coriolisGradient lat) n (radPerMetre lat wn))
    (hf : (wn, f) ∈ modeColumn solve (.eig n) he lat maxWn nWn) :
    ∃ v1, f = some v1 ∧ kelvinLine he lat wn < v1 ∧
      ∀ v, (0 < v ∧ MatsunoRelation (waveSpeed he) (coriolisGradient lat) (radPerMetre lat wn) n (radPerSecond v))
        ↔ v = v1 := by
  obtain ⟨_, hf⟩ := mem_modeColumn hf
  have hb := coriolis_pos hlat
  have hc := waveSpeed_pos hhe
  have hk := (rad_pos_iff (wn := wn) hlat).mpr hwn
  obtain ⟨eig, h1, hd, hA, hs0, hs1⟩ := eastward_root n hhe hb hk
  have h0 : 0 < eig := lt_trans (mul_pos hc hk) h1
  have ha := hs.2 hk.ne'
  have e1 := zero_eig h0 hd hA ha.1 ha.2.1
  have hline : kelvinLine he lat wn = afreq2freq (waveSpeed he * radPerMetre lat wn) := by
    rw [afreq2freq_eq]
    have := circleLength_pos hlat
    have hp := Real.pi_pos
    unfold kelvinLine radPerMetre
    field_simp
  refine ⟨afreq2freq eig, ?_, ?_, ?_⟩
  · rw [hf]; simp only [modeOmega]; unfold eigOmega; rw [if_neg (by linarith), e1]; rfl
  · rw [hline]; exact afreq2freq_lt h1
  · intro v
    have hrel : MatsunoRelation (waveSpeed he) (coriolisGradient lat) (radPerMetre lat wn) n (radPerSecond v) ↔
        dispersion (radPerMetre lat wn) n he (coriolisGradient lat) (radPerSecond v) = 0 := by
      rw [dispersion_eq hhe]; rfl
    have hp := Real.pi_pos
    rw [hrel]
    constructor
    · rintro ⟨hv, hz⟩
      have hvp : 0 < radPerSecond v := by unfold radPerSecond; positivity
      rw [← afreq_radPerSecond v, zero_eig h0 hd hA hvp hz]
    · rintro rfl
      exact ⟨afreq2freq_pos h0, by rw [radPerSecond_afreq, hd]; ring⟩

/-- C166.  The wrong side of wavenumber zero, and zero itself, are missing in all three curves. -/
theorem C166_missing (solve : (ℝ → ℝ) → ℝ → ℝ) (he lat maxWn : ℝ) (nWn : ℤ) (n : ℕ) (hlat : |lat| < 90)
    (wn : ℝ) (f : Option ℝ) :
    ((wn, f) ∈ modeColumn solve (.er n) he lat maxWn nWn → 0 ≤ wn → f = none) ∧
    ((wn, f) ∈ modeColumn solve (.wig n) he lat maxWn nWn → 0 ≤ wn → f = none) ∧
    ((wn, f) ∈ modeColumn solve (.eig n) he lat maxWn nWn → wn ≤ 0 → f = none) := by
  have hn := rad_neg_iff (wn := wn) hlat
  have hp := rad_pos_iff (wn := wn) hlat
  refine ⟨fun h hw => ?_, fun h hw => ?_, fun h hw => ?_⟩
  · rw [(mem_modeColumn h).2]; simp only [modeOmega]; unfold erOmega
    rw [if_pos (by by_contra hc; push Not at hc; linarith [hn.mp hc])]; rfl
  · rw [(mem_modeColumn h).2]; simp only [modeOmega]; unfold wigOmega
    rw [if_pos (by by_contra hc; push Not at hc; linarith [hn.mp hc])]; rfl
  · rw [(mem_modeColumn h).2]; simp only [modeOmega]; unfold eigOmega
    rw [if_pos (by by_contra hc; push Not at hc; linarith [hp.mp hc])]; rfl

/-- C166.  Curves of different mode numbers do not cross: a higher mode has slower Rossby and faster gravity waves. -/
theorem C166_mode_order (c beta k : ℝ) (n : ℕ) (hc : 0 < c) (hb : 0 < beta) (r g r' g' : ℝ)
    (h0 : 0 < r) (h0' : 0 < r') (hrg : r ≤ g) (hrg' : r' ≤ g')
    (hn : ∀ w, 0 < w → (MatsunoRelation c beta k n w ↔ w = r ∨ w = g))
    (hn' : ∀ w, 0 < w → (MatsunoRelation c beta k (n + 1) w ↔ w = r' ∨ w = g')) (hk : k < 0) :
    r' < r ∧ g < g' := by
  have hB : 0 < beta * c ^ 2 * -k := by have : 0 < -k := by linarith
                                        positivity
  set A' := c ^ 2 * k ^ 2 + (2 * ((n + 1 : ℕ) : ℝ) + 1) * beta * c with hA'
  have hneg : ∀ w, 0 < w → MatsunoRelation c beta k n w → w ^ 3 - A' * w + beta * c ^ 2 * -k < 0 := by
    intro w hw h
    unfold MatsunoRelation at h
    have e : w ^ 3 - A' * w + beta * c ^ 2 * -k = -(2 * beta * c * w) := by
      rw [hA']; push_cast; linear_combination h
    rw [e]
    have : 0 < 2 * beta * c * w := by positivity
    linarith
  have hr := hneg r h0 ((hn r h0).mpr (Or.inl rfl))
  have hg0 : 0 < g := lt_of_lt_of_le h0 hrg
  have hg := hneg g hg0 ((hn g hg0).mpr (Or.inr rfl))
  obtain ⟨a, b, ha, har, hrb, hfac⟩ := cubic_factor_two hB h0 hr
  obtain ⟨a2, b2, ha2, hag2, hgb2, hfac2⟩ := cubic_factor_two hB hg0 hg
  have hM : ∀ w, MatsunoRelation c beta k (n + 1) w ↔ w ^ 3 - A' * w + beta * c ^ 2 * -k = 0 := by
    intro w; unfold MatsunoRelation; rw [hA']
    constructor <;> intro h <;> linear_combination h
  have za := (hn' a ha).mp ((hM a).mpr (by rw [hfac]; ring))
  have zb := (hn' b (by linarith)).mp ((hM b).mpr (by rw [hfac]; ring))
  have zb2 := (hn' b2 (by linarith)).mp ((hM b2).mpr (by rw [hfac2]; ring))
  constructor
  · rcases za with h | h
    · linarith
    · linarith
  · rcases zb2 with h | h
    · linarith
    · linarith

/-- A search of the assumed kind exists. -/
theorem searchOK_exists (he beta : ℝ) (n : ℕ) (hn : 1 ≤ n) (hhe : 0 < he) (hb : 0 < beta) (k : ℝ) (hk : k ≠ 0) :
    (∃ r, AdjacentZero (dispersion k n he beta) (igSeed k n he beta) r) ∧
    (k < 0 → ∃ r, AdjacentZero (dispersion k n he beta) (erSeed k n he beta) r) := by
  have hwest : k < 0 → (∃ r, AdjacentZero (dispersion k n he beta) (igSeed k n he beta) r) ∧
      ∃ r, AdjacentZero (dispersion k n he beta) (erSeed k n he beta) r := by
    intro hk
    obtain ⟨er, wig, h0, h1, h2, hd, hs0, hs1, hs2⟩ := westward_roots (n := n) hhe hb hk hn
    constructor
    · refine ⟨wig, by linarith, by rw [hd]; ring, fun x hx => ?_⟩
      rw [hd]
      rcases hx with hx | hx
      · exfalso; linarith [hx.1, hx.2]
      · have a1 : x - er ≠ 0 := by linarith [hx.1]
        have a2 : x - wig ≠ 0 := by linarith [hx.1]
        have a3 : x + er + wig ≠ 0 := by linarith [hx.1]
        exact mul_ne_zero (mul_ne_zero a1 a2) a3
    · refine ⟨er, h0, by rw [hd]; ring, fun x hx => ?_⟩
      rw [hd]
      rcases hx with hx | hx
      · have a1 : x - er ≠ 0 := by linarith [hx.2]
        have a2 : x - wig ≠ 0 := by linarith [hx.2]
        have a3 : x + er + wig ≠ 0 := by linarith [hx.1]
        exact mul_ne_zero (mul_ne_zero a1 a2) a3
      · exfalso; linarith [hx.1, hx.2]
  refine ⟨?_, fun h => (hwest h).2⟩
  rcases lt_or_gt_of_ne hk with h | h
  · exact (hwest h).1
  · obtain ⟨eig, h1, hd, hA, hs0, hs1⟩ := eastward_root n hhe hb h
    have hc := waveSpeed_pos hhe
    have h0 : 0 < eig := lt_trans (mul_pos hc h) h1
    refine ⟨eig, h0, by rw [hd]; ring, fun x hx hz => ?_⟩
    rcases hx with hx | hx
    · have := zero_eig h0 hd hA (by linarith [hx.1]) hz
      linarith [hx.2]
    · linarith [hx.1, hx.2]

/-- A search that satisfies the assumption everywhere. -/
example (he beta : ℝ) (n : ℕ) (hn : 1 ≤ n) (hhe : 0 < he) (hb : 0 < beta) (k : ℝ) (hk : k < 0) :
    ∃ solve, SearchOK solve he beta n k := by
  obtain ⟨⟨r1, h1⟩, h2⟩ := searchOK_exists he beta n hn hhe hb k hk.ne
  obtain ⟨r2, h2⟩ := h2 hk
  have hne : erSeed k n he beta ≠ igSeed k n he beta := by
    obtain ⟨er, wig, a0, a1, a2, _, _, a4, a5⟩ := westward_roots (n := n) hhe hb hk hn
    linarith
  classical
  refine ⟨fun f s => if s = erSeed k n he beta then r2 else r1, fun _ => ?_, fun _ => ?_⟩
  · simpa using h2
  · simpa [hne.symm] using h1

/-- The equator, equivalent depth 25 m, the wavenumbers -20 ... 20 in steps of ten. -/
example : wnArray 20 5 = [-20, -10, 0, 10, 20] := by
  unfold wnArray; norm_num [List.range_succ]

example : |(0 : ℝ)| < 90 ∧ (0 : ℝ) < 25 := by norm_num

end Metcalcpy.Props
