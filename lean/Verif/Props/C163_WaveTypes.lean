/-
C159, C163 for all wave types and for eastward and westward waves: the filter judges a wave of zonal wavenumber q (negative: westward) as if
it had the wavenumber q - 1, by the ranges and by the dispersion relation of its type.
-/
import Verif.Props.C159_WaveFilter

namespace Metcalcpy.Props
open Metcalcpy

/-- Names of wave types. -/
def KelvinName (s : String) : Prop := s = "Kelvin" ∨ s = "kelvin" ∨ s = "KELVIN"
def RossbyName (s : String) : Prop := s = "ER" ∨ s = "er"
def MixedName (s : String) : Prop := s = "MRG" ∨ s = "IG0" ∨ s = "mrg" ∨ s = "ig0"
def Gravity1Name (s : String) : Prop := s = "IG1" ∨ s = "ig1"
def Gravity2Name (s : String) : Prop := s = "IG2" ∨ s = "ig2"

/-- The dispersion relations of equatorial waves: `ω` radians per second, `k` per metre, gravity wave speed `c`, beta of the Earth
2 · 7.292e-5 / 6371008. -/
def OnDispersionCurve (name : String) (k c ω : ℝ) : Prop :=
  (KelvinName name → ω = k * c) ∧
  (RossbyName name → ω * (k ^ 2 + 3 * (2 * 7.292e-5 / 6371008) / c) = -(2 * 7.292e-5 / 6371008) * k) ∧
  (MixedName name → 0 < ω ∧ ω ^ 2 - k * c * ω - (2 * 7.292e-5 / 6371008) * c = 0) ∧
  (Gravity1Name name → 0 ≤ ω ∧ ω ^ 2 = k ^ 2 * c ^ 2 + 3 * (2 * 7.292e-5 / 6371008) * c) ∧
  (Gravity2Name name → 0 ≤ ω ∧ ω ^ 2 = k ^ 2 * c ^ 2 + 5 * (2 * 7.292e-5 / 6371008) * c)

/-- Turns in `n` observations of a wave of angular frequency `ω`. -/
noncomputable def turns (n : ℕ) (perDay : ℚ) (ω : ℝ) : ℝ := ω / (2 * Real.pi) * (n * 86400 / (perDay : ℝ))

theorem earthBeta_eq : earthBeta = 2 * 7.292e-5 / 6371008 := by
  unfold earthBeta earthRe
  norm_num

theorem mixed_root (β k c : ℝ) (hβ : 0 < β) (hc : 0 < c) (ω : ℝ)
    (h : ω = if k = 0 then √(β * c) else if 0 < k then k * c * (1 / 2 + 1 / 2 * √(1 + 4 * β / (k ^ 2 * c)))
      else k * c * (1 / 2 - 1 / 2 * √(1 + 4 * β / (k ^ 2 * c)))) : 0 < ω ∧ ω ^ 2 - k * c * ω - β * c = 0 := by
  have hS : ∀ _ : k ≠ 0, 1 < √(1 + 4 * β / (k ^ 2 * c)) := by
    intro hk
    have : 0 < 4 * β / (k ^ 2 * c) := by positivity
    rw [Real.lt_sqrt (by norm_num)]
    linarith
  have hq : ∀ _ : k ≠ 0, k ^ 2 * c * √(1 + 4 * β / (k ^ 2 * c)) ^ 2 = k ^ 2 * c + 4 * β := by
    intro hk
    rw [Real.sq_sqrt (by positivity)]
    field_simp
  split at h
  · next hk =>
    subst hk
    rw [h]
    refine ⟨Real.sqrt_pos.mpr (by positivity), ?_⟩
    rw [Real.sq_sqrt (by positivity)]
    ring
  · next hk =>
    have h1 := hS hk
    have h2 := hq hk
    generalize √(1 + 4 * β / (k ^ 2 * c)) = S at h h1 h2
    split at h
    · next hp =>
      rw [h]
      refine ⟨by positivity, ?_⟩
      linear_combination (c / 4) * h2
    · next hp =>
      have hneg : k < 0 := lt_of_le_of_ne (not_lt.mp hp) hk
      rw [h]
      constructor
      · have : k * c < 0 := mul_neg_of_neg_of_pos hneg hc
        nlinarith
      · linear_combination (c / 4) * h2

theorem kfCurve_relation (name : String) (k c ω : ℝ) (hc : 0 < c) (h : kfCurve name k c = some ω) : OnDispersionCurve name k c ω := by
  have hβ : 0 < earthBeta := by rw [earthBeta_eq]; norm_num
  unfold OnDispersionCurve
  rw [← earthBeta_eq]
  unfold kfCurve at h
  unfold KelvinName RossbyName MixedName Gravity1Name Gravity2Name
  refine ⟨fun hn => ?_, fun hn => ?_, fun hn => ?_, fun hn => ?_, fun hn => ?_⟩
  · rw [if_pos hn] at h
    exact (Option.some.inj h).symm
  · have e1 : ¬ (name = "Kelvin" ∨ name = "kelvin" ∨ name = "KELVIN") := by rcases hn with rfl | rfl <;> decide
    rw [if_neg e1, if_pos hn] at h
    rw [← Option.some.inj h]
    have : k ^ 2 + 3 * earthBeta / c ≠ 0 := by positivity
    field_simp
  · have e1 : ¬ (name = "Kelvin" ∨ name = "kelvin" ∨ name = "KELVIN") := by rcases hn with rfl | rfl | rfl | rfl <;> decide
    have e2 : ¬ (name = "ER" ∨ name = "er") := by rcases hn with rfl | rfl | rfl | rfl <;> decide
    rw [if_neg e1, if_neg e2, if_pos hn] at h
    exact mixed_root earthBeta k c hβ hc ω (Option.some.inj h).symm
  · have e1 : ¬ (name = "Kelvin" ∨ name = "kelvin" ∨ name = "KELVIN") := by rcases hn with rfl | rfl <;> decide
    have e2 : ¬ (name = "ER" ∨ name = "er") := by rcases hn with rfl | rfl <;> decide
    have e3 : ¬ (name = "MRG" ∨ name = "IG0" ∨ name = "mrg" ∨ name = "ig0") := by rcases hn with rfl | rfl <;> decide
    rw [if_neg e1, if_neg e2, if_neg e3, if_pos hn] at h
    rw [← Option.some.inj h]
    refine ⟨Real.sqrt_nonneg _, ?_⟩
    rw [Real.sq_sqrt (by positivity)]
    ring
  · have e1 : ¬ (name = "Kelvin" ∨ name = "kelvin" ∨ name = "KELVIN") := by rcases hn with rfl | rfl <;> decide
    have e2 : ¬ (name = "ER" ∨ name = "er") := by rcases hn with rfl | rfl <;> decide
    have e3 : ¬ (name = "MRG" ∨ name = "IG0" ∨ name = "mrg" ∨ name = "ig0") := by rcases hn with rfl | rfl <;> decide
    have e4 : ¬ (name = "IG1" ∨ name = "ig1") := by rcases hn with rfl | rfl <;> decide
    rw [if_neg e1, if_neg e2, if_neg e3, if_neg e4, if_pos hn] at h
    rw [← Option.some.inj h]
    refine ⟨Real.sqrt_nonneg _, ?_⟩
    rw [Real.sq_sqrt (by positivity)]
    ring

theorem kfCurve_known (name : String) (k c : ℝ)
    (hn : KelvinName name ∨ RossbyName name ∨ MixedName name ∨ Gravity1Name name ∨ Gravity2Name name) : ∃ ω, kfCurve name k c = some ω := by
  unfold KelvinName RossbyName MixedName Gravity1Name Gravity2Name at hn
  unfold kfCurve
  split
  · exact ⟨_, rfl⟩
  split
  · exact ⟨_, rfl⟩
  split
  · exact ⟨_, rfl⟩
  split
  · exact ⟨_, rfl⟩
  split
  · exact ⟨_, rfl⟩
  · exfalso
    tauto

/-- The ranges of wavenumbers, signs included: column `i` is kept for the wavenumbers i and i - nk. -/
theorem kfInRange_signed (nk nf : ℕ) (p : KfParams) (hk : p.kMin < p.kMax) (hk1 : -(nk : ℤ) ≤ 2 * p.kMin) (hk2 : 2 * p.kMax ≤ nk)
    (i j : ℕ) (hi : i < nk) (hj0 : 0 < j) (hj : j < nf) :
    kfInRange nk nf p i j ↔ (kfRows nf p).1 ≤ j ∧ (j : ℤ) ≤ (kfRows nf p).2 ∧
      ∃ w : ℤ, p.kMin ≤ w ∧ w ≤ p.kMax ∧ (w = i ∨ w = (i : ℤ) - nk) := by
  have hw : (∃ w : ℤ, p.kMin ≤ w ∧ w ≤ p.kMax ∧ (w = i ∨ w = (i : ℤ) - nk)) ↔
      (p.kMin ≤ i ∧ (i : ℤ) ≤ p.kMax) ∨ (p.kMin ≤ (i : ℤ) - nk ∧ (i : ℤ) - nk ≤ p.kMax) := by
    constructor
    · rintro ⟨w, h1, h2, rfl | rfl⟩
      · exact Or.inl ⟨h1, h2⟩
      · exact Or.inr ⟨h1, h2⟩
    · rintro (⟨h1, h2⟩ | ⟨h1, h2⟩)
      · exact ⟨_, h1, h2, Or.inl rfl⟩
      · exact ⟨_, h1, h2, Or.inr rfl⟩
  rw [hw]
  unfold kfInRange kfColumn
  dsimp only
  generalize (kfRows nf p).1 = jm
  have hM : (kfRows nf p).2 ≤ nf := min_le_right _ _
  generalize (kfRows nf p).2 = jM at hM ⊢
  have e1 : p.kMin < 0 → max ((nk : ℤ) + p.kMin) ((nk / 2 : ℕ) : ℤ) = nk + p.kMin := fun h => max_eq_left (by omega)
  have e2 : ¬ p.kMin < 0 → min p.kMin ((nk / 2 : ℕ) : ℤ) = p.kMin := fun h => min_eq_left (by omega)
  have e3 : p.kMax < 0 → max ((nk : ℤ) + p.kMax) ((nk / 2 : ℕ) : ℤ) = nk + p.kMax := fun h => max_eq_left (by omega)
  have e4 : ¬ p.kMax < 0 → min p.kMax ((nk / 2 : ℕ) : ℤ) = p.kMax := fun h => min_eq_left (by omega)
  by_cases hmin : p.kMin < 0 <;> by_cases hmax : p.kMax < 0
  · rw [if_pos hmin, if_pos hmax, e1 hmin, e3 hmax]
    constructor
    · rintro ⟨a, b, c, d⟩
      have := c (by omega)
      omega
    · rintro ⟨a, b, c⟩
      exact ⟨by omega, by omega, fun _ => by omega, fun h => absurd (by omega) h⟩
  · rw [if_pos hmin, if_neg hmax, e1 hmin, e4 hmax]
    have hno : ¬ (nk : ℤ) + p.kMin < p.kMax := by omega
    constructor
    · rintro ⟨a, b, c, d⟩
      have := d hno
      omega
    · rintro ⟨a, b, c⟩
      exact ⟨by omega, by omega, fun h => absurd h hno, fun _ => by omega⟩
  · omega
  · rw [if_neg hmin, if_neg hmax, e2 hmin, e4 hmax]
    constructor
    · rintro ⟨a, b, c, d⟩
      have := c hk
      omega
    · rintro ⟨a, b, c⟩
      exact ⟨by omega, by omega, fun _ => by omega, fun h => absurd hk h⟩

/-- Turns in the data between which a wave must lie by its period. -/
def TurnsOfPeriods (n : ℕ) (p : KfParams) (j : ℕ) : Prop :=
  nearestEven (n / (p.tMax * p.obsPerDay)) ≤ (j : ℤ) ∧ (j : ℤ) ≤ nearestEven (n / (p.tMin * p.obsPerDay))

theorem kfRows_turns (h j : ℕ) (hjh : j < h) (p : KfParams) :
    ((kfRows (h + 1) p).1 ≤ j ∧ (j : ℤ) ≤ (kfRows (h + 1) p).2) ↔ TurnsOfPeriods (2 * h) p j := by
  have hnt : (((h + 1 : ℕ) : ℚ) - 1) * 2 = ((2 * h : ℕ) : ℚ) := by push_cast; ring
  unfold kfRows TurnsOfPeriods
  simp only [hnt]
  constructor
  · rintro ⟨a, b⟩
    exact ⟨a, b.trans (min_le_left _ _)⟩
  · rintro ⟨a, b⟩
    exact ⟨a, le_min b (by push_cast; omega)⟩

open Classical in
/-- C159 for all signs: without equivalent depths, a wave of `s` cycles eastward (s greater than half of the longitudes is nk - s cycles
westward) is returned unchanged if its period lies in the given range, rounded to whole turns, and the wavenumber before its own lies
between kMin and kMax; otherwise it is removed. -/
theorem C159_signed (empty : ℝ × ℝ) (nk h s j : ℕ) (hs : 0 < s) (hsk : s ≤ nk) (hj : 0 < j) (hjh : j < h) (p : KfParams)
    (h1 : p.hMin = -9999) (h2 : p.hMax = -9999) (hk : p.kMin < p.kMax) (hk1 : -(nk : ℤ) ≤ 2 * p.kMin) (hk2 : 2 * p.kMax ≤ nk) (t m : ℕ) :
    (kfFilter empty nk (2 * h) p (eastwardWave nk (2 * h) s j)).2 t m =
      if TurnsOfPeriods (2 * h) p j ∧ ∃ q : ℤ, (q = s ∨ q = (s : ℤ) - nk) ∧ p.kMin ≤ q - 1 ∧ q - 1 ≤ p.kMax
      then eastwardWave nk (2 * h) s j t m else 0 := by
  rw [kfFilter_wave empty nk h s j hs hsk hj hjh]
  congr 1
  rw [kfInRange_signed nk (h + 1) p hk hk1 hk2 (s - 1) j (by omega) hj (by omega), ← and_assoc, kfRows_turns h j hjh]
  refine propext ⟨?_, ?_⟩
  · rintro ⟨⟨a, w, w1, w2, w3⟩, -⟩
    exact ⟨a, w + 1, by omega, by omega, by omega⟩
  · rintro ⟨a, q, q1, q2, q3⟩
    exact ⟨⟨a, q - 1, by omega, by omega, by omega⟩, kfOnCurve_none _ _ _ _ h1 h2 _ _⟩

open Classical in
/-- C163 for all wave types: with two equivalent depths, a wave of `j` turns in the data is kept if and only if it passes the ranges as in
C159 and `j` lies between the turns of the frequencies (rounded outwards) that the dispersion relation gives for the two depths and the
wavenumber before its own; the columns up to the middle are eastward. -/
theorem C163_wave_types_partial (empty : ℝ × ℝ) (nk h s j : ℕ) (hs : 0 < s) (hsk : s ≤ nk) (hj : 0 < j) (hjh : j < h) (p : KfParams)
    (hn : KelvinName p.waveName ∨ RossbyName p.waveName ∨ MixedName p.waveName ∨ Gravity1Name p.waveName ∨ Gravity2Name p.waveName)
    (h1 : 0 < p.hMin) (h2 : 0 < p.hMax) (hk : p.kMin < p.kMax) (hk1 : -(nk : ℤ) ≤ 2 * p.kMin)
    (hk2 : 2 * p.kMax ≤ nk) :
    ∃ ω₀ ω₁ : ℝ,
      OnDispersionCurve p.waveName ((if 2 * (s - 1) < nk then (s : ℝ) - 1 else (s : ℝ) - nk - 1) / 6371008) √(9.80665 * p.hMin) ω₀ ∧
      OnDispersionCurve p.waveName ((if 2 * (s - 1) < nk then (s : ℝ) - 1 else (s : ℝ) - nk - 1) / 6371008) √(9.80665 * p.hMax) ω₁ ∧
      ∀ t m, (kfFilter empty nk (2 * h) p (eastwardWave nk (2 * h) s j)).2 t m =
        if (TurnsOfPeriods (2 * h) p j ∧ ∃ q : ℤ, (q = s ∨ q = (s : ℤ) - nk) ∧ p.kMin ≤ q - 1 ∧ q - 1 ≤ p.kMax) ∧
          ⌊turns (2 * h) p.obsPerDay ω₀⌋ ≤ (j : ℤ) ∧ (j : ℤ) ≤ ⌈turns (2 * h) p.obsPerDay ω₁⌉
        then eastwardWave nk (2 * h) s j t m else 0 := by
  have hne1 : ¬ p.hMin = -9999 := by linarith
  have hne2 : ¬ p.hMax = -9999 := by linarith
  have hG : earthG = 9.80665 := by unfold earthG; norm_num
  have hspeed : kfSpeeds empty p = (√(9.80665 * p.hMin), √(9.80665 * p.hMax)) := by
    unfold kfSpeeds
    rw [if_neg (by tauto), hG]
  have hkk : kfWavenumber nk (s - 1) = (if 2 * (s - 1) < nk then (s : ℝ) - 1 else (s : ℝ) - nk - 1) / 6371008 := by
    unfold kfWavenumber earthRe
    rw [Nat.cast_sub (show 1 ≤ s by omega)]
    split <;> push_cast <;> ring
  have hc1 : 0 < √(9.80665 * p.hMin) := Real.sqrt_pos.mpr (by positivity)
  have hc2 : 0 < √(9.80665 * p.hMax) := Real.sqrt_pos.mpr (by positivity)
  rw [← hkk]
  obtain ⟨ω₀, e0⟩ := kfCurve_known p.waveName (kfWavenumber nk (s - 1)) √(9.80665 * p.hMin) hn
  obtain ⟨ω₁, e1⟩ := kfCurve_known p.waveName (kfWavenumber nk (s - 1)) √(9.80665 * p.hMax) hn
  refine ⟨ω₀, ω₁, kfCurve_relation _ _ _ _ hc1 e0, kfCurve_relation _ _ _ _ hc2 e1, fun t m => ?_⟩
  rw [kfFilter_wave empty nk h s j hs hsk hj hjh]
  congr 1
  rw [kfInRange_signed nk (h + 1) p hk hk1 hk2 (s - 1) j (by omega) hj (by omega), ← and_assoc, kfRows_turns h j hjh]
  have hcur : kfOnCurve empty nk (h + 1) p (s - 1) j ↔
      ⌊turns (2 * h) p.obsPerDay ω₀⌋ ≤ (j : ℤ) ∧ (j : ℤ) ≤ ⌈turns (2 * h) p.obsPerDay ω₁⌉ := by
    have ht : ∀ ω : ℝ, ω * kfSpc p * ((((h + 1 : ℕ) : ℝ) - 1) * 2) = turns (2 * h) p.obsPerDay ω := by
      intro ω
      unfold kfSpc turns
      push_cast
      ring
    unfold kfOnCurve kfWaveRows
    simp only [hspeed, e0, e1, Option.getD_some, hne1, hne2, if_false, ht]
    omega
  rw [hcur]
  refine propext ⟨?_, ?_⟩
  · rintro ⟨⟨a, w, w1, w2, w3⟩, b⟩
    exact ⟨⟨a, w + 1, by omega, by omega, by omega⟩, b⟩
  · rintro ⟨⟨a, q, q1, q2, q3⟩, b⟩
    exact ⟨⟨a, q - 1, by omega, by omega, by omega⟩, b⟩

/-- 36 longitudes, 96 days: westward waves of wavenumbers 1 to 4 are asked for; the wave of wavenumber 3 (s = 33) is kept, that of
wavenumber 4 (s = 32, judged as 5) removed. -/
example (empty : ℝ × ℝ) (t m : ℕ) :
    (kfFilter empty 36 96 ⟨1, 10, 20, -4, -1, -9999, -9999, ""⟩ (eastwardWave 36 96 33 6)).2 t m = eastwardWave 36 96 33 6 t m ∧
    (kfFilter empty 36 96 ⟨1, 10, 20, -4, -1, -9999, -9999, ""⟩ (eastwardWave 36 96 32 6)).2 t m = 0 := by
  have hT : TurnsOfPeriods (2 * 48) ⟨1, 10, 20, -4, -1, -9999, -9999, ""⟩ 6 := by
    unfold TurnsOfPeriods
    norm_num
    constructor <;> decide +kernel
  constructor
  · rw [show (96 : ℕ) = 2 * 48 from rfl, C159_signed empty 36 48 33 6 (by norm_num) (by norm_num) (by norm_num) (by norm_num) _ rfl rfl
      (by norm_num) (by norm_num) (by norm_num), if_pos ⟨hT, -3, by norm_num, by norm_num, by norm_num⟩]
  · rw [show (96 : ℕ) = 2 * 48 from rfl, C159_signed empty 36 48 32 6 (by norm_num) (by norm_num) (by norm_num) (by norm_num) _ rfl rfl
      (by norm_num) (by norm_num) (by norm_num), if_neg]
    rintro ⟨-, q, rfl | rfl, q1, q2⟩
    · norm_num at q2
    · norm_num at q1

/-- The hypotheses of `C163_wave_types_partial` for equatorial Rossby waves. -/
example (empty : ℝ × ℝ) : ∃ ω₀ ω₁ : ℝ,
    OnDispersionCurve "ER" ((33 - 36 - 1) / 6371008) √(9.80665 * 8) ω₀ ∧ OnDispersionCurve "ER" ((33 - 36 - 1) / 6371008) √(9.80665 * 90) ω₁ := by
  obtain ⟨a, b, h1, h2, -⟩ := C163_wave_types_partial empty 36 48 33 6 (by norm_num) (by norm_num) (by norm_num) (by norm_num)
    ⟨1, 10, 20, -10, -1, 8, 90, "ER"⟩ (Or.inr (Or.inl (Or.inl rfl))) (by norm_num) (by norm_num) (by norm_num) (by norm_num) (by norm_num)
  exact ⟨a, b, by simpa using h1, by simpa using h2⟩

end Metcalcpy.Props
