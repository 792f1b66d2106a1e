/-
C47  The EMC significance score is one of seven levels, monotone and antisymmetric (false at one value).
-/
import Verif.Model.Scorecard
import Verif.Spec.Scorecard
import Verif.Spec.CorrTable
import Mathlib.Tactic.IntervalCases
import Mathlib.Tactic.Linarith
import Mathlib.Tactic.Ring
import Mathlib.Tactic.Positivity
import Mathlib.Tactic.NormNum
import Mathlib.Tactic.FieldSimp

namespace Metcalcpy.Props
open Metcalcpy Spec

section
variable {K : Type*} [Field K] [LinearOrder K] [IsStrictOrderedRing K] [FloorRing K]

theorem nearestEven_bounds (y : K) : ⌊y⌋ ≤ nearestEven y ∧ nearestEven y ≤ ⌊y⌋ + 1 := by
  unfold nearestEven
  split
  · omega
  · split
    · omega
    · split <;> omega

theorem nearestEven_mono {x y : K} (h : x ≤ y) : nearestEven x ≤ nearestEven y := by
  rcases (Int.floor_mono h).lt_or_eq with hf | hf
  · have := (nearestEven_bounds x).2
    have := (nearestEven_bounds y).1
    omega
  · unfold nearestEven
    rw [hf]
    have : x - ⌊y⌋ ≤ y - ⌊y⌋ := by linarith
    split_ifs <;> first | omega | (exfalso; linarith)

theorem nearestEven_int (n : ℤ) : nearestEven (n : K) = n := by
  unfold nearestEven
  simp [Int.floor_intCast]

theorem nearestEven_neg (y : K) : nearestEven (-y) = -nearestEven y := by
  have h1 := Int.floor_le y
  have h2 := Int.lt_floor_add_one y
  by_cases hy : y = (⌊y⌋ : K)
  · rw [hy, ← Int.cast_neg, nearestEven_int, nearestEven_int]
  · have hlt : (⌊y⌋ : K) < y := lt_of_le_of_ne h1 (Ne.symm hy)
    have hfl : ⌊-y⌋ = -⌊y⌋ - 1 := by
      rw [Int.floor_eq_iff]
      push_cast
      constructor <;> linarith
    unfold nearestEven
    rw [hfl]
    push_cast
    rcases lt_trichotomy (y - ⌊y⌋) (1 / 2) with h | h | h
    · rw [if_pos h, if_neg (by linarith), if_pos (by linarith)]; omega
    · have e1 : ¬ -y - (-(⌊y⌋ : K) - 1) < 1 / 2 := by linarith
      have e2 : ¬ -y - (-(⌊y⌋ : K) - 1) > 1 / 2 := by linarith
      rw [if_neg e1, if_neg e2, if_neg h.not_lt, if_neg h.not_gt]
      split <;> split <;> omega
    · rw [if_neg (by linarith : ¬ y - (⌊y⌋ : K) < 1 / 2), if_pos h, if_pos (by linarith)]; omega

theorem roundHalfEven_mono {x y : K} (d : ℕ) (h : x ≤ y) : roundHalfEven x d ≤ roundHalfEven y d := by
  unfold roundHalfEven
  have hp : (0 : K) < 10 ^ d := by positivity
  gcongr
  exact_mod_cast nearestEven_mono (by nlinarith)

theorem roundHalfEven_neg (x : K) (d : ℕ) : roundHalfEven (-x) d = -roundHalfEven x d := by
  unfold roundHalfEven
  rw [neg_mul, nearestEven_neg]
  push_cast; ring

theorem roundHalfEven_zero (d : ℕ) : roundHalfEven (0 : K) d = 0 := by
  unfold roundHalfEven
  have := nearestEven_int (K := K) 0
  simp only [Int.cast_zero] at this
  rw [zero_mul, this]; simp

theorem roundHalfEven_idem (x : K) (d : ℕ) : roundHalfEven (roundHalfEven x d) d = roundHalfEven x d := by
  unfold roundHalfEven
  have hp : (10 : K) ^ d ≠ 0 := by positivity
  rw [div_mul_cancel₀ _ hp, nearestEven_int]

theorem alphas_order (ndays : ℕ) :
    0 < (emcAlphas (K := K) ndays).1 ∧ (emcAlphas (K := K) ndays).1 < (emcAlphas (K := K) ndays).2.1 ∧
    (emcAlphas (K := K) ndays).2.1 < (emcAlphas (K := K) ndays).2.2 := by
  unfold emcAlphas
  split
  · norm_num
  · split
    · norm_num
    · split <;> norm_num

/-- The three rounded scores that are compared with the levels. -/
def r95 (x : K) : K := roundHalfEven x 3
def r99 (ndays : ℕ) (x : K) : K :=
  roundHalfEven (roundHalfEven x 3 * (emcAlphas (K := K) ndays).1 / (emcAlphas (K := K) ndays).2.1) 3
def r999 (ndays : ℕ) (x : K) : K :=
  roundHalfEven (roundHalfEven x 3 * (emcAlphas (K := K) ndays).1 / (emcAlphas (K := K) ndays).2.2) 3

theorem r_mono (ndays : ℕ) {x y : K} (h : x ≤ y) :
    r95 x ≤ r95 y ∧ r99 ndays x ≤ r99 ndays y ∧ r999 ndays x ≤ r999 ndays y := by
  obtain ⟨a1, a2, a3⟩ := alphas_order (K := K) ndays
  have h1 : (0 : K) < (emcAlphas (K := K) ndays).2.1 := a1.trans a2
  have h2 : (0 : K) < (emcAlphas (K := K) ndays).2.2 := h1.trans a3
  have hr := roundHalfEven_mono 3 h
  refine ⟨hr, roundHalfEven_mono 3 ?_, roundHalfEven_mono 3 ?_⟩ <;> gcongr

theorem r_neg (ndays : ℕ) (x : K) :
    r95 (-x) = -r95 x ∧ r99 ndays (-x) = -r99 ndays x ∧ r999 ndays (-x) = -r999 ndays x := by
  unfold r95 r99 r999
  simp only [roundHalfEven_neg, neg_mul, neg_div]
  simp

theorem r_nested (ndays : ℕ) (x : K) :
    (1 ≤ r99 ndays x → 1 ≤ r95 x) ∧ (1 ≤ r999 ndays x → 1 ≤ r99 ndays x) := by
  obtain ⟨a1, a2, a3⟩ := alphas_order (K := K) ndays
  have h1 : (0 : K) < (emcAlphas (K := K) ndays).2.1 := a1.trans a2
  have h2 : (0 : K) < (emcAlphas (K := K) ndays).2.2 := h1.trans a3
  unfold r95 r99 r999
  have hid := roundHalfEven_idem x 3
  generalize roundHalfEven x 3 = f at *
  generalize (emcAlphas (K := K) ndays).1 = p at *
  generalize (emcAlphas (K := K) ndays).2.1 = q at *
  generalize (emcAlphas (K := K) ndays).2.2 = r at *
  rcases le_total 0 f with hf | hf
  · constructor
    · intro h
      have : f * p / q ≤ f := by rw [div_le_iff₀ h1]; nlinarith
      have := roundHalfEven_mono 3 this
      rw [hid] at this; linarith
    · intro h
      have : f * p / r ≤ f * p / q := by
        apply div_le_div_of_nonneg_left _ h1 a3.le
        positivity
      have := roundHalfEven_mono 3 this
      linarith
  · have z1 : f * p / q ≤ 0 := div_nonpos_of_nonpos_of_nonneg (mul_nonpos_of_nonpos_of_nonneg hf a1.le) h1.le
    have z2 : f * p / r ≤ 0 := div_nonpos_of_nonpos_of_nonneg (mul_nonpos_of_nonpos_of_nonneg hf a1.le) h2.le
    have y1 := roundHalfEven_mono 3 z1
    have y2 := roundHalfEven_mono 3 z2
    rw [roundHalfEven_zero] at y1 y2
    exact ⟨fun h => absurd (h.trans y1) (by norm_num), fun h => absurd (h.trans y2) (by norm_num)⟩

/-- The levels as a plain case distinction. -/
theorem emcClass_eq (ndays : ℕ) (x : K) :
    emcClass ndays x =
      if 1 ≤ r999 ndays x then some 1
      else if 1 ≤ r99 ndays x then some (99 / 100)
      else if 1 ≤ r95 x then some (95 / 100)
      else if -1 < r95 x then some 0
      else if -1 < r99 ndays x then some (-(95 / 100))
      else if -1 < r999 ndays x then some (-(99 / 100))
      else if r999 ndays x = -100 then none else some (-1) := by
  unfold emcClass r95 r99 r999
  generalize emcAlphas (K := K) ndays = al
  obtain ⟨p, q, r⟩ := al
  simp only
  generalize roundHalfEven x 3 = f
  generalize roundHalfEven (f * p / q) 3 = g
  generalize roundHalfEven (f * p / r) 3 = h
  by_cases c1 : 1 ≤ h
  · simp [c1]
  by_cases c2 : 1 ≤ g
  · simp [c1, c2, not_le.mp c1]
  by_cases c3 : 1 ≤ f
  · simp [c1, c2, c3, not_le.mp c1, not_le.mp c2]
  by_cases c4 : -1 < f
  · simp [c1, c2, c3, c4, not_le.mp c3]
  by_cases c5 : -1 < g
  · simp [c1, c2, c3, c4, c5, not_lt.mp c4]
  by_cases c6 : -1 < h
  · simp [c1, c2, c3, c4, c5, c6, not_lt.mp c5]
  rcases lt_trichotomy h (-100) with c7 | c7 | c7
  · simp [c1, c2, c3, c4, c5, c6, c7, c7.ne, not_lt.mp c6, not_lt.mpr c7.le]
  · rw [if_neg c1, if_neg (fun hh => c2 hh.2), if_neg (fun hh => c3 hh.2), if_neg (fun hh => c4 hh.1),
      if_neg (fun hh => c5 hh.2), if_neg (fun hh => c6 hh.2), if_neg (fun hh => absurd hh.2 (by rw [c7]; exact lt_irrefl _)),
      if_neg (by rw [c7]; exact lt_irrefl _), if_neg c1, if_neg c2, if_neg c3, if_neg c4, if_neg c5, if_neg c6, if_pos c7]
  · simp [c1, c2, c3, c4, c5, c6, c7, c7.ne', not_lt.mp c6]

/-- The seven levels. -/
def levels (K : Type*) [Field K] : List K := [-1, -(99 / 100), -(95 / 100), 0, 95 / 100, 99 / 100, 1]

/-- C47: a finite score gets one of the seven levels.  Missing: the scores whose 99.9% value is exactly -100, for
which nothing is returned. -/
theorem C47_levels_partial (ndays : ℕ) (x : K) :
    (r999 ndays x ≠ -100 → ∃ c ∈ levels K, emcClass ndays x = some c) ∧
    (emcClass ndays x = none ↔ r999 ndays x = -100) := by
  rw [emcClass_eq]
  unfold levels
  by_cases c1 : 1 ≤ r999 ndays x
  · have : r999 ndays x ≠ -100 := by intro e; rw [e] at c1; norm_num at c1
    simp [c1, this]
  by_cases c2 : 1 ≤ r99 ndays x
  · have : r999 ndays x ≠ -100 := by
      intro e
      have h1 := (r_nested ndays x).1 c2
      have h2 := (r_nested ndays (-x)).2
      obtain ⟨n1, n2, n3⟩ := r_neg ndays x
      rw [n2, n3, e] at h2
      have := h2 (by norm_num)
      linarith
    simp [c1, c2, this]
  by_cases c3 : 1 ≤ r95 x
  · have : r999 ndays x ≠ -100 := by
      intro e
      have h2 := r_nested ndays (-x)
      obtain ⟨n1, n2, n3⟩ := r_neg ndays x
      rw [n1, n2, n3, e] at h2
      have := h2.1 (h2.2 (by norm_num))
      linarith
    simp [c1, c2, c3, this]
  by_cases c4 : -1 < r95 x
  · have : r999 ndays x ≠ -100 := by
      intro e
      have h2 := r_nested ndays (-x)
      obtain ⟨n1, n2, n3⟩ := r_neg ndays x
      rw [n1, n2, n3, e] at h2
      have := h2.1 (h2.2 (by norm_num))
      linarith
    simp [c1, c2, c3, c4, this]
  by_cases c5 : -1 < r99 ndays x
  · have : r999 ndays x ≠ -100 := by
      intro e
      have h2 := (r_nested ndays (-x)).2
      obtain ⟨n1, n2, n3⟩ := r_neg ndays x
      rw [n2, n3, e] at h2
      have := h2 (by norm_num)
      linarith
    simp [c1, c2, c3, c4, c5, this]
  by_cases c6 : -1 < r999 ndays x
  · have : r999 ndays x ≠ -100 := by intro e; rw [e] at c6; norm_num at c6
    simp [c1, c2, c3, c4, c5, c6, this]
  by_cases c7 : r999 ndays x = -100
  · rw [if_neg c1, if_neg c2, if_neg c3, if_neg c4, if_neg c5, if_neg c6, if_pos c7]
    exact ⟨fun h => absurd c7 h, fun _ => c7, fun _ => rfl⟩
  · rw [if_neg c1, if_neg c2, if_neg c3, if_neg c4, if_neg c5, if_neg c6, if_neg c7]
    exact ⟨fun _ => ⟨-1, by simp, rfl⟩, fun h => by simp at h, fun h => absurd h c7⟩

/-- C47: a larger score never gets a smaller level. -/
theorem C47_monotone (ndays : ℕ) (x y c d : K) (h : x ≤ y) (hx : emcClass ndays x = some c)
    (hy : emcClass ndays y = some d) : c ≤ d := by
  obtain ⟨m1, m2, m3⟩ := r_mono ndays h
  rw [emcClass_eq] at hx hy
  have hd : d ≤ 1 ∧ -1 ≤ d := by
    have := C47_levels_partial ndays y
    by_cases e : r999 ndays y = -100
    · have hn := this.2.mpr e
      rw [emcClass_eq, hy] at hn; simp at hn
    · obtain ⟨d', hd', e'⟩ := this.1 e
      rw [emcClass_eq, hy] at e'
      simp only [Option.some.injEq] at e'
      subst e'
      simp only [levels, List.mem_cons, List.not_mem_nil, or_false] at hd'
      rcases hd' with h | h | h | h | h | h | h <;> rw [h] <;> norm_num
  have hc : -1 ≤ c ∧ c ≤ 1 := by
    have := C47_levels_partial ndays x
    by_cases e : r999 ndays x = -100
    · have hn := this.2.mpr e
      rw [emcClass_eq, hx] at hn; simp at hn
    · obtain ⟨d', hd', e'⟩ := this.1 e
      rw [emcClass_eq, hx] at e'
      simp only [Option.some.injEq] at e'
      subst e'
      simp only [levels, List.mem_cons, List.not_mem_nil, or_false] at hd'
      rcases hd' with h | h | h | h | h | h | h <;> rw [h] <;> norm_num
  by_cases y1 : 1 ≤ r999 ndays y
  · rw [if_pos y1] at hy; simp only [Option.some.injEq] at hy; rw [← hy]; exact hc.2
  have x1 : ¬ 1 ≤ r999 ndays x := fun h => y1 (h.trans m3)
  rw [if_neg x1] at hx; rw [if_neg y1] at hy
  by_cases y2 : 1 ≤ r99 ndays y
  · rw [if_pos y2] at hy; simp only [Option.some.injEq] at hy
    split at hx
    · simp only [Option.some.injEq] at hx; rw [← hx, ← hy]
    · split at hx
      · simp only [Option.some.injEq] at hx; rw [← hx, ← hy]; norm_num
      · repeat' split at hx
        all_goals first
          | (simp only [Option.some.injEq] at hx; rw [← hx, ← hy]; norm_num; done)
          | (simp at hx; done)
  have x2 : ¬ 1 ≤ r99 ndays x := fun h => y2 (h.trans m2)
  rw [if_neg x2] at hx; rw [if_neg y2] at hy
  by_cases y3 : 1 ≤ r95 y
  · rw [if_pos y3] at hy; simp only [Option.some.injEq] at hy
    repeat' split at hx
    all_goals first
      | (simp only [Option.some.injEq] at hx; rw [← hx, ← hy]; norm_num; done)
      | (simp only [Option.some.injEq] at hx; rw [← hx, ← hy]; done)
      | (simp at hx; done)
  have x3 : ¬ 1 ≤ r95 x := fun h => y3 (h.trans m1)
  rw [if_neg x3] at hx; rw [if_neg y3] at hy
  by_cases y4 : -1 < r95 y
  · rw [if_pos y4] at hy; simp only [Option.some.injEq] at hy
    repeat' split at hx
    all_goals first
      | (simp only [Option.some.injEq] at hx; rw [← hx, ← hy]; norm_num; done)
      | (simp only [Option.some.injEq] at hx; rw [← hx, ← hy]; done)
      | (simp at hx; done)
  have x4 : ¬ -1 < r95 x := fun h => y4 (h.trans_le m1)
  rw [if_neg x4] at hx; rw [if_neg y4] at hy
  by_cases y5 : -1 < r99 ndays y
  · rw [if_pos y5] at hy; simp only [Option.some.injEq] at hy
    repeat' split at hx
    all_goals first
      | (simp only [Option.some.injEq] at hx; rw [← hx, ← hy]; norm_num; done)
      | (simp only [Option.some.injEq] at hx; rw [← hx, ← hy]; done)
      | (simp at hx; done)
  have x5 : ¬ -1 < r99 ndays x := fun h => y5 (h.trans_le m2)
  rw [if_neg x5] at hx; rw [if_neg y5] at hy
  by_cases y6 : -1 < r999 ndays y
  · rw [if_pos y6] at hy; simp only [Option.some.injEq] at hy
    repeat' split at hx
    all_goals first
      | (simp only [Option.some.injEq] at hx; rw [← hx, ← hy]; norm_num; done)
      | (simp only [Option.some.injEq] at hx; rw [← hx, ← hy]; done)
      | (simp at hx; done)
  have x6 : ¬ -1 < r999 ndays x := fun h => y6 (h.trans_le m3)
  rw [if_neg x6] at hx
  split at hx
  · simp at hx
  · simp only [Option.some.injEq] at hx; rw [← hx]; exact hd.2

/-- C47: opposite scores get opposite levels, whenever both get one. -/
theorem C47_antisymmetric_partial (ndays : ℕ) (x c d : K) (hx : emcClass ndays x = some c)
    (hy : emcClass ndays (-x) = some d) : d = -c := by
  obtain ⟨n1, n2, n3⟩ := r_neg ndays x
  obtain ⟨k1, k2⟩ := r_nested ndays x
  obtain ⟨l1, l2⟩ := r_nested ndays (-x)
  rw [emcClass_eq] at hx hy
  rw [n1, n2] at l1
  rw [n2, n3] at l2
  rw [n1, n2, n3] at hy
  generalize r95 x = f at *
  generalize r99 ndays x = g at *
  generalize r999 ndays x = h at *
  by_cases c1 : 1 ≤ h
  · have c2 := k2 c1; have c3 := k1 c2
    rw [if_pos c1] at hx
    rw [if_neg (by linarith), if_neg (by linarith), if_neg (by linarith), if_neg (by linarith), if_neg (by linarith),
      if_neg (by linarith)] at hy
    split at hy
    · simp at hy
    · simp only [Option.some.injEq] at hx hy; rw [← hx, ← hy]
  · rw [if_neg c1] at hx
    by_cases c2 : 1 ≤ g
    · have c3 := k1 c2
      rw [if_pos c2] at hx
      rw [if_neg (by intro q; linarith [l2 q]), if_neg (by linarith), if_neg (by linarith), if_neg (by linarith),
        if_neg (by linarith), if_pos (by linarith)] at hy
      simp only [Option.some.injEq] at hx hy; rw [← hx, ← hy]
    · rw [if_neg c2] at hx
      by_cases c3 : 1 ≤ f
      · rw [if_pos c3] at hx
        rw [if_neg (by intro q; linarith [l1 (l2 q)]), if_neg (by intro q; linarith [l1 q]), if_neg (by linarith),
          if_neg (by linarith), if_pos (by linarith)] at hy
        simp only [Option.some.injEq] at hx hy; rw [← hx, ← hy]
      · rw [if_neg c3] at hx
        by_cases c4 : -1 < f
        · rw [if_pos c4] at hx
          rw [if_neg (by intro q; linarith [l1 (l2 q)]), if_neg (by intro q; linarith [l1 q]), if_neg (by linarith),
            if_pos (by linarith)] at hy
          simp only [Option.some.injEq] at hx hy; rw [← hx, ← hy]; simp
        · rw [if_neg c4] at hx
          by_cases c5 : -1 < g
          · rw [if_pos c5] at hx
            rw [if_neg (by intro q; linarith [l2 q]), if_neg (by linarith), if_pos (by linarith)] at hy
            simp only [Option.some.injEq] at hx hy; rw [← hx, ← hy]; simp
          · rw [if_neg c5] at hx
            by_cases c6 : -1 < h
            · rw [if_pos c6] at hx
              rw [if_neg (by linarith), if_pos (by linarith)] at hy
              simp only [Option.some.injEq] at hx hy; rw [← hx, ← hy]; simp
            · rw [if_neg c6] at hx
              rw [if_pos (by linarith)] at hy
              split at hx
              · simp at hx
              · simp only [Option.some.injEq] at hx hy; rw [← hx, ← hy]; simp

end

/-- C47 as stated is false: with 80 days the score -167.908 gets no level, although 167.908 gets level 1 and
-167.9 and -168 get level -1. -/
theorem C47_counterexample :
    emcClass (K := ℚ) 80 (-(167908 / 1000)) = none ∧ emcClass (K := ℚ) 80 (167908 / 1000) = some 1 ∧
    emcClass (K := ℚ) 80 (-168) = some (-1) ∧ emcClass (K := ℚ) 80 (-(1679 / 10)) = some (-1) := by
  decide +kernel

example : emcClass (K := ℚ) 80 (3 / 2) = some (99 / 100) ∧ emcClass (K := ℚ) 80 (-(11 / 10)) = some (-(95 / 100)) := by
  decide +kernel

/-! ### The whole function -/

theorem zip_sub_swap (v1 v2 : List ℝ) :
    List.zipWith (fun a b => b - a) v2 v1 = (List.zipWith (fun a b => b - a) v1 v2).map (fun x => -x) := by
  induction v1 generalizing v2 with
  | nil => simp
  | cons a v1 ih => cases v2 with
    | nil => simp
    | cons b v2 => simp [ih]

theorem sum_map_neg (l : List ℝ) : (l.map (fun x => -x)).sum = -l.sum := by
  induction l with
  | nil => simp
  | cons a l ih => simp [ih]; ring

theorem emcInterval_swap (ndays : ℕ) (v1 v2 : List ℝ) (h : v1.length = v2.length) :
    emcInterval ndays v2 v1 = emcInterval ndays v1 v2 := by
  unfold emcInterval
  simp only [zip_sub_swap v1 v2, sum_map_neg, h]
  congr 6
  rw [List.map_map]
  apply List.map_congr_left
  intro x _
  simp only [Function.comp]
  ring

theorem emcInterval_nonneg (ndays : ℕ) (v1 v2 : List ℝ) : 0 ≤ emcInterval ndays v1 v2 := by
  unfold emcInterval
  simp only
  rw [← roundHalfEven_zero (K := ℝ) 6]
  apply roundHalfEven_mono
  positivity

theorem emcNumerator_swap (stat : String) (m1 m2 : ℝ)
    (h : (startsWithText stat "ME" || startsWithText stat "BIAS") = true → |m1| = |m2| → m1 = m2) :
    emcNumerator stat m2 m1 = -emcNumerator stat m1 m2 := by
  unfold emcNumerator
  by_cases hs : (startsWithText stat "ME" || startsWithText stat "BIAS") = true
  · rw [if_pos hs, if_pos hs, abs_sub_comm m1 m2]
    rcases lt_trichotomy (|m1|) (|m2|) with hl | hl | hl
    · rw [if_pos (by linarith), if_neg (by linarith)]; ring
    · have := h hs hl
      subst this; simp
    · rw [if_neg (by linarith), if_pos (by linarith)]; ring
  · rw [if_neg hs, if_neg hs]
    split <;> ring

theorem emc_neg (ndays : ℕ) (a b : ℝ) (hb : 0 ≤ b) (c d : ℝ) (h1 : (Score.div a b).emc ndays = some c)
    (h2 : (Score.div (-a) b).emc ndays = some d) : d = -c := by
  unfold Score.div at h1 h2
  by_cases h0 : b = 0
  · rw [if_pos h0] at h1 h2
    rcases lt_trichotomy a 0 with ha | ha | ha
    · rw [if_neg ha.ne, if_neg (by linarith)] at h1
      rw [if_neg (by linarith), if_pos (by linarith)] at h2
      simp only [Score.emc, Option.some.injEq] at h1 h2
      rw [← h1, ← h2]; simp
    · rw [if_pos ha] at h1; simp [Score.emc] at h1
    · rw [if_neg ha.ne', if_pos ha] at h1
      rw [if_neg (by linarith), if_neg (by linarith)] at h2
      simp only [Score.emc, Option.some.injEq] at h1 h2
      rw [← h1, ← h2]
  · rw [if_neg h0] at h1 h2
    simp only [Score.emc] at h1 h2
    rw [neg_div] at h2
    exact C47_antisymmetric_partial ndays _ c d h1 h2

/-- C47: exchanging the two models changes the sign of the result, whenever both calls return one.  Missing for
ME and BIAS: means of equal magnitude and opposite sign (`C47_swap_counterexample`). -/
theorem C47_swap_partial (stat : String) (ndays : ℕ) (v1 v2 : List ℝ) (c d : ℝ)
    (hmean : (startsWithText stat "ME" || startsWithText stat "BIAS") = true →
      |roundHalfEven (v1.sum / v1.length) 6| = |roundHalfEven (v2.sum / v2.length) 6| →
      roundHalfEven (v1.sum / v1.length) 6 = roundHalfEven (v2.sum / v2.length) 6)
    (h1 : diffSigEmc stat ndays v1 v2 = .ok (some c)) (h2 : diffSigEmc stat ndays v2 v1 = .ok (some d)) :
    d = -c := by
  unfold diffSigEmc at h1 h2
  by_cases hl : v1.length = v2.length
  · rw [if_neg (by simpa using hl)] at h1
    rw [if_neg (by simpa using hl.symm)] at h2
    by_cases e0 : v1.length = 0
    · rw [if_pos e0] at h1; simp at h1
    by_cases e1 : v1.length = 1
    · rw [if_neg e0, if_pos e1] at h1; simp at h1
    rw [if_neg e0, if_neg e1] at h1
    rw [if_neg (by omega), if_neg (by omega)] at h2
    simp only [Except.ok.injEq] at h1 h2
    rw [emcInterval_swap ndays v1 v2 hl, emcNumerator_swap stat _ _ hmean] at h2
    exact emc_neg ndays _ _ (emcInterval_nonneg _ _ _) c d h1 h2
  · rw [if_pos hl] at h1; simp at h1

/-- C47: the whole function: for two series of the same length at least 2 the result is one of the seven levels,
or nothing, the latter exactly when the score is undefined (equal rounded means, zero interval) or its 99.9% value
is -100. -/
theorem C47_result_partial (stat : String) (ndays : ℕ) (v1 v2 : List ℝ) (hl : v1.length = v2.length)
    (h2 : 2 ≤ v1.length) :
    ∃ r, diffSigEmc stat ndays v1 v2 = .ok r ∧ (∀ c, r = some c → c ∈ levels ℝ) ∧
      (r = none ↔
        (emcInterval ndays v1 v2 = 0 ∧ emcNumerator stat (roundHalfEven (v1.sum / v1.length) 6)
          (roundHalfEven (v2.sum / v2.length) 6) = 0) ∨
        (emcInterval ndays v1 v2 ≠ 0 ∧ r999 ndays (emcNumerator stat (roundHalfEven (v1.sum / v1.length) 6)
          (roundHalfEven (v2.sum / v2.length) 6) / emcInterval ndays v1 v2) = -100)) := by
  unfold diffSigEmc
  rw [if_neg (by simpa using hl), if_neg (by omega), if_neg (by omega)]
  refine ⟨_, rfl, ?_⟩
  generalize emcNumerator stat (roundHalfEven (v1.sum / v1.length) 6) (roundHalfEven (v2.sum / v2.length) 6) = a
  generalize emcInterval ndays v1 v2 = b
  unfold Score.div
  by_cases hb : b = 0
  · rw [if_pos hb]
    rcases lt_trichotomy a 0 with ha | ha | ha
    · rw [if_neg ha.ne, if_neg (by linarith)]
      simp [Score.emc, hb, ha.ne, levels]
    · rw [if_pos ha]
      simp [Score.emc, hb, ha]
    · rw [if_neg ha.ne', if_pos ha]
      simp [Score.emc, hb, ha.ne', levels]
  · rw [if_neg hb]
    obtain ⟨p1, p2⟩ := C47_levels_partial ndays (a / b)
    refine ⟨?_, ?_⟩
    · intro c hc
      simp only [Score.emc] at hc
      by_cases e : r999 ndays (a / b) = -100
      · rw [p2.mpr e] at hc; simp at hc
      · obtain ⟨c', hc', e'⟩ := p1 e
        rw [e'] at hc
        simp only [Option.some.injEq] at hc
        rw [← hc]; exact hc'
    · simp only [Score.emc]
      rw [p2]
      simp [hb]

/-- C47: antisymmetry fails for ME when the mean errors are 1 and -1: both orders get the same result. -/
theorem C47_swap_counterexample :
    ¬ ∀ (m1 m2 : ℝ), emcNumerator "ME" m2 m1 = -emcNumerator "ME" m1 m2 := by
  intro h
  have := h 1 (-1)
  unfold emcNumerator at this
  have e : (startsWithText "ME" "ME" || startsWithText "ME" "BIAS") = true := by decide
  rw [if_pos e, if_pos e] at this
  norm_num at this

/-- C47: means, intervals and scores are rounded to the nearest value, ties to the even neighbour. -/
theorem C47_rounding (x : ℝ) (d : ℕ) : IsRounded x d (roundHalfEven x d) := by
  unfold roundHalfEven nearestEven
  refine ⟨_, rfl, ?_⟩
  have h1 := Int.floor_le (x * 10 ^ d)
  have h2 := Int.lt_floor_add_one (x * 10 ^ d)
  generalize x * 10 ^ d = y at *
  generalize ⌊y⌋ = f at *
  by_cases a : y - f < 1 / 2
  · rw [if_pos a]; left; rw [abs_of_nonneg (by linarith)]; exact a
  rw [if_neg a]
  by_cases b : y - f > 1 / 2
  · rw [if_pos b]; left; push_cast; rw [abs_of_nonpos (by linarith)]; linarith
  rw [if_neg b]
  have e : y - f = 1 / 2 := le_antisymm (not_lt.mp b) (not_lt.mp a)
  by_cases c : f % 2 = 0
  · rw [if_pos c]; right; rw [e]; exact ⟨abs_of_pos (by norm_num), Int.even_iff.mpr c⟩
  · rw [if_neg c]; right
    refine ⟨?_, Int.even_iff.mpr (by omega)⟩
    push_cast; rw [abs_of_nonpos (by linarith)]; linarith

theorem score_emc_sign (ndays : ℕ) (a b c : ℝ) (hb : 0 ≤ b) (h : (Score.div a b).emc ndays = some c) :
    (0 < c → 0 < a) ∧ (c < 0 → a < 0) := by
  have pos : ∀ a c : ℝ, (Score.div a b).emc ndays = some c → 0 < c → 0 < a := by
    intro a c h hc
    by_contra ha
    have ha := not_lt.mp ha
    unfold Score.div at h
    by_cases h0 : b = 0
    · rw [if_pos h0] at h
      rcases ha.lt_or_eq with hlt | heq
      · rw [if_neg hlt.ne, if_neg (by linarith)] at h
        simp only [Score.emc, Option.some.injEq] at h
        linarith
      · rw [if_pos heq] at h; simp [Score.emc] at h
    · rw [if_neg h0] at h
      simp only [Score.emc] at h
      have h00 : emcClass ndays (0 : ℝ) = some 0 := by
        obtain ⟨n1, n2, n3⟩ := r_neg (K := ℝ) ndays 0
        rw [neg_zero] at n1 n2 n3
        have e1 : r95 (0 : ℝ) = 0 := by linarith
        have e2 : r99 ndays (0 : ℝ) = 0 := by linarith
        have e3 : r999 ndays (0 : ℝ) = 0 := by linarith
        rw [emcClass_eq, e1, e2, e3]
        norm_num
      have := C47_monotone ndays (a / b) 0 c 0 (div_nonpos_of_nonpos_of_nonneg ha hb) h h00
      linarith
  refine ⟨pos a c h, fun hc => ?_⟩
  by_contra ha
  have ha := not_lt.mp ha
  unfold Score.div at h
  by_cases h0 : b = 0
  · rw [if_pos h0] at h
    rcases ha.lt_or_eq with hlt | heq
    · rw [if_neg hlt.ne', if_pos hlt] at h
      simp only [Score.emc, Option.some.injEq] at h
      linarith
    · rw [if_pos heq.symm] at h; simp [Score.emc] at h
  · rw [if_neg h0] at h
    simp only [Score.emc] at h
    have h00 : emcClass ndays (0 : ℝ) = some 0 := by
      obtain ⟨n1, n2, n3⟩ := r_neg (K := ℝ) ndays 0
      rw [neg_zero] at n1 n2 n3
      have e1 : r95 (0 : ℝ) = 0 := by linarith
      have e2 : r99 ndays (0 : ℝ) = 0 := by linarith
      have e3 : r999 ndays (0 : ℝ) = 0 := by linarith
      rw [emcClass_eq, e1, e2, e3]
      norm_num
    have := C47_monotone ndays 0 (a / b) 0 c (div_nonneg ha hb) h00 h
    linarith

/-- C47: which model is favoured.  For RMSE and RMSVE (names starting so, but not like ME or BIAS) a positive level means that
the mean of the first series is smaller, for the other statistics that it is larger, and a negative level the opposite; for
ME and BIAS a positive level means that the rounded mean of the first series is not larger in magnitude, a negative one that
it is larger. -/
theorem C47_direction (stat : String) (ndays : ℕ) (v1 v2 : List ℝ) (c : ℝ)
    (h : diffSigEmc stat ndays v1 v2 = .ok (some c)) :
    (¬ "ME".toList <+: stat.toList → ¬ "BIAS".toList <+: stat.toList →
      ("RMSE".toList <+: stat.toList ∨ "RMSVE".toList <+: stat.toList →
        (0 < c → v1.sum / v1.length < v2.sum / v2.length) ∧ (c < 0 → v2.sum / v2.length < v1.sum / v1.length)) ∧
      (¬ "RMSE".toList <+: stat.toList → ¬ "RMSVE".toList <+: stat.toList →
        (0 < c → v2.sum / v2.length < v1.sum / v1.length) ∧ (c < 0 → v1.sum / v1.length < v2.sum / v2.length))) ∧
    ("ME".toList <+: stat.toList ∨ "BIAS".toList <+: stat.toList →
      (0 < c → |roundHalfEven (v1.sum / v1.length) 6| ≤ |roundHalfEven (v2.sum / v2.length) 6|) ∧
      (c < 0 → |roundHalfEven (v2.sum / v2.length) 6| < |roundHalfEven (v1.sum / v1.length) 6|)) := by
  have st : ∀ p : String, startsWithText stat p = true ↔ p.toList <+: stat.toList := by
    intro p; unfold startsWithText; exact List.isPrefixOf_iff_prefix
  have lt_of : ∀ x y : ℝ, roundHalfEven x 6 < roundHalfEven y 6 → x < y := by
    intro x y hxy
    by_contra hc
    exact absurd (roundHalfEven_mono 6 (not_lt.mp hc)) (not_le.mpr hxy)
  unfold diffSigEmc at h
  by_cases hl : v1.length ≠ v2.length
  · rw [if_pos hl] at h; simp at h
  rw [if_neg hl] at h
  by_cases e0 : v1.length = 0
  · rw [if_pos e0] at h; simp at h
  rw [if_neg e0] at h
  by_cases e1 : v1.length = 1
  · rw [if_pos e1] at h; simp at h
  rw [if_neg e1] at h
  simp only [Except.ok.injEq] at h
  obtain ⟨s1, s2⟩ := score_emc_sign ndays _ _ c (emcInterval_nonneg ndays v1 v2) h
  unfold emcNumerator at s1 s2
  constructor
  · intro nm nb
    rw [← st] at nm nb
    have hmb : ¬ ((startsWithText stat "ME" || startsWithText stat "BIAS") = true) := by
      rw [Bool.or_eq_true]; exact not_or.mpr ⟨nm, nb⟩
    rw [if_neg hmb] at s1 s2
    constructor
    · intro hr
      rw [← st, ← st, ← Bool.or_eq_true] at hr
      rw [if_pos hr] at s1 s2
      exact ⟨fun hc => lt_of _ _ (by have := s1 hc; linarith), fun hc => lt_of _ _ (by have := s2 hc; linarith)⟩
    · intro n1 n2
      rw [← st] at n1 n2
      have hr : ¬ ((startsWithText stat "RMSE" || startsWithText stat "RMSVE") = true) := by
        rw [Bool.or_eq_true]; exact not_or.mpr ⟨n1, n2⟩
      rw [if_neg hr] at s1 s2
      exact ⟨fun hc => lt_of _ _ (by have := s1 hc; linarith), fun hc => lt_of _ _ (by have := s2 hc; linarith)⟩
  · intro hm
    rw [← st, ← st, ← Bool.or_eq_true] at hm
    rw [if_pos hm] at s1 s2
    generalize roundHalfEven (v1.sum / v1.length) 6 = m1 at *
    generalize roundHalfEven (v2.sum / v2.length) 6 = m2 at *
    constructor
    · intro hc
      have := s1 hc
      split at this
      · have := abs_nonneg (m2 - m1); linarith
      · linarith
    · intro hc
      have := s2 hc
      split at this
      · linarith
      · have := abs_nonneg (m2 - m1); linarith

/-- A case: two RMSE series of three days. -/
example : ∃ r, diffSigEmc "RMSE" 3 [1, 2, 3] [2, 3, 5] = .ok r ∧ (∀ c, r = some c → c ∈ levels ℝ) := by
  obtain ⟨r, h, h', -⟩ := C47_result_partial "RMSE" 3 [1, 2, 3] [2, 3, 5] rfl (by decide)
  exact ⟨r, h, h'⟩

/-! ### Critical values and interval -/

/-- C47: the levels follow the table of critical values: with the score rounded to three digits, level 1 (0.99) is
reached when score * t95 / t99.9 (t95 / t99), rounded, is at least 1, level 0.95 when the score is at least 1;
likewise for negative scores.  Missing: the scores for which nothing is returned. -/
theorem C47_critical_values_partial (ndays : ℕ) (t95 t99 t999 : ℚ) (ht : IsCritical ndays t95 t99 t999) (x c : ℚ)
    (h : emcClass ndays x = some c) :
    let f := roundHalfEven x 3
    (c = 1 ↔ 1 ≤ roundHalfEven (f * t95 / t999) 3) ∧ (99 / 100 ≤ c ↔ 1 ≤ roundHalfEven (f * t95 / t99) 3) ∧
    (95 / 100 ≤ c ↔ 1 ≤ f) ∧ (c = -1 ↔ roundHalfEven (f * t95 / t999) 3 ≤ -1) ∧
    (c ≤ -(99 / 100) ↔ roundHalfEven (f * t95 / t99) 3 ≤ -1) ∧ (c ≤ -(95 / 100) ↔ f ≤ -1) := by
  intro f
  have ha : emcAlphas (K := ℚ) ndays = (t95, t99, t999) := by
    obtain ⟨i, d, h1, h2, h3⟩ := ht
    have hi : i < 4 := by
      by_contra hi
      rw [List.getElem?_eq_none (by simpa [criticalValues] using hi)] at h1
      simp at h1
    unfold emcAlphas
    interval_cases i <;> simp [criticalValues] at h1 <;> obtain ⟨rfl, rfl, rfl, rfl⟩ := h1
    · rw [if_pos h2]; norm_num
    · have := h3 0 (by norm_num) _ _ _ _ rfl
      rw [if_neg (by omega), if_pos (by omega)]; norm_num
    · have := h3 1 (by norm_num) _ _ _ _ rfl
      rw [if_neg (by omega), if_neg (by omega), if_pos (by omega)]; norm_num
    · have := h3 2 (by norm_num) _ _ _ _ rfl
      rw [if_neg (by omega), if_neg (by omega), if_neg (by omega)]; norm_num
  have e1 : r95 x = f := rfl
  have e2 : r99 ndays x = roundHalfEven (f * t95 / t99) 3 := by unfold r99; rw [ha]
  have e3 : r999 ndays x = roundHalfEven (f * t95 / t999) 3 := by unfold r999; rw [ha]
  have n1 := r_nested ndays x
  have n2 := r_nested ndays (-x)
  obtain ⟨m1, m2, m3⟩ := r_neg ndays x
  rw [m1, m2, m3] at n2
  rw [emcClass_eq] at h
  rw [← e2, ← e3, ← e1]
  clear e1 e2 e3 m1 m2 m3 ha ht f
  generalize r95 x = a at *
  generalize r99 ndays x = b at *
  generalize r999 ndays x = d at *
  obtain ⟨p1, p2⟩ := n1
  obtain ⟨q1, q2⟩ := n2
  have q3 : b ≤ -1 → a ≤ -1 := fun h => by have := q1 (by linarith); linarith
  have q4 : d ≤ -1 → b ≤ -1 := fun h => by have := q2 (by linarith); linarith
  clear q1 q2
  have lev : (c = 1 ∧ 1 ≤ d ∧ 1 ≤ b ∧ 1 ≤ a) ∨ (c = 99 / 100 ∧ d < 1 ∧ 1 ≤ b ∧ 1 ≤ a) ∨
      (c = 95 / 100 ∧ d < 1 ∧ b < 1 ∧ 1 ≤ a) ∨ (c = 0 ∧ d < 1 ∧ b < 1 ∧ a < 1 ∧ -1 < a) ∨
      (c = -(95 / 100) ∧ a ≤ -1 ∧ -1 < b) ∨ (c = -(99 / 100) ∧ a ≤ -1 ∧ b ≤ -1 ∧ -1 < d) ∨
      (c = -1 ∧ a ≤ -1 ∧ b ≤ -1 ∧ d ≤ -1) := by
    by_cases k1 : 1 ≤ d
    · simp [k1] at h; exact Or.inl ⟨h.symm, k1, p2 k1, p1 (p2 k1)⟩
    by_cases k2 : 1 ≤ b
    · simp [k1, k2] at h; exact Or.inr (Or.inl ⟨h.symm, not_le.mp k1, k2, p1 k2⟩)
    by_cases k3 : 1 ≤ a
    · simp [k1, k2, k3] at h; exact Or.inr (Or.inr (Or.inl ⟨h.symm, not_le.mp k1, not_le.mp k2, k3⟩))
    by_cases k4 : -1 < a
    · simp [k1, k2, k3, k4] at h
      exact Or.inr (Or.inr (Or.inr (Or.inl ⟨h.symm, not_le.mp k1, not_le.mp k2, not_le.mp k3, k4⟩)))
    by_cases k5 : -1 < b
    · simp [k1, k2, k3, k4, k5] at h
      exact Or.inr (Or.inr (Or.inr (Or.inr (Or.inl ⟨h.symm, not_lt.mp k4, k5⟩))))
    by_cases k6 : -1 < d
    · simp [k1, k2, k3, k4, k5, k6] at h
      exact Or.inr (Or.inr (Or.inr (Or.inr (Or.inr (Or.inl ⟨h.symm, not_lt.mp k4, not_lt.mp k5, k6⟩)))))
    by_cases k7 : d = -100
    · rw [if_neg k1, if_neg k2, if_neg k3, if_neg k4, if_neg k5, if_neg k6, if_pos k7] at h; cases h
    · rw [if_neg k1, if_neg k2, if_neg k3, if_neg k4, if_neg k5, if_neg k6, if_neg k7] at h
      simp only [Option.some.injEq] at h
      exact Or.inr (Or.inr (Or.inr (Or.inr (Or.inr (Or.inr ⟨h.symm, not_lt.mp k4, not_lt.mp k5, not_lt.mp k6⟩)))))
  have g1 : -1 < b → -1 < d := fun hb => by by_contra hd; have := q4 (not_lt.mp hd); linarith
  have g2 : -1 < a → -1 < b := fun hb => by by_contra hd; have := q3 (not_lt.mp hd); linarith
  rcases lev with ⟨rfl, h1, h2, h3⟩ | ⟨rfl, h1, h2, h3⟩ | ⟨rfl, h1, h2, h3⟩ | ⟨rfl, h1, h2, h3, h4⟩ | ⟨rfl, h1, h2⟩ |
    ⟨rfl, h1, h2, h3⟩ | ⟨rfl, h1, h2, h3⟩
  · refine ⟨?_, ?_, ?_, ?_, ?_, ?_⟩ <;> constructor <;> intro _ <;> linarith
  · have := g1 (by linarith)
    refine ⟨?_, ?_, ?_, ?_, ?_, ?_⟩ <;> constructor <;> intro _ <;> linarith
  · have i1 := g2 (by linarith)
    have i2 := g1 i1
    refine ⟨?_, ?_, ?_, ?_, ?_, ?_⟩ <;> constructor <;> intro _ <;> linarith
  · have i1 := g2 (by linarith)
    have i2 := g1 i1
    refine ⟨?_, ?_, ?_, ?_, ?_, ?_⟩ <;> constructor <;> intro _ <;> linarith
  · have i1 : b < 1 := by by_contra hb; have := p1 (not_lt.mp hb); linarith
    have i2 : d < 1 := by by_contra hb; have := p2 (not_lt.mp hb); linarith
    have i3 := g1 h2
    refine ⟨?_, ?_, ?_, ?_, ?_, ?_⟩ <;> constructor <;> intro _ <;> linarith
  · have i2 : d < 1 := by by_contra hb; have := p2 (not_lt.mp hb); linarith
    refine ⟨?_, ?_, ?_, ?_, ?_, ?_⟩ <;> constructor <;> intro _ <;> linarith
  · refine ⟨?_, ?_, ?_, ?_, ?_, ?_⟩ <;> constructor <;> intro _ <;> linarith

/-- 60 days, score 1.5: the score times 2 / 2.66 is 1.128. -/
example : IsCritical 60 2 2.66 3.46 ∧ emcClass (K := ℚ) 60 (3 / 2) = some (99 / 100) := by
  refine ⟨⟨1, 40, rfl, by norm_num, ?_⟩, by decide +kernel⟩
  intro j hj d a b c h
  interval_cases j
  simp [criticalValues] at h
  omega

/-- C47: with one value per day the interval is 1.96 standard errors of the mean difference, rounded. -/
theorem C47_interval (v1 v2 : List ℝ) (hl : v1.length = v2.length) (h2 : 2 ≤ v1.length) :
    emcInterval v1.length v1 v2 = roundHalfEven (1.96 * standardError (List.zipWith (fun a b => b - a) v1 v2)) 6 := by
  unfold emcInterval standardError meanOf
  have hd : (List.zipWith (fun a b : ℝ => b - a) v1 v2).length = v1.length := by simp [hl]
  simp only [hd]
  congr 1
  have hn : (2 : ℝ) ≤ v1.length := by exact_mod_cast h2
  generalize (v1.length : ℝ) = n at *
  have e : ∀ x y : ℝ, (x - y) * (x - y) = (x - y) ^ 2 := fun x y => by ring
  simp only [e]
  generalize (List.map (fun x => (x - (List.zipWith (fun a b => b - a) v1 v2).sum / n) ^ 2)
    (List.zipWith (fun a b => b - a) v1 v2)).sum = q
  have h0 : (0 : ℝ) ≤ n := by linarith
  have h1 : (0 : ℝ) ≤ n - 1 := by linarith
  rw [Real.sqrt_div' _ h0, Real.sqrt_div' _ h1]
  norm_num
  ring

end Metcalcpy.Props
