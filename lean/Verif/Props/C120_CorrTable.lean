/-
C120, C121, C122: the table of `corr`, confidence intervals and power.
-/
import Verif.Props.C119_Percbend
import Verif.Props.C49_Acf
import Verif.Props.C110_ScorecardRun
import Verif.Model.CorrTable
import Verif.Spec.CorrTable

namespace Metcalcpy.Props
open Metcalcpy Spec

theorem halfEven_unique {y : ℝ} {k l : ℤ} (hk : |y - k| < 1 / 2 ∨ |y - k| = 1 / 2 ∧ Even k)
    (hl : |y - l| < 1 / 2 ∨ |y - l| = 1 / 2 ∧ Even l) : k = l := by
  have hk' : |y - k| ≤ 1 / 2 := by rcases hk with h | h; exacts [h.le, h.1.le]
  have hl' : |y - l| ≤ 1 / 2 := by rcases hl with h | h; exacts [h.le, h.1.le]
  by_contra hne
  have h1 : (1 : ℝ) ≤ |(k : ℝ) - l| := by
    have : (1 : ℤ) ≤ |k - l| := Int.one_le_abs (sub_ne_zero.mpr hne)
    exact_mod_cast this
  have h2 : |(k : ℝ) - l| ≤ |y - k| + |y - l| := by
    have := abs_sub_le (k : ℝ) y l
    rwa [abs_sub_comm (k : ℝ) y] at this
  have e1 : |y - k| = 1 / 2 := by linarith
  have e2 : |y - l| = 1 / 2 := by linarith
  have ek : Even k := by rcases hk with h | h; exacts [absurd e1 h.ne, h.2]
  have el : Even l := by rcases hl with h | h; exacts [absurd e2 h.ne, h.2]
  have h3 : |(k : ℝ) - l| = 1 := by linarith
  have h4 : |k - l| = 1 := by exact_mod_cast h3
  have h5 : Even (k - l) := ek.sub el
  rcases (abs_eq one_pos.le).mp h4 with h | h <;> rw [h] at h5 <;> revert h5 <;> decide

theorem npRound_spec (x : ℝ) (d : ℕ) : IsRounded x d (npRound x d) := by
  unfold npRound
  dsimp only
  refine ⟨_, rfl, ?_⟩
  have h1 := Int.floor_le (x * 10 ^ d)
  have h2 := Int.lt_floor_add_one (x * 10 ^ d)
  generalize x * 10 ^ d = y at *
  generalize ⌊y⌋ = f at *
  by_cases a : y - f < 1 / 2
  · rw [if_pos a]; left; rw [abs_of_nonneg (by linarith)]; exact a
  rw [if_neg a]
  by_cases b : y - f > 1 / 2
  · rw [if_pos b]; left; push_cast; rw [abs_of_nonpos (by linarith)]; linarith
  rw [if_neg b]
  have e : y - f = 1 / 2 := le_antisymm (not_lt.mp b) (not_lt.mp a)
  by_cases c : f % 2 = 0
  · rw [if_pos c]; right; rw [e]; exact ⟨abs_of_pos (by norm_num), Int.even_iff.mpr c⟩
  · rw [if_neg c]; right
    refine ⟨?_, Int.even_iff.mpr (by omega)⟩
    push_cast; rw [abs_of_nonpos (by linarith)]; linarith

theorem pow10 (d : ℕ) : (0 : ℝ) < 10 ^ d := by positivity

theorem isRounded_unique {x : ℝ} {d : ℕ} {y y' : ℝ} (h : IsRounded x d y) (h' : IsRounded x d y') : y = y' := by
  obtain ⟨k, rfl, hk⟩ := h
  obtain ⟨l, rfl, hl⟩ := h'
  rw [halfEven_unique hk hl]

theorem isRounded_close {x : ℝ} {d : ℕ} {y : ℝ} (h : IsRounded x d y) : |y - x| ≤ 1 / 2 / 10 ^ d := by
  obtain ⟨k, rfl, hk⟩ := h
  have : |x * 10 ^ d - k| ≤ 1 / 2 := by rcases hk with h | h; exacts [h.le, h.1.le]
  have e : (k : ℝ) / 10 ^ d - x = -(x * 10 ^ d - k) / 10 ^ d := by field_simp; ring
  rw [e, abs_div, abs_neg, abs_of_pos (pow10 d)]
  exact div_le_div_of_nonneg_right this (pow10 d).le

theorem isRounded_mono {x x' : ℝ} {d : ℕ} {y y' : ℝ} (h : IsRounded x d y) (h' : IsRounded x' d y') (hx : x ≤ x') :
    y ≤ y' := by
  rcases hx.eq_or_lt with rfl | hlt
  · exact (isRounded_unique h h').le
  obtain ⟨k, rfl, hk⟩ := h
  obtain ⟨l, rfl, hl⟩ := h'
  refine div_le_div_of_nonneg_right ?_ (pow10 d).le
  by_contra hc
  have hc' : l < k := by exact_mod_cast not_le.mp hc
  have hc'' : (l : ℝ) + 1 ≤ k := by exact_mod_cast hc'
  have b1 : |x * 10 ^ d - k| ≤ 1 / 2 := by rcases hk with h | h; exacts [h.le, h.1.le]
  have b2 : |x' * 10 ^ d - l| ≤ 1 / 2 := by rcases hl with h | h; exacts [h.le, h.1.le]
  have := (abs_le.mp b1).1
  have := (abs_le.mp b2).2
  have : x * 10 ^ d < x' * 10 ^ d := mul_lt_mul_of_pos_right hlt (pow10 d)
  linarith

theorem isRounded_neg {x : ℝ} {d : ℕ} {y : ℝ} (h : IsRounded x d y) : IsRounded (-x) d (-y) := by
  obtain ⟨k, rfl, hk⟩ := h
  refine ⟨-k, by push_cast; ring, ?_⟩
  have e : -x * 10 ^ d - ((-k : ℤ) : ℝ) = -(x * 10 ^ d - k) := by push_cast; ring
  rw [e, abs_neg]
  exact hk.imp_right (fun h => ⟨h.1, h.2.neg⟩)

theorem isRounded_int (k : ℤ) (d : ℕ) : IsRounded k d k := by
  refine ⟨k * 10 ^ d, ?_, Or.inl ?_⟩
  · push_cast; field_simp
  · push_cast; simp

theorem npRound_neg (x : ℝ) (d : ℕ) : npRound (-x) d = -npRound x d :=
  isRounded_unique (npRound_spec _ _) (isRounded_neg (npRound_spec _ _))

theorem tanh_lt_iff {a b : ℝ} : Real.tanh a < Real.tanh b ↔ a < b := by
  have ha : Real.tanh a ∈ Set.Ioo (-1) 1 := ⟨Real.neg_one_lt_tanh a, Real.tanh_lt_one a⟩
  have hb : Real.tanh b ∈ Set.Ioo (-1) 1 := ⟨Real.neg_one_lt_tanh b, Real.tanh_lt_one b⟩
  rw [← Real.artanh_lt_artanh_iff ha hb, Real.artanh_tanh, Real.artanh_tanh]

theorem tanh_le_iff {a b : ℝ} : Real.tanh a ≤ Real.tanh b ↔ a ≤ b := by
  rw [← not_lt, ← not_lt, tanh_lt_iff]

theorem artanh_neg' {r : ℝ} (h : r ∈ Set.Ioo (-1) 1) : Real.artanh (-r) = -Real.artanh r := by
  rw [← Real.artanh_tanh (-Real.artanh r), Real.tanh_neg, Real.tanh_artanh h]

/-- C121: the confidence interval of a correlation.  The reported bounds are the rounded bounds of an interval around the
coefficient; on the scale of Fisher's transform the interval is symmetric and has the half width
`crit / √(n - 3)`. -/
theorem C121_interval (ppf : ℝ → ℝ) (r : ℝ) (h1 : -1 < r) (h2 : r < 1) (n : ℕ) (hn : 3 < n) (conf : ℝ) (hc : 0 < conf)
    (hc' : conf < 1) (d : ℕ) :
    ∃ L U l u, computeEsciR ppf r n conf d = .ok (some l, some u) ∧ IsRounded L d l ∧ IsRounded U d u ∧
      -1 < L ∧ L ≤ r ∧ r ≤ U ∧ U < 1 ∧
      Real.artanh r - Real.artanh L = |ppf ((1 - conf) / 2)| / √((n : ℝ) - 3) ∧
      Real.artanh U - Real.artanh r = |ppf ((1 - conf) / 2)| / √((n : ℝ) - 3) := by
  have hr : r ∈ Set.Ioo (-1) 1 := ⟨h1, h2⟩
  have hw : 0 ≤ |ppf ((1 - conf) / 2)| * (1 / √((n : ℝ) - 3)) := by positivity
  have ht := Real.tanh_artanh hr
  refine ⟨Real.tanh (Real.artanh r - |ppf ((1 - conf) / 2)| * (1 / √((n : ℝ) - 3))),
    Real.tanh (Real.artanh r + |ppf ((1 - conf) / 2)| * (1 / √((n : ℝ) - 3))), _, _, ?_, npRound_spec _ _, npRound_spec _ _,
    Real.neg_one_lt_tanh _, ?_, ?_, Real.tanh_lt_one _, ?_, ?_⟩
  · unfold computeEsciR fisherBounds
    rw [if_pos ⟨hc, hc'⟩, if_neg (by omega), if_neg (by omega), if_neg h2.ne, if_neg h1.ne']
    rfl
  · refine le_trans (tanh_le_iff.mpr ?_) ht.le; linarith
  · refine le_trans ht.ge (tanh_le_iff.mpr ?_); linarith
  · rw [Real.artanh_tanh]; ring
  · rw [Real.artanh_tanh]; ring

/-- C121: the reported bounds lie between -1 and 1, in order, and miss the coefficient by at most half a unit of the
last reported decimal. -/
theorem C121_reported (ppf : ℝ → ℝ) (r : ℝ) (h1 : -1 < r) (h2 : r < 1) (n : ℕ) (hn : 3 < n) (conf : ℝ) (hc : 0 < conf)
    (hc' : conf < 1) (d : ℕ) :
    ∃ l u, computeEsciR ppf r n conf d = .ok (some l, some u) ∧ -1 ≤ l ∧ l ≤ u ∧ u ≤ 1 ∧
      l ≤ r + 1 / 2 / 10 ^ d ∧ r - 1 / 2 / 10 ^ d ≤ u := by
  obtain ⟨L, U, l, u, e, rl, ru, a1, a2, a3, a4, _⟩ := C121_interval ppf r h1 h2 n hn conf hc hc' d
  have m1 : ((-1 : ℤ) : ℝ) ≤ l := isRounded_mono (isRounded_int (-1) d) rl (by push_cast; exact a1.le)
  have m2 : u ≤ ((1 : ℤ) : ℝ) := isRounded_mono ru (isRounded_int 1 d) (by push_cast; exact a4.le)
  have c1 := (abs_le.mp (isRounded_close rl)).2
  have c2 := (abs_le.mp (isRounded_close ru)).1
  refine ⟨l, u, e, by simpa using m1, isRounded_mono rl ru (a2.trans a3), by simpa using m2, by linarith, by linarith⟩

/-- C121: more cases or a smaller critical value never widen the reported interval. -/
theorem C121_narrower (ppf : ℝ → ℝ) (r : ℝ) (h1 : -1 < r) (h2 : r < 1) (n m : ℕ) (hn : 3 < n) (hnm : n ≤ m)
    (conf conf' : ℝ) (hc : 0 < conf ∧ conf < 1) (hc' : 0 < conf' ∧ conf' < 1)
    (hp : |ppf ((1 - conf') / 2)| ≤ |ppf ((1 - conf) / 2)|) (d : ℕ) :
    ∃ l u l' u', computeEsciR ppf r n conf d = .ok (some l, some u) ∧ computeEsciR ppf r m conf' d = .ok (some l', some u') ∧
      l ≤ l' ∧ u' ≤ u := by
  have hs : |ppf ((1 - conf') / 2)| * (1 / √((m : ℝ) - 3)) ≤ |ppf ((1 - conf) / 2)| * (1 / √((n : ℝ) - 3)) := by
    have hn' : (0 : ℝ) < (n : ℝ) - 3 := by
      have : (3 : ℝ) < n := by exact_mod_cast hn
      linarith
    have hm' : (n : ℝ) - 3 ≤ (m : ℝ) - 3 := by
      have : (n : ℝ) ≤ m := by exact_mod_cast hnm
      linarith
    exact mul_le_mul hp (one_div_le_one_div_of_le (Real.sqrt_pos.mpr hn') (Real.sqrt_le_sqrt hm')) (by positivity)
      (abs_nonneg _)
  have form : ∀ (k : ℕ) (c : ℝ), 3 < k → 0 < c ∧ c < 1 → computeEsciR ppf r k c d =
      .ok (some (npRound (Real.tanh (Real.artanh r - |ppf ((1 - c) / 2)| * (1 / √((k : ℝ) - 3)))) d),
        some (npRound (Real.tanh (Real.artanh r + |ppf ((1 - c) / 2)| * (1 / √((k : ℝ) - 3)))) d)) := by
    intro k c hk hc
    unfold computeEsciR fisherBounds
    rw [if_pos hc, if_neg (by omega), if_neg (by omega), if_neg h2.ne, if_neg h1.ne']
    rfl
  refine ⟨_, _, _, _, form n conf hn hc, form m conf' (by omega) hc', ?_, ?_⟩
  · exact isRounded_mono (npRound_spec _ _) (npRound_spec _ _) (tanh_le_iff.mpr (by linarith))
  · exact isRounded_mono (npRound_spec _ _) (npRound_spec _ _) (tanh_le_iff.mpr (by linarith))

/-- C121: reversing the sign of the coefficient mirrors the interval, for every sample size. -/
theorem C121_mirror (ppf : ℝ → ℝ) (r : ℝ) (h1 : -1 ≤ r) (h2 : r ≤ 1) (n : ℕ) (conf : ℝ) (hc : 0 < conf) (hc' : conf < 1)
    (d : ℕ) :
    ∃ l u, computeEsciR ppf r n conf d = .ok (l, u) ∧
      computeEsciR ppf (-r) n conf d = .ok (u.map (fun v => -v), l.map (fun v => -v)) := by
  have key : fisherBounds |ppf ((1 - conf) / 2)| (-r) n =
      ((fisherBounds |ppf ((1 - conf) / 2)| r n).2.map (fun v => -v), (fisherBounds |ppf ((1 - conf) / 2)| r n).1.map (fun v => -v)) := by
    generalize |ppf ((1 - conf) / 2)| = c
    unfold fisherBounds
    by_cases hn : n < 3
    · rw [if_pos hn, if_pos hn]; rfl
    rw [if_neg hn, if_neg hn]
    have e1 : (-r = 1) ↔ r = -1 := by constructor <;> intro h <;> linarith
    have e2 : (-r = -1) ↔ r = 1 := by constructor <;> intro h <;> linarith
    by_cases hr1 : r = 1
    · have e : ¬ (-r = 1) := by rw [hr1]; norm_num
      have e' : -r = -1 := by rw [hr1]
      simp only [e, e', hr1, if_true, if_false]
      by_cases h3 : n = 3 <;> simp [h3] <;> norm_num
    by_cases hr2 : r = -1
    · have e : -r = 1 := by rw [hr2]; norm_num
      have e' : ¬ (-1 : ℝ) = 1 := by norm_num
      simp only [e, e', hr2, if_true, if_false]
      by_cases h3 : n = 3 <;> simp [h3] <;> norm_num
    simp only [mt e1.mp hr2, mt e2.mp hr1, hr1, hr2, if_false]
    by_cases h3 : n = 3
    · rw [if_pos h3, if_pos h3]; simp
    · rw [if_neg h3, if_neg h3]
      have hr : r ∈ Set.Ioo (-1) 1 := ⟨lt_of_le_of_ne h1 (Ne.symm hr2), lt_of_le_of_ne h2 hr1⟩
      simp only [artanh_neg' hr, Option.map_some, ← Real.tanh_neg, Prod.mk.injEq, Option.some.injEq]
      exact ⟨by congr 1; ring, by congr 1; ring⟩
  unfold computeEsciR
  rw [if_pos ⟨hc, hc'⟩, if_pos ⟨hc, hc'⟩, key]
  refine ⟨_, _, rfl, ?_⟩
  simp only [roundBounds]
  congr 2
  · cases (fisherBounds |ppf ((1 - conf) / 2)| r n).2 <;> simp [npRound_neg]
  · cases (fisherBounds |ppf ((1 - conf) / 2)| r n).1 <;> simp [npRound_neg]

/-- C121: fewer than three cases give no bounds; exactly three give the whole range, except at ±1 where one bound is
missing; a coefficient of ±1 from more than three cases gives an interval of width 0. -/
theorem C121_small (ppf : ℝ → ℝ) (r : ℝ) (n : ℕ) (conf : ℝ) (hc : 0 < conf) (hc' : conf < 1) (d : ℕ) :
    (n < 3 → computeEsciR ppf r n conf d = .ok (none, none)) ∧
    (n = 3 → r ≠ 1 → r ≠ -1 → computeEsciR ppf r n conf d = .ok (some (-1), some 1)) ∧
    (n = 3 → computeEsciR ppf 1 n conf d = .ok (none, some 1) ∧ computeEsciR ppf (-1) n conf d = .ok (some (-1), none)) ∧
    (3 < n → computeEsciR ppf 1 n conf d = .ok (some 1, some 1) ∧
      computeEsciR ppf (-1) n conf d = .ok (some (-1), some (-1))) := by
  have o1 : npRound 1 d = 1 := by
    have := isRounded_unique (npRound_spec 1 d) (y' := ((1 : ℤ) : ℝ)) (by have := isRounded_int 1 d; simpa using this)
    simpa using this
  have o2 : npRound (-1) d = -1 := by rw [npRound_neg, o1]
  have e : (-1 : ℝ) ≠ 1 := by norm_num
  refine ⟨?_, ?_, ?_, ?_⟩ <;> intro h <;> simp only [computeEsciR, fisherBounds, hc, hc', and_self, if_true]
  · rw [if_pos h]; rfl
  · intro a b; rw [if_neg (by omega), if_pos h, if_neg a, if_neg b]; simp [roundBounds, o1, o2]
  · have h3 : ¬ n < 3 := by omega
    simp [h, e, roundBounds, o1, o2]
  · have h3 : ¬ n < 3 := by omega
    have h4 : n ≠ 3 := by omega
    simp [h3, h4, e, roundBounds, o1, o2]

/-- C121: a confidence level outside (0, 1) is refused. -/
theorem C121_refused (ppf : ℝ → ℝ) (r : ℝ) (n : ℕ) (conf : ℝ) (h : ¬ (0 < conf ∧ conf < 1)) (d : ℕ) :
    computeEsciR ppf r n conf d = .error .assertionError := by rw [computeEsciR, if_neg h]

/-- C121 (fails): because of the rounding to two decimals the reported interval need not contain the coefficient: for
0.123 and enough cases it is [0.12, 0.12], whatever the critical value is. -/
theorem C121_counterexample (ppf : ℝ → ℝ) (conf : ℝ) (hc : 0 < conf) (hc' : conf < 1) :
    ∃ N : ℕ, ∀ n, N ≤ n → computeEsciR ppf 0.123 n conf = .ok (some 0.12, some 0.12) := by
  have hr : (0.123 : ℝ) ∈ Set.Ioo (-1) 1 := by constructor <;> norm_num
  have hL : (0.121 : ℝ) ∈ Set.Ioo (-1) 1 := by constructor <;> norm_num
  have hU : (0.1245 : ℝ) ∈ Set.Ioo (-1) 1 := by constructor <;> norm_num
  set c := |ppf ((1 - conf) / 2)| with hcdef
  have e1 : 0 < Real.artanh 0.123 - Real.artanh 0.121 := sub_pos.mpr ((Real.artanh_lt_artanh_iff hL hr).mpr (by norm_num))
  have e2 : 0 < Real.artanh 0.1245 - Real.artanh 0.123 := sub_pos.mpr ((Real.artanh_lt_artanh_iff hr hU).mpr (by norm_num))
  set ε := min (Real.artanh 0.123 - Real.artanh 0.121) (Real.artanh 0.1245 - Real.artanh 0.123) with hε
  have hε0 : 0 < ε := lt_min e1 e2
  obtain ⟨N, hN⟩ := exists_nat_gt ((c / ε) ^ 2)
  refine ⟨N + 4, fun n hn => ?_⟩
  have hn3 : (0 : ℝ) < (n : ℝ) - 3 := by
    have : (4 : ℝ) ≤ n := by exact_mod_cast (by omega : 4 ≤ n)
    linarith
  have hsq : (c / ε) ^ 2 ≤ (n : ℝ) - 3 := by
    have : (N : ℝ) + 4 ≤ n := by exact_mod_cast hn
    linarith
  have hc0 : 0 ≤ c := abs_nonneg _
  have hw : c * (1 / √((n : ℝ) - 3)) ≤ ε := by
    have h := Real.le_sqrt_of_sq_le hsq
    rw [mul_one_div, div_le_iff₀ (Real.sqrt_pos.mpr hn3)]
    rw [div_le_iff₀ hε0] at h
    linarith
  have hw0 : 0 ≤ c * (1 / √((n : ℝ) - 3)) := by positivity
  have b1 : (0.121 : ℝ) ≤ Real.tanh (Real.artanh 0.123 - c * (1 / √((n : ℝ) - 3))) := by
    rw [← Real.tanh_artanh hL, tanh_le_iff]
    have := min_le_left (Real.artanh 0.123 - Real.artanh 0.121) (Real.artanh 0.1245 - Real.artanh 0.123)
    linarith
  have b2 : Real.tanh (Real.artanh 0.123 + c * (1 / √((n : ℝ) - 3))) ≤ 0.1245 := by
    rw [← Real.tanh_artanh hU, tanh_le_iff]
    have := min_le_right (Real.artanh 0.123 - Real.artanh 0.121) (Real.artanh 0.1245 - Real.artanh 0.123)
    linarith
  have b3 : Real.tanh (Real.artanh 0.123 - c * (1 / √((n : ℝ) - 3))) ≤
      Real.tanh (Real.artanh 0.123 + c * (1 / √((n : ℝ) - 3))) := tanh_le_iff.mpr (by linarith)
  have rd : ∀ v : ℝ, 0.121 ≤ v → v ≤ 0.1245 → npRound v 2 = 0.12 := by
    intro v h1 h2
    refine isRounded_unique (npRound_spec _ _) ⟨12, by norm_num, Or.inl ?_⟩
    rw [abs_lt]; constructor <;> push_cast <;> norm_num <;> linarith
  unfold computeEsciR fisherBounds
  rw [if_pos ⟨hc, hc'⟩, if_neg (by omega), if_neg (by omega), if_neg (by norm_num), if_neg (by norm_num)]
  simp only [roundBounds, Option.map_some, ← hcdef]
  rw [rd _ b1 (b3.trans b2), rd _ (b1.trans b3) b2]

/-- C121: the interval of a standardized difference: the reported bounds are the rounded ends of an interval centred at
the statistic. -/
theorem C121_difference (T : TDist) (stat : ℝ) (nx ny : ℕ) (hx : 2 ≤ nx) (hy : 1 ≤ ny) (paired : Bool) (conf : ℝ)
    (hc : 0 < conf) (hc' : conf < 1) (d : ℕ) :
    ∃ w l u, computeEsciD T stat nx ny paired conf d = .ok (some l, some u) ∧ 0 ≤ w ∧
      IsRounded (stat - w) d l ∧ IsRounded (stat + w) d u ∧ l ≤ u ∧
      (ny = 1 ∨ paired = true →
        w ^ 2 = T.ppf ((1 - conf) / 2) ((nx : ℝ) - 1) ^ 2 * ((1 + stat ^ 2 / 2) / nx)) ∧
      (ny ≠ 1 → paired = false →
        w ^ 2 = T.ppf ((1 - conf) / 2) ((nx : ℝ) + ny - 2) ^ 2 * (1 / nx + 1 / ny + stat ^ 2 / (2 * (nx + ny)))) := by
  have nx0 : (nx : ℝ) ≠ 0 := by exact_mod_cast (by omega : nx ≠ 0)
  have ny0 : (ny : ℝ) ≠ 0 := by exact_mod_cast (by omega : ny ≠ 0)
  unfold computeEsciD
  rw [if_pos ⟨hc, hc'⟩]
  by_cases hb : ny = 1 ∨ paired = true
  · simp only [hb, if_true]
    rw [if_neg (by omega)]
    have hw : 0 ≤ |T.ppf ((1 - conf) / 2) ((nx - 1 : ℕ) : ℝ)| * √(1 / (nx : ℝ) + stat ^ 2 / (2 * (nx : ℝ))) := by positivity
    refine ⟨_, _, _, rfl, hw, npRound_spec _ _, npRound_spec _ _,
      isRounded_mono (npRound_spec _ _) (npRound_spec _ _) (by linarith), ?_, ?_⟩
    · intro _
      rw [mul_pow, sq_abs, Real.sq_sqrt (by positivity), Nat.cast_sub (by omega : 1 ≤ nx)]
      push_cast
      congr 1
      field_simp
    · intro h1 h2; rcases hb with hb | hb
      · exact absurd hb h1
      · rw [h2] at hb; exact absurd hb (by simp)
  · simp only [hb, if_false]
    rw [if_neg (by omega)]
    have hw : 0 ≤ |T.ppf ((1 - conf) / 2) ((nx + ny - 2 : ℕ) : ℝ)| *
        √(((nx : ℝ) + ny) / ((nx : ℝ) * ny) + stat ^ 2 / (2 * ((nx : ℝ) + ny))) := by positivity
    refine ⟨_, _, _, rfl, hw, npRound_spec _ _, npRound_spec _ _,
      isRounded_mono (npRound_spec _ _) (npRound_spec _ _) (by linarith), ?_, ?_⟩
    · intro h; exact h.elim
    · intro h1 h2
      rw [mul_pow, sq_abs, Real.sq_sqrt (by positivity), Nat.cast_sub (by omega : 2 ≤ nx + ny)]
      push_cast
      congr 2
      field_simp
      ring

/-- Not vacuous. -/
example (T : TDist) : ∃ (w : ℝ) (l u : ℝ), computeEsciD T 1 10 12 false 0.95 2 = .ok (some l, some u) ∧ 0 ≤ w := by
  obtain ⟨w, l, u, h, h0, _⟩ := C121_difference T 1 10 12 (by norm_num) (by norm_num) false 0.95 (by norm_num) (by norm_num) 2
  exact ⟨w, l, u, h, h0⟩

example (ppf : ℝ → ℝ) : ∃ l u, computeEsciR ppf 0.5 20 0.95 2 = .ok (some l, some u) ∧ l ≤ u := by
  obtain ⟨l, u, h, _, h2, _⟩ := C121_reported ppf 0.5 (by norm_num) (by norm_num) 20 (by norm_num) 0.95 (by norm_num)
    (by norm_num) 2
  exact ⟨l, u, h, h2⟩

theorem powerFn_bounds (S : ScipyCorr) (hS : IsNormalLike S.phi) (r : ℝ) (n : ℕ) (alpha : ℝ) (tail : String)
    (hn : 4 < n) : 0 ≤ powerFn S r n alpha tail ∧ powerFn S r n alpha tail ≤ 1 := by
  have le1 : ∀ x, S.phi x ≤ 1 := fun x => by have := hS.nonneg (-x); rw [hS.symm] at this; linarith
  unfold powerFn
  dsimp only
  by_cases hr : r = 1
  · rw [if_pos hr]; exact ⟨zero_le_one, le_refl _⟩
  rw [if_neg hr]
  by_cases ht : tail = "two-sided"
  · simp only [ht, if_true]
    refine ⟨add_nonneg (hS.nonneg _) (hS.nonneg _), ?_⟩
    generalize S.T.ppf (1 - alpha / 2) ((n : ℝ) - 2) = t
    have hd : (0 : ℝ) < (n : ℝ) - 2 := by
      have : (4 : ℝ) < n := by exact_mod_cast hn
      linarith
    have hrc : √(t ^ 2 / (t ^ 2 + ((n : ℝ) - 2))) < 1 := by
      rw [Real.sqrt_lt' one_pos, one_pow, div_lt_one (by positivity)]; linarith
    have hz : 0 ≤ Real.artanh √(t ^ 2 / (t ^ 2 + ((n : ℝ) - 2))) := Real.artanh_nonneg (Real.sqrt_nonneg _)
    generalize Real.artanh √(t ^ 2 / (t ^ 2 + ((n : ℝ) - 2))) = z at hz
    generalize Real.artanh r + r / (2 * ((n : ℝ) - 1)) = w
    have hs := Real.sqrt_nonneg ((n : ℝ) - 3)
    have h1 : (w - z) * √((n : ℝ) - 3) ≤ -((-w - z) * √((n : ℝ) - 3)) := by nlinarith [mul_nonneg hz hs]
    have h2 := hS.mono _ _ h1
    rw [hS.symm] at h2
    linarith
  · simp only [ht, if_false]
    exact ⟨hS.nonneg _, le1 _⟩

/-- C122: for more than four cases the power is a probability, and the sign of the coefficient does not matter. -/
theorem C122_probability (S : ScipyCorr) (hS : IsNormalLike S.phi) (r : ℝ) (h1 : -1 ≤ r) (h2 : r ≤ 1) (n : ℕ) (hn : 4 < n)
    (alpha : ℝ) (ha : 0 < alpha) (ha' : alpha ≤ 1) (tail : String) :
    ∃ p, powerCorr S r n alpha tail = .ok (some p) ∧ powerCorr S (-r) n alpha tail = .ok (some p) ∧ 0 ≤ p ∧ p ≤ 1 := by
  refine ⟨powerFn S |r| n alpha tail, ?_, ?_, powerFn_bounds S hS _ n alpha tail hn⟩
  · rw [powerCorr, if_neg (not_not.mpr ⟨h1, h2⟩), if_neg (not_not.mpr ⟨ha, ha'⟩), if_neg (by omega)]
  · rw [powerCorr, if_neg (not_not.mpr ⟨by linarith, by linarith⟩), if_neg (not_not.mpr ⟨ha, ha'⟩), if_neg (by omega), abs_neg]

/-- C122: the one-sided power grows with the size of the coefficient, and is 1 for ±1. -/
theorem C122_monotone (S : ScipyCorr) (hS : IsNormalLike S.phi) (r r' : ℝ) (h : |r| ≤ |r'|) (h2 : |r'| ≤ 1) (n : ℕ)
    (hn : 4 < n) (alpha : ℝ) (ha : 0 < alpha) (ha' : alpha ≤ 1) (tail : String) (ht : tail = "one-sided") :
    ∃ p p', powerCorr S r n alpha tail = .ok (some p) ∧ powerCorr S r' n alpha tail = .ok (some p') ∧ p ≤ p' ∧
      (|r'| = 1 → p' = 1) := by
  have ht : ¬ tail = "two-sided" := by rw [ht]; decide
  refine ⟨powerFn S |r| n alpha tail, powerFn S |r'| n alpha tail, ?_, ?_, ?_, ?_⟩
  · rw [powerCorr, if_neg (not_not.mpr (abs_le.mp (h.trans h2))), if_neg (not_not.mpr ⟨ha, ha'⟩), if_neg (by omega)]
  · rw [powerCorr, if_neg (not_not.mpr (abs_le.mp h2)), if_neg (not_not.mpr ⟨ha, ha'⟩), if_neg (by omega)]
  · by_cases e : |r'| = 1
    · have : powerFn S |r'| n alpha tail = 1 := by unfold powerFn; simp only [e, if_true]
      rw [this]; exact (powerFn_bounds S hS _ n alpha tail hn).2
    have e' : ¬ |r| = 1 := fun h' => e (le_antisymm h2 (h' ▸ h))
    unfold powerFn
    simp only [e, e', ht, if_false]
    refine hS.mono _ _ (mul_le_mul_of_nonneg_right ?_ (Real.sqrt_nonneg _))
    have m1 : (|r| : ℝ) ∈ Set.Ioo (-1) 1 := ⟨by linarith [abs_nonneg r], lt_of_le_of_ne (h.trans h2) e'⟩
    have m2 : (|r'| : ℝ) ∈ Set.Ioo (-1) 1 := ⟨by linarith [abs_nonneg r'], lt_of_le_of_ne h2 e⟩
    have a1 := (Real.artanh_le_artanh_iff m1 m2).mpr h
    have hd : (0 : ℝ) < 2 * ((n : ℝ) - 1) := by
      have : (4 : ℝ) < n := by exact_mod_cast hn
      linarith
    have a2 := div_le_div_of_nonneg_right h hd.le
    linarith
  · intro e; unfold powerFn; simp only [e, if_true]

theorem critical_mono {t t' d : ℝ} (h0 : 0 ≤ t) (h : t ≤ t') (hd : 0 < d) :
    Real.artanh √(t ^ 2 / (t ^ 2 + d)) ≤ Real.artanh √(t' ^ 2 / (t' ^ 2 + d)) := by
  have hlt : √(t' ^ 2 / (t' ^ 2 + d)) < 1 := by
    rw [Real.sqrt_lt' one_pos, one_pow, div_lt_one (by positivity)]; linarith
  apply Real.artanh_le_artanh (lt_of_lt_of_le (by norm_num) (Real.sqrt_nonneg _)) hlt
  apply Real.sqrt_le_sqrt
  rw [div_le_div_iff₀ (by positivity) (by positivity)]
  have : t ^ 2 ≤ t' ^ 2 := by gcongr
  nlinarith

/-- C122: a test at a larger level has at least the power of a test at a smaller one; for one-sided tests up to level 1/2. -/
theorem C122_level (S : ScipyCorr) (hS : IsNormalLike S.phi) (r : ℝ) (h1 : -1 ≤ r) (h2 : r ≤ 1) (n : ℕ) (hn : 4 < n)
    (hT : S.T.ppf (1 / 2) ((n : ℝ) - 2) = 0 ∧
      ∀ p q, 1 / 2 ≤ p → p ≤ q → q < 1 → S.T.ppf p ((n : ℝ) - 2) ≤ S.T.ppf q ((n : ℝ) - 2))
    (alpha alpha' : ℝ) (ha : 0 < alpha) (haa : alpha ≤ alpha') (tail : String)
    (ha' : alpha' ≤ if tail = "two-sided" then 1 else 1 / 2) :
    ∃ p p', powerCorr S r n alpha tail = .ok (some p) ∧ powerCorr S r n alpha' tail = .ok (some p') ∧ p ≤ p' := by
  have hle : alpha' ≤ 1 := by split at ha' <;> linarith
  refine ⟨powerFn S |r| n alpha tail, powerFn S |r| n alpha' tail, ?_, ?_, ?_⟩
  · rw [powerCorr, if_neg (not_not.mpr ⟨h1, h2⟩), if_neg (not_not.mpr ⟨ha, by linarith⟩), if_neg (by omega)]
  · rw [powerCorr, if_neg (not_not.mpr ⟨h1, h2⟩), if_neg (not_not.mpr ⟨by linarith, hle⟩), if_neg (by omega)]
  · have hd : (0 : ℝ) < (n : ℝ) - 2 := by
      have : (4 : ℝ) < n := by exact_mod_cast hn
      linarith
    have hs := Real.sqrt_nonneg ((n : ℝ) - 3)
    by_cases e : |r| = 1
    · unfold powerFn; simp only [e, if_true]; exact le_refl _
    unfold powerFn
    by_cases ht : tail = "two-sided"
    · rw [if_pos ht] at ha'
      simp only [e, ht, if_false, if_true]
      have h0 : 0 ≤ S.T.ppf (1 - alpha' / 2) ((n : ℝ) - 2) := by
        rw [← hT.1]; exact hT.2 _ _ (le_refl _) (by linarith) (by linarith)
      have hm : S.T.ppf (1 - alpha' / 2) ((n : ℝ) - 2) ≤ S.T.ppf (1 - alpha / 2) ((n : ℝ) - 2) :=
        hT.2 _ _ (by linarith) (by linarith) (by linarith)
      have hz := critical_mono h0 hm hd
      exact add_le_add (hS.mono _ _ (mul_le_mul_of_nonneg_right (by linarith) hs))
        (hS.mono _ _ (mul_le_mul_of_nonneg_right (by linarith) hs))
    · rw [if_neg ht] at ha'
      simp only [e, ht, if_false]
      have h0 : 0 ≤ S.T.ppf (1 - alpha') ((n : ℝ) - 2) := by
        rw [← hT.1]; exact hT.2 _ _ (le_refl _) (by linarith) (by linarith)
      have hm : S.T.ppf (1 - alpha') ((n : ℝ) - 2) ≤ S.T.ppf (1 - alpha) ((n : ℝ) - 2) :=
        hT.2 _ _ (by linarith) (by linarith) (by linarith)
      have hz := critical_mono h0 hm hd
      exact hS.mono _ _ (mul_le_mul_of_nonneg_right (by linarith) hs)

/-- C122: beyond level 1/2 the one-sided power falls again: it is the same at a level and at its complement. -/
theorem C122_one_sided_reflected (S : ScipyCorr) (r : ℝ) (h1 : -1 ≤ r) (h2 : r ≤ 1) (n : ℕ) (hn : 4 < n)
    (hT : ∀ p, S.T.ppf (1 - p) ((n : ℝ) - 2) = - S.T.ppf p ((n : ℝ) - 2)) (alpha : ℝ) (ha : 0 < alpha) (ha' : alpha < 1) :
    ∃ p, powerCorr S r n alpha "one-sided" = .ok (some p) ∧ powerCorr S r n (1 - alpha) "one-sided" = .ok (some p) := by
  refine ⟨powerFn S |r| n alpha "one-sided", ?_, ?_⟩
  · rw [powerCorr, if_neg (not_not.mpr ⟨h1, h2⟩), if_neg (not_not.mpr ⟨ha, ha'.le⟩), if_neg (by omega)]
  · rw [powerCorr, if_neg (not_not.mpr ⟨h1, h2⟩), if_neg (not_not.mpr ⟨by linarith, by linarith⟩), if_neg (by omega)]
    congr 2
    unfold powerFn
    simp only [show ¬ "one-sided" = "two-sided" by decide, if_false]
    rw [hT (1 - alpha), neg_sq]

/-- C122: no power for four cases or fewer; a coefficient outside [-1, 1] and a level outside (0, 1] are refused. -/
theorem C122_errors (S : ScipyCorr) (r : ℝ) (n : ℕ) (alpha : ℝ) (tail : String) :
    (¬ (-1 ≤ r ∧ r ≤ 1) ∨ ¬ (0 < alpha ∧ alpha ≤ 1) → powerCorr S r n alpha tail = .error .assertionError) ∧
    (-1 ≤ r → r ≤ 1 → 0 < alpha → alpha ≤ 1 → n ≤ 4 → powerCorr S r n alpha tail = .ok none) := by
  refine ⟨?_, fun h1 h2 h3 h4 h5 => ?_⟩
  · rintro (h | h)
    · rw [powerCorr, if_pos h]
    · rw [powerCorr]; split
      · rfl
      · rfl
  · rw [powerCorr, if_neg (not_not.mpr ⟨h1, h2⟩), if_neg (not_not.mpr ⟨h3, h4⟩), if_pos h5]

/-- The complete pairs, as the two columns handed to the methods. -/
theorem corr_columns {x y rx ry : List Cell} (hl : rx.length = ry.length)
    (hz : rx.zip ry = (x.zip y).filter (fun p => p.1.isSome && p.2.isSome)) :
    rx.filterMap id = firsts (completePairs x y) ∧ ry.filterMap id = seconds (completePairs x y) := by
  have h1 : rx = ((x.zip y).filter (fun p => p.1.isSome && p.2.isSome)).map Prod.fst := by
    rw [← hz, List.map_fst_zip hl.le]
  have h2 : ry = ((x.zip y).filter (fun p => p.1.isSome && p.2.isSome)).map Prod.snd := by
    rw [← hz, List.map_snd_zip hl.ge]
  rw [h1, h2]
  clear h1 h2 hz
  unfold completePairs firsts seconds
  generalize x.zip y = l
  induction l with
  | nil => exact ⟨rfl, rfl⟩
  | cons p l ih =>
    obtain ⟨a, b⟩ := p
    cases a <;> cases b <;> simp_all

theorem corr_form (S : ScipyCorr) (x y : List Cell) (hl : x.length = y.length) (h2 : 2 ≤ x.length) (tail : String)
    (ht : tail = "two-sided" ∨ tail = "one-sided") (method : String) :
    corr S x y tail method =
      (do let c ← corrMethod S method (firsts (completePairs x y)) (seconds (completePairs x y))
          corrRow S method tail (completePairs x y).length c) := by
  obtain ⟨rx, ry, e, hrl, hz, _⟩ := C50_pairs x y h2 hl
  obtain ⟨c1, c2⟩ := corr_columns hrl hz
  have hnt : ¬ (tail ≠ "two-sided" ∧ tail ≠ "one-sided") := fun h => ht.elim h.1 h.2
  rw [corr, if_neg (not_not.mpr hl), if_neg hnt, e]
  simp only [bind, Except.bind, c1, c2]
  rw [show (firsts (completePairs x y)).length = (completePairs x y).length by simp [firsts]]

theorem completePairs_some (ps : List (ℚ × ℚ)) :
    completePairs (ps.map (fun p => some p.1)) (ps.map (fun p => some p.2)) = ps := by
  induction ps with
  | nil => rfl
  | cons p ps ih => unfold completePairs at ih ⊢; simp [ih]

/-- C120: cases with a missing member count for nothing: the table is the table of the complete pairs. -/
theorem C120_missing (S : ScipyCorr) (x y : List Cell) (hl : x.length = y.length) (tail method : String)
    (h2 : 2 ≤ (completePairs x y).length) :
    corr S x y tail method =
      corr S ((completePairs x y).map (fun p => some p.1)) ((completePairs x y).map (fun p => some p.2)) tail method := by
  have hx : 2 ≤ x.length := by
    refine h2.trans ?_
    unfold completePairs
    refine (List.length_filterMap_le _ _).trans ?_
    rw [List.length_zip]; exact min_le_left _ _
  by_cases ht : tail = "two-sided" ∨ tail = "one-sided"
  · rw [corr_form S x y hl hx tail ht, corr_form S _ _ (by simp) (by simpa using h2) tail ht, completePairs_some]
  · have ht' : tail ≠ "two-sided" ∧ tail ≠ "one-sided" := not_or.mp ht
    rw [corr, if_neg (not_not.mpr hl), if_pos ht', corr, if_neg (by simp), if_pos ht']

/-- C120: what the row says.  `n` counts the complete pairs.  Without a coefficient every other entry is missing.
With a coefficient `r`: it lies in [-1, 1], `r2` is its square, `adj_r2` the adjusted square for two predictors' worth of
lost cases (never above `r2` for more than three cases), the one-sided p-value is half the two-sided one whatever the sign,
and the interval is the one of C121, rounded to six and then to two decimals. -/
theorem C120_row (S : ScipyCorr) (x y : List Cell) (hl : x.length = y.length) (h2 : 2 ≤ x.length) (tail : String)
    (ht : tail = "two-sided" ∨ tail = "one-sided") (method : String) (row : CorrRow)
    (h : corr S x y tail method = .ok row) :
    ∃ c, corrMethod S method (firsts (completePairs x y)) (seconds (completePairs x y)) = .ok c ∧
      row.n = (completePairs x y).length ∧ row.r = c.map CorrResult.r ∧
      (row.r = none → row.ci = none ∧ row.r2 = none ∧ row.adjR2 = none ∧ row.pval = none ∧ row.power = none) ∧
      ∀ res, c = some res → -1 ≤ res.r ∧ res.r ≤ 1 ∧ row.r2 = some (res.r ^ 2) ∧
        (3 < row.n → ∃ a, row.adjR2 = some a ∧ a ≤ res.r ^ 2 ∧
          (1 - a) * ((row.n : ℝ) - 3) = (1 - res.r ^ 2) * ((row.n : ℝ) - 1)) ∧
        (tail = "two-sided" → row.pval = res.pval) ∧
        (tail = "one-sided" → row.pval = res.pval.map (fun p => p / 2)) ∧
        (row.n ≤ 4 → row.power = none) ∧
        (4 < row.n → ∃ p, row.power = some p ∧ powerCorr S res.r row.n 0.05 tail = .ok (some p)) ∧
        (3 < row.n → -1 < res.r → res.r < 1 → ∃ L U l6 u6 l u, row.ci = some (some l, some u) ∧
          IsRounded L 6 l6 ∧ IsRounded l6 2 l ∧ IsRounded U 6 u6 ∧ IsRounded u6 2 u ∧ L ≤ res.r ∧ res.r ≤ U ∧
          -1 ≤ l ∧ l ≤ u ∧ u ≤ 1 ∧
          Real.artanh res.r - Real.artanh L = |S.normPpf ((1 - 0.95) / 2)| / √((row.n : ℝ) - 3) ∧
          Real.artanh U - Real.artanh res.r = |S.normPpf ((1 - 0.95) / 2)| / √((row.n : ℝ) - 3)) := by
  rw [corr_form S x y hl h2 tail ht] at h
  generalize hps : completePairs x y = ps at *
  obtain ⟨c, hc, hrow⟩ := bind_ok_parts h
  refine ⟨c, hc, ?_⟩
  cases c with
  | none =>
    simp only [corrRow, Except.ok.injEq] at hrow
    subst hrow
    refine ⟨rfl, rfl, fun _ => ⟨rfl, rfl, rfl, rfl, rfl⟩, fun res h => by cases h⟩
  | some c =>
    simp only [corrRow] at hrow
    obtain ⟨ci, hci, hrow⟩ := bind_ok_parts hrow
    obtain ⟨pr, hpr, hrow⟩ := bind_ok_parts hrow
    simp only [Except.ok.injEq] at hrow
    have hr : -1 ≤ c.r ∧ c.r ≤ 1 := by
      by_contra hcon
      rw [powerCorr, if_pos hcon] at hpr
      cases hpr
    have ha : (0 : ℝ) < 0.05 ∧ (0.05 : ℝ) ≤ 1 := by norm_num
    subst hrow
    refine ⟨rfl, rfl, ?_, ?_⟩
    · intro hnone; cases hnone
    intro res hres
    cases hres
    refine ⟨hr.1, hr.2, rfl, ?_, ?_, ?_, ?_, ?_, ?_⟩
    · intro hn
      dsimp only at hn ⊢
      have hn' : (3 : ℝ) < (ps.length : ℝ) := by exact_mod_cast hn
      have h0 : (0 : ℝ) < (ps.length : ℝ) - 3 := by linarith
      refine ⟨_, if_neg (by omega), ?_, ?_⟩
      · have hs : c.r ^ 2 ≤ 1 := by nlinarith
        have : 1 - c.r ^ 2 ≤ (1 - c.r ^ 2) * ((ps.length : ℝ) - 1) / ((ps.length : ℝ) - 3) := by
          rw [le_div_iff₀ h0]
          exact mul_le_mul_of_nonneg_left (by linarith) (by linarith)
        linarith
      · field_simp; ring
    · intro h; simp only [h, if_true]
    · intro h
      have : ¬ tail = "two-sided" := by rw [h]; decide
      simp only [this, if_false]
      congr 1; funext p; ring
    · intro hn
      dsimp only at hn ⊢
      rw [powerCorr, if_neg (not_not.mpr hr), if_neg (not_not.mpr ha), if_pos hn] at hpr
      exact (Except.ok.inj hpr).symm
    · intro hn
      dsimp only at hn ⊢
      rw [powerCorr, if_neg (not_not.mpr hr), if_neg (not_not.mpr ha), if_neg (by omega)] at hpr ⊢
      exact ⟨_, (Except.ok.inj hpr).symm, rfl⟩
    · intro hn a b
      dsimp only at hn ⊢
      obtain ⟨L, U, l6, u6, e, r1, r2, b1, b2, b3, b4, f1, f2⟩ :=
        C121_interval S.normPpf c.r a b ps.length hn 0.95 (by norm_num) (by norm_num) 6
      rw [e] at hci
      cases hci
      have m1 : ((-1 : ℤ) : ℝ) ≤ l6 := isRounded_mono (isRounded_int (-1) 6) r1 (by push_cast; exact b1.le)
      have m2 : u6 ≤ ((1 : ℤ) : ℝ) := isRounded_mono r2 (isRounded_int 1 6) (by push_cast; exact b4.le)
      have m3 := isRounded_mono (isRounded_int (-1) 2) (npRound_spec l6 2) m1
      have m4 := isRounded_mono (npRound_spec u6 2) (isRounded_int 1 2) m2
      refine ⟨L, U, l6, u6, npRound l6 2, npRound u6 2, rfl, r1, npRound_spec _ _, r2, npRound_spec _ _, b2, b3,
        by simpa using m3, ?_, by simpa using m4, f1, f2⟩
      exact isRounded_mono (npRound_spec _ _) (npRound_spec _ _) (isRounded_mono r1 r2 (b2.trans b3))

/-- C120: the columns.  BF10 is reported for Pearson's coefficient only, unless the coefficient is missing; the documented
column `outliers` is never reported. -/
theorem C120_columns (S : ScipyCorr) (x y : List Cell) (tail method : String) (row : CorrRow)
    (h : corr S x y tail method = .ok row) :
    (∀ k ∈ ["n", "r", "CI95%", "r2", "adj_r2", "p-val", "power"], k ∈ row.columns) ∧ "outliers" ∉ row.columns ∧
      ("BF10" ∈ row.columns ↔ method = "pearson" ∨ row.r = none) := by
  rw [corr] at h
  split at h
  · cases h
  split at h
  · cases h
  obtain ⟨xy, _, h⟩ := bind_ok_parts h
  obtain ⟨c, _, h⟩ := bind_ok_parts h
  cases c with
  | none =>
    simp only [corrRow, Except.ok.injEq] at h
    subst h
    simp
  | some c =>
    simp only [corrRow] at h
    obtain ⟨ci, _, h⟩ := bind_ok_parts h
    obtain ⟨pr, _, h⟩ := bind_ok_parts h
    simp only [Except.ok.injEq] at h
    subst h
    by_cases hm : method = "pearson"
    · subst hm; simp
    · simp [hm]

/-- C120: for the robust methods the order of the cases does not matter, nor which variable comes first. -/
theorem C120_robust (S : ScipyCorr) (x y x' y' : List Cell) (hl : x.length = y.length) (h2 : 2 ≤ x.length)
    (hl' : x'.length = y'.length) (h2' : 2 ≤ x'.length) (tail method : String)
    (hm : method = "bicor" ∨ method = "percbend")
    (hp : (completePairs x y).Perm (completePairs x' y') ∨ (completePairs x y).Perm (completePairs y' x')) :
    corr S x y tail method = corr S x' y' tail method := by
  have sw : ∀ a b : List Cell, completePairs b a = (completePairs a b).map Prod.swap := by
    intro a
    induction a with
    | nil => intro b; cases b <;> rfl
    | cons u a ih =>
      intro b
      cases b with
      | nil => rfl
      | cons v b =>
        have := ih b
        unfold completePairs at this ⊢
        cases u <;> cases v <;> simp [this]
  have key : ∀ ps qs : List (ℚ × ℚ), ps.Perm qs →
      corrMethod S method (firsts ps) (seconds ps) = corrMethod S method (firsts qs) (seconds qs) := by
    intro ps qs h
    rcases hm with rfl | rfl
    · simp only [corrMethod, show ¬ ("bicor" = "pearson") by decide, show ¬ ("bicor" = "spearman") by decide,
        show ¬ ("bicor" = "kendall") by decide, if_false, if_true]
      rw [C118_order S.T 9 (by norm_num) ps qs h]
    · simp only [corrMethod, show ¬ ("percbend" = "pearson") by decide, show ¬ ("percbend" = "spearman") by decide,
        show ¬ ("percbend" = "kendall") by decide, show ¬ ("percbend" = "bicor") by decide, if_false, if_true]
      rw [C119_order S.T (1/5) (by norm_num) (by norm_num) ps qs h]
  have key2 : ∀ ps : List (ℚ × ℚ),
      corrMethod S method (firsts (ps.map Prod.swap)) (seconds (ps.map Prod.swap)) =
        corrMethod S method (firsts ps) (seconds ps) := by
    intro ps
    have e1 : firsts (ps.map Prod.swap) = seconds ps := by simp [firsts, seconds]
    have e2 : seconds (ps.map Prod.swap) = firsts ps := by simp [firsts, seconds]
    rw [e1, e2]
    rcases hm with rfl | rfl
    · simp only [corrMethod, show ¬ ("bicor" = "pearson") by decide, show ¬ ("bicor" = "spearman") by decide,
        show ¬ ("bicor" = "kendall") by decide, if_false, if_true]
      rw [C118_symmetric S.T 9 (by norm_num) ps]
    · simp only [corrMethod, show ¬ ("percbend" = "pearson") by decide, show ¬ ("percbend" = "spearman") by decide,
        show ¬ ("percbend" = "kendall") by decide, show ¬ ("percbend" = "bicor") by decide, if_false, if_true]
      rw [C119_symmetric S.T (1/5) (by norm_num) (by norm_num) ps]
  by_cases ht : tail = "two-sided" ∨ tail = "one-sided"
  · rw [corr_form S x y hl h2 tail ht, corr_form S x' y' hl' h2' tail ht]
    rcases hp with hp | hp
    · rw [key _ _ hp, hp.length_eq]
    · have e := sw x' y'
      rw [key _ _ hp, hp.length_eq, e, key2, List.length_map]
  · have ht' : tail ≠ "two-sided" ∧ tail ≠ "one-sided" := not_or.mp ht
    rw [corr, if_neg (not_not.mpr hl), if_pos ht', corr, if_neg (not_not.mpr hl'), if_pos ht']

/-- C120: what is refused. -/
theorem C120_errors (S : ScipyCorr) (x y : List Cell) (tail method : String) :
    (x.length ≠ y.length ∨ (tail ≠ "two-sided" ∧ tail ≠ "one-sided") ∨ x.length ≤ 1 →
      corr S x y tail method = .error .assertionError) ∧
    (x.length = y.length → 2 ≤ x.length → (tail = "two-sided" ∨ tail = "one-sided") →
      method ∉ ["pearson", "spearman", "kendall", "bicor", "percbend", "shepherd"] →
      corr S x y tail method = .error .valueError) := by
  constructor
  · intro h
    rw [corr]
    split
    · rfl
    · split
      · rfl
      · rename_i h1 h2
        rcases h with h | h | h
        · exact absurd h h1
        · exact absurd h h2
        · rw [removeNa, if_pos h]; rfl
  · intro hl h2 ht hm
    rw [corr_form S x y hl h2 tail ht]
    simp only [List.mem_cons, List.not_mem_nil, or_false, not_or] at hm
    obtain ⟨m1, m2, m3, m4, m5, m6⟩ := hm
    simp only [corrMethod, m1, m2, m3, m4, m5, m6, if_false]
    rfl

/-- Data for the robust methods: one pair has a missing member. -/
def exCorrX : List Cell := [some 1, some 2, none, some 4, some 7]
def exCorrY : List Cell := [some 2, some 3, some 9, some 3, some 8]

/-- Not vacuous: the data above have four complete pairs, and the table reports a coefficient for them. -/
example (S : ScipyCorr) : ∃ row, corr S exCorrX exCorrY "two-sided" "bicor" = .ok row ∧ row.n = 4 := by
  have hps : completePairs exCorrX exCorrY = [(1, 2), (2, 3), (4, 3), (7, 8)] := by decide +kernel
  have hx : IsMedMad (firsts (completePairs exCorrX exCorrY)) 3 (3 / 2) := by
    rw [hps]
    exact ⟨⟨[1, 2, 4, 7], by decide +kernel, by decide +kernel, 2, 4, by decide +kernel, by decide +kernel, by norm_num⟩,
      ⟨[1, 1, 2, 4], by decide +kernel, by decide +kernel, 1, 2, by decide +kernel, by decide +kernel, by norm_num⟩⟩
  have hy : IsMedMad (seconds (completePairs exCorrX exCorrY)) 3 (1 / 2) := by
    rw [hps]
    exact ⟨⟨[2, 3, 3, 8], by decide +kernel, by decide +kernel, 3, 3, by decide +kernel, by decide +kernel, by norm_num⟩,
      ⟨[0, 0, 1, 5], by decide +kernel, by decide +kernel, 0, 1, by decide +kernel, by decide +kernel, by norm_num⟩⟩
  obtain ⟨res, e, _, b1, b2⟩ := C118_value S.T 9 (by norm_num) _ 3 (3 / 2) 3 (1 / 2) hx hy (by norm_num) (by norm_num)
  rw [corr_form S _ _ (by decide) (by decide) _ (Or.inl rfl)]
  simp only [corrMethod, show ¬ ("bicor" = "pearson") by decide, show ¬ ("bicor" = "spearman") by decide,
    show ¬ ("bicor" = "kendall") by decide, if_false, if_true]
  rw [e]
  have h4 : (completePairs exCorrX exCorrY).length = 4 := by rw [hps]; rfl
  have hc : (0 : ℝ) < 0.95 ∧ (0.95 : ℝ) < 1 := by norm_num
  have ha : (0 : ℝ) < 0.05 ∧ (0.05 : ℝ) ≤ 1 := by norm_num
  simp only [bind, Except.bind, corrRow, computeEsciR, powerCorr, h4, hc, ha, b1, b2, and_self, not_true, if_true, if_false]
  exact ⟨_, rfl, rfl⟩

/-- Not vacuous: a function with the properties asked of the normal distribution function. -/
example : IsNormalLike (fun x => if x < 0 then 0 else if x = 0 then 1 / 2 else 1) where
  nonneg x := by split_ifs <;> norm_num
  mono x y h := by
    split_ifs <;> first | (exfalso; grind) | norm_num
  symm x := by
    rcases lt_trichotomy x 0 with h | h | h
    · rw [if_neg (by linarith), if_neg (by linarith), if_pos h]; norm_num
    · subst h; norm_num
    · rw [if_pos (by linarith), if_neg (by linarith), if_neg h.ne']; norm_num

/-- Not vacuous: quantiles with the properties asked of those of the t-distribution. -/
example : ((1 / 2 : ℝ) - 1 / 2 = 0 ∧ ∀ p q : ℝ, 1 / 2 ≤ p → p ≤ q → q < 1 → p - 1 / 2 ≤ q - 1 / 2) ∧
    ∀ p : ℝ, (1 - p) - 1 / 2 = -(p - 1 / 2) :=
  ⟨⟨by norm_num, fun _ _ _ h _ => by linarith⟩, fun _ => by ring⟩

end Metcalcpy.Props
