/-
C197  power_corr finds the missing one of correlation, number of cases and level.
-/
import Verif.Model.PowerSearch
import Verif.Props.C120_CorrTable
import Mathlib.Topology.Order.IntermediateValue
import Mathlib.Topology.Algebra.Order.Field

namespace Metcalcpy.Props
open Metcalcpy Spec Set

/-- What is assumed of the root finder: it refuses functions with values of the same sign at the ends, and finds a root of a continuous
function otherwise. -/
def IsRootFinder (brenth : (ℝ → ℝ) → ℝ → ℝ → Except PyErr ℝ) : Prop :=
  (∀ f a b, 0 < f a * f b → brenth f a b = .error .valueError) ∧
  ∀ f a b, a ≤ b → ContinuousOn f (Icc a b) → f a * f b ≤ 0 → ∃ x ∈ Icc a b, f x = 0 ∧ brenth f a b = .ok x

/-- There are such root finders. -/
theorem exists_rootFinder : ∃ brenth, IsRootFinder brenth := by
  classical
  refine ⟨fun f a b => if 0 < f a * f b then .error .valueError else
    if h : ∃ x ∈ Icc a b, f x = 0 then .ok h.choose else .error .typeError, fun f a b h => if_pos h, fun f a b hab hf h => ?_⟩
  have hex : ∃ x ∈ Icc a b, f x = 0 := by
    rcases le_total (f a) 0 with h1 | h1
    · rcases h1.eq_or_lt with h0 | h0
      · exact ⟨a, ⟨le_rfl, hab⟩, h0⟩
      · have h2 : 0 ≤ f b := by
          by_contra h2
          push Not at h2
          exact absurd h (not_le.mpr (mul_pos_of_neg_of_neg h0 h2))
        obtain ⟨x, hx, h3⟩ := intermediate_value_Icc hab hf ⟨h1, h2⟩
        exact ⟨x, hx, h3⟩
    · rcases h1.eq_or_lt with h0 | h0
      · exact ⟨a, ⟨le_rfl, hab⟩, h0.symm⟩
      · have h2 : f b ≤ 0 := by
          by_contra h2
          push Not at h2
          exact absurd h (not_le.mpr (mul_pos h0 h2))
        obtain ⟨x, hx, h3⟩ := intermediate_value_Icc' hab hf ⟨h2, h1⟩
        exact ⟨x, hx, h3⟩
  refine ⟨hex.choose, hex.choose_spec.1, hex.choose_spec.2, ?_⟩
  simp only [not_lt.mpr h, if_false, dif_pos hex]

theorem brenthOrNan_eq (brenth : (ℝ → ℝ) → ℝ → ℝ → Except PyErr ℝ) (hb : IsRootFinder brenth) (f : ℝ → ℝ) (a b : ℝ) (hab : a ≤ b)
    (hf : ContinuousOn f (Icc a b)) :
    (0 < f a * f b ∧ brenthOrNan brenth f a b = .ok none) ∨
      (f a * f b ≤ 0 ∧ ∃ x ∈ Icc a b, f x = 0 ∧ brenthOrNan brenth f a b = .ok (some x)) := by
  rcases lt_or_ge 0 (f a * f b) with h | h
  · left
    refine ⟨h, ?_⟩
    rw [brenthOrNan, hb.1 f a b h]
  · right
    obtain ⟨x, hx, h1, h2⟩ := hb.2 f a b hab hf h
    refine ⟨h, x, hx, h1, ?_⟩
    rw [brenthOrNan, h2]

theorem artanh_continuousOn : ContinuousOn Real.artanh (Ioo (-1) 1) := by
  unfold Real.artanh
  refine ContinuousOn.log (ContinuousOn.sqrt (ContinuousOn.div (by fun_prop) (by fun_prop) fun x hx => ?_)) fun x hx => ?_
  · have := hx.2
    linarith
  · have h1 := hx.1
    have h2 := hx.2
    have : 0 < (1 + x) / (1 - x) := div_pos (by linarith) (by linarith)
    exact (Real.sqrt_pos.mpr this).ne'

theorem critical_mem (t dof : ℝ) (hd : 0 < dof) : √(t ^ 2 / (t ^ 2 + dof)) ∈ Ioo (-1 : ℝ) 1 := by
  refine ⟨lt_of_lt_of_le (by norm_num) (Real.sqrt_nonneg _), ?_⟩
  rw [Real.sqrt_lt' one_pos, one_pow, div_lt_one (by positivity)]
  linarith

/-- The power for given arguments, as the function returns it. -/
theorem powerSolve_power (S : ScipyCorr) (brenth : (ℝ → ℝ) → ℝ → ℝ → Except PyErr ℝ) (r n a : ℝ) (hr : -1 ≤ r ∧ r ≤ 1) (hn : 4 < n)
    (ha : 0 < a ∧ a ≤ 1) (tail : String) : powerSolve S brenth (some r) (some n) none (some a) tail = .ok (some (powerAt S |r| n a tail)) := by
  unfold powerSolve
  rw [if_neg (by simp), if_neg, if_neg, if_neg (by simp), if_neg]
  · rintro ⟨v, h1, h2⟩
    cases h1
    linarith
  · rintro ⟨v, h1, h2⟩
    cases h1
    exact h2 ha
  · rintro ⟨v, h1, h2⟩
    cases h1
    exact h2 hr

theorem powerSolve_r (S : ScipyCorr) (brenth : (ℝ → ℝ) → ℝ → ℝ → Except PyErr ℝ) (n p a : ℝ) (hn : 4 < n) (hp : 0 < p ∧ p ≤ 1)
    (ha : 0 < a ∧ a ≤ 1) (tail : String) : powerSolve S brenth none (some n) (some p) (some a) tail =
      brenthOrNan brenth (fun r => powerAt S r n a tail - p) (1 / 10 ^ 10) (1 - 1 / 10 ^ 10) := by
  unfold powerSolve
  rw [if_neg (by simp), if_neg (by simp), if_neg, if_neg, if_neg]
  · rintro ⟨v, h1, h2⟩
    cases h1
    linarith
  · rintro ⟨v, h1, h2⟩
    cases h1
    exact h2 hp
  · rintro ⟨v, h1, h2⟩
    cases h1
    exact h2 ha

theorem powerSolve_n (S : ScipyCorr) (brenth : (ℝ → ℝ) → ℝ → ℝ → Except PyErr ℝ) (r p a : ℝ) (hr : -1 ≤ r ∧ r ≤ 1) (hp : 0 < p ∧ p ≤ 1)
    (ha : 0 < a ∧ a ≤ 1) (tail : String) : powerSolve S brenth (some r) none (some p) (some a) tail =
      brenthOrNan brenth (fun n => powerAt S |r| n a tail - p) (4 + 1 / 10 ^ 10) (10 ^ 9) := by
  unfold powerSolve
  rw [if_neg (by simp), if_neg, if_neg, if_neg, if_neg (by simp)]
  · rintro ⟨v, h1, h2⟩
    cases h1
    exact h2 hp
  · rintro ⟨v, h1, h2⟩
    cases h1
    exact h2 ha
  · rintro ⟨v, h1, h2⟩
    cases h1
    exact h2 hr

theorem powerSolve_alpha (S : ScipyCorr) (brenth : (ℝ → ℝ) → ℝ → ℝ → Except PyErr ℝ) (r n p : ℝ) (hr : -1 ≤ r ∧ r ≤ 1) (hn : 4 < n)
    (hp : 0 < p ∧ p ≤ 1) (tail : String) : powerSolve S brenth (some r) (some n) (some p) none tail =
      brenthOrNan brenth (fun a => powerAt S |r| n a tail - p) (1 / 10 ^ 10) (1 - 1 / 10 ^ 10) := by
  unfold powerSolve
  rw [if_neg (by simp), if_neg, if_neg (by simp), if_neg, if_neg]
  · rintro ⟨v, h1, h2⟩
    cases h1
    linarith
  · rintro ⟨v, h1, h2⟩
    cases h1
    exact h2 hp
  · rintro ⟨v, h1, h2⟩
    cases h1
    exact h2 hr

/-! ### the correlation -/

theorem powerAt_continuous_r (S : ScipyCorr) (hphi : Continuous S.phi) (n a : ℝ) (tail : String) :
    ContinuousOn (fun r => powerAt S r n a tail) (Icc (1 / 10 ^ 10) (1 - 1 / 10 ^ 10)) := by
  have hsub : Icc (1 / 10 ^ 10 : ℝ) (1 - 1 / 10 ^ 10) ⊆ Ioo (-1) 1 := by
    intro x hx
    have h1 := hx.1
    have h2 := hx.2
    norm_num at h1 h2
    exact ⟨by linarith, by linarith⟩
  have hA := artanh_continuousOn.mono hsub
  have hz : ContinuousOn (fun r : ℝ => Real.artanh r + r / (2 * (n - 1))) (Icc (1 / 10 ^ 10 : ℝ) (1 - 1 / 10 ^ 10)) :=
    hA.add (by fun_prop)
  unfold powerAt
  dsimp only
  generalize (if tail = "two-sided" then S.T.ppf (1 - a / 2) (n - 2) else S.T.ppf (1 - a) (n - 2)) = t
  generalize Real.artanh √(t ^ 2 / (t ^ 2 + (n - 2))) = z
  by_cases ht : tail = "two-sided"
  · simp only [ht, if_true]
    have : ContinuousOn (fun r : ℝ => S.phi ((Real.artanh r + r / (2 * (n - 1)) - z) * √(n - 3)) +
        S.phi ((-(Real.artanh r + r / (2 * (n - 1))) - z) * √(n - 3))) (Icc (1 / 10 ^ 10 : ℝ) (1 - 1 / 10 ^ 10)) :=
      (hphi.comp_continuousOn ((hz.sub continuousOn_const).mul continuousOn_const)).add
        (hphi.comp_continuousOn ((hz.neg.sub continuousOn_const).mul continuousOn_const))
    refine this.congr fun r hr => ?_
    have : r ≠ 1 := (hsub hr).2.ne
    simp only [this, if_false]
  · simp only [ht, if_false]
    have : ContinuousOn (fun r : ℝ => S.phi ((Real.artanh r + r / (2 * (n - 1)) - z) * √(n - 3))) (Icc (1 / 10 ^ 10 : ℝ) (1 - 1 / 10 ^ 10)) :=
      hphi.comp_continuousOn ((hz.sub continuousOn_const).mul continuousOn_const)
    refine this.congr fun r hr => ?_
    have : r ≠ 1 := (hsub hr).2.ne
    simp only [this, if_false]

/-- **C197, the detectable correlation.**  For more than four cases: either the power of the weakest and of the strongest correlation of the
search lie on the same side of the one asked for, and the result is NaN, or a correlation is returned and its power is the one asked for. -/
theorem C197_correlation (S : ScipyCorr) (hphi : Continuous S.phi) (brenth : (ℝ → ℝ) → ℝ → ℝ → Except PyErr ℝ) (hb : IsRootFinder brenth)
    (n p a : ℝ) (hn : 4 < n) (hp : 0 < p ∧ p ≤ 1) (ha : 0 < a ∧ a ≤ 1) (tail : String) :
    ((∃ p0 p1, powerSolve S brenth (some (1 / 10 ^ 10)) (some n) none (some a) tail = .ok (some p0) ∧
        powerSolve S brenth (some (1 - 1 / 10 ^ 10)) (some n) none (some a) tail = .ok (some p1) ∧ (p < min p0 p1 ∨ max p0 p1 < p)) ∧
      powerSolve S brenth none (some n) (some p) (some a) tail = .ok none) ∨
    ∃ r ∈ Icc (1 / 10 ^ 10 : ℝ) (1 - 1 / 10 ^ 10), powerSolve S brenth none (some n) (some p) (some a) tail = .ok (some r) ∧
      powerSolve S brenth (some r) (some n) none (some a) tail = .ok (some p) := by
  have hc := (powerAt_continuous_r S hphi n a tail).sub (continuousOn_const (c := p))
  have hab : (1 / 10 ^ 10 : ℝ) ≤ 1 - 1 / 10 ^ 10 := by norm_num
  rw [powerSolve_r S brenth n p a hn hp ha tail]
  rcases brenthOrNan_eq brenth hb (fun r => powerAt S r n a tail - p) _ _ hab hc with ⟨h1, h2⟩ | ⟨_, r, hr, h1, h2⟩
  · left
    refine ⟨⟨_, _, powerSolve_power S brenth _ n a (by norm_num) hn ha tail, powerSolve_power S brenth _ n a (by norm_num) hn ha tail, ?_⟩, h2⟩
    have e1 : |(1 / 10 ^ 10 : ℝ)| = 1 / 10 ^ 10 := abs_of_pos (by norm_num)
    have e2 : |(1 - 1 / 10 ^ 10 : ℝ)| = 1 - 1 / 10 ^ 10 := abs_of_pos (by norm_num)
    rw [e1, e2]
    rcases pos_and_pos_or_neg_and_neg_of_mul_pos h1 with ⟨q1, q2⟩ | ⟨q1, q2⟩
    · left
      exact lt_min (by linarith) (by linarith)
    · right
      exact max_lt (by linarith) (by linarith)
  · right
    refine ⟨r, hr, h2, ?_⟩
    have h0 : (0 : ℝ) ≤ r := le_trans (by norm_num) hr.1
    have h1' : r ≤ 1 := le_trans hr.2 (by norm_num)
    rw [powerSolve_power S brenth r n a ⟨by linarith, h1'⟩ hn ha tail, abs_of_nonneg h0]
    congr 2
    linarith

/-! ### the number of cases -/

/-- The normal distribution function is continuous, and so is the quantile function of the t-distribution in both arguments. -/
structure ContinuousDist (S : ScipyCorr) : Prop where
  phi : Continuous S.phi
  dof : ∀ q, 0 < q → q < 1 → ContinuousOn (fun d => S.T.ppf q d) (Ioi 0)
  level : ∀ d, 0 < d → ContinuousOn (fun q => S.T.ppf q d) (Ioo 0 1)

theorem powerAt_continuous (S : ScipyCorr) (hphi : Continuous S.phi) (r : ℝ) (hr : r ≠ 1) (tail : String) (s : Set ℝ) (t m a : ℝ → ℝ)
    (ht : ContinuousOn t s) (hm : ContinuousOn m s) (h4 : ∀ x ∈ s, 4 < m x)
    (hta : ∀ x ∈ s, t x = if tail = "two-sided" then S.T.ppf (1 - a x / 2) (m x - 2) else S.T.ppf (1 - a x) (m x - 2)) :
    ContinuousOn (fun x => powerAt S r (m x) (a x) tail) s := by
  have hd : ContinuousOn (fun x => t x ^ 2 + (m x - 2)) s := (ht.pow 2).add (hm.sub continuousOn_const)
  have hpos : ∀ x ∈ s, t x ^ 2 + (m x - 2) ≠ 0 := fun x hx => by
    have := h4 x hx
    have : 0 ≤ t x ^ 2 := sq_nonneg _
    linarith
  have hz : ContinuousOn (fun x => Real.artanh √(t x ^ 2 / (t x ^ 2 + (m x - 2)))) s :=
    artanh_continuousOn.comp (((ht.pow 2).div hd hpos).sqrt) fun x hx => critical_mem _ _ (by have := h4 x hx; linarith)
  have hs : ContinuousOn (fun x => √(m x - 3)) s := (hm.sub continuousOn_const).sqrt
  have hw : ContinuousOn (fun x => Real.artanh r + r / (2 * (m x - 1))) s :=
    continuousOn_const.add (continuousOn_const.div (continuousOn_const.mul (hm.sub continuousOn_const)) fun x hx => by
      have := h4 x hx
      have : 0 < 2 * (m x - 1) := by linarith
      exact this.ne')
  by_cases htt : tail = "two-sided"
  · have : ContinuousOn (fun x => S.phi ((Real.artanh r + r / (2 * (m x - 1)) - Real.artanh √(t x ^ 2 / (t x ^ 2 + (m x - 2)))) * √(m x - 3)) +
        S.phi ((-(Real.artanh r + r / (2 * (m x - 1))) - Real.artanh √(t x ^ 2 / (t x ^ 2 + (m x - 2)))) * √(m x - 3))) s :=
      (hphi.comp_continuousOn ((hw.sub hz).mul hs)).add (hphi.comp_continuousOn ((hw.neg.sub hz).mul hs))
    refine this.congr fun x hx => ?_
    unfold powerAt
    simp only [htt, if_true, hr, if_false]
    have := hta x hx
    rw [if_pos htt] at this
    rw [this]
  · have : ContinuousOn (fun x => S.phi ((Real.artanh r + r / (2 * (m x - 1)) - Real.artanh √(t x ^ 2 / (t x ^ 2 + (m x - 2)))) * √(m x - 3))) s :=
      hphi.comp_continuousOn ((hw.sub hz).mul hs)
    refine this.congr fun x hx => ?_
    unfold powerAt
    simp only [htt, hr, if_false]
    have := hta x hx
    rw [if_neg htt] at this
    rw [this]

/-- **C197, the number of cases.**  A number of cases that is returned has the power asked for; it is a real number, to be rounded up by
the caller.  NaN is returned exactly if the powers at the ends of the search, little more than 4 and 10^9 cases, lie on the same side. -/
theorem C197_cases (S : ScipyCorr) (hS : ContinuousDist S) (brenth : (ℝ → ℝ) → ℝ → ℝ → Except PyErr ℝ) (hb : IsRootFinder brenth)
    (r p a : ℝ) (hr : -1 < r ∧ r < 1) (hp : 0 < p ∧ p ≤ 1) (ha : 0 < a ∧ a < 1) (tail : String) :
    ((∃ p0 p1, powerSolve S brenth (some r) (some (4 + 1 / 10 ^ 10)) none (some a) tail = .ok (some p0) ∧
        powerSolve S brenth (some r) (some (10 ^ 9)) none (some a) tail = .ok (some p1) ∧ (p < min p0 p1 ∨ max p0 p1 < p)) ∧
      powerSolve S brenth (some r) none (some p) (some a) tail = .ok none) ∨
    ∃ n ∈ Icc (4 + 1 / 10 ^ 10 : ℝ) (10 ^ 9), powerSolve S brenth (some r) none (some p) (some a) tail = .ok (some n) ∧
      powerSolve S brenth (some r) (some n) none (some a) tail = .ok (some p) := by
  have hr1 : |r| ≠ 1 := (abs_lt.mpr hr).ne
  have hc : ContinuousOn (fun n => powerAt S |r| n a tail) (Icc (4 + 1 / 10 ^ 10 : ℝ) (10 ^ 9)) := by
    have hq : ContinuousOn (fun n : ℝ => if tail = "two-sided" then S.T.ppf (1 - a / 2) (n - 2) else S.T.ppf (1 - a) (n - 2))
        (Icc (4 + 1 / 10 ^ 10 : ℝ) (10 ^ 9)) := by
      have hmap : MapsTo (fun n : ℝ => n - 2) (Icc (4 + 1 / 10 ^ 10 : ℝ) (10 ^ 9)) (Ioi 0) := by
        intro x hx
        have := hx.1
        norm_num at this
        exact mem_Ioi.mpr (by linarith)
      split
      · exact (hS.dof (1 - a / 2) (by linarith) (by linarith)).comp (by fun_prop) hmap
      · exact (hS.dof (1 - a) (by linarith) (by linarith)).comp (by fun_prop) hmap
    exact powerAt_continuous S hS.phi |r| hr1 tail _ _ id (fun _ => a) hq continuousOn_id (fun x hx => by
      have := hx.1
      norm_num at this
      simp only [id]
      linarith) fun x hx => rfl
  have hc' := hc.sub (continuousOn_const (c := p))
  have hab : (4 + 1 / 10 ^ 10 : ℝ) ≤ 10 ^ 9 := by norm_num
  rw [powerSolve_n S brenth r p a ⟨hr.1.le, hr.2.le⟩ hp ⟨ha.1, ha.2.le⟩ tail]
  rcases brenthOrNan_eq brenth hb (fun n => powerAt S |r| n a tail - p) _ _ hab hc' with ⟨h1, h2⟩ | ⟨_, n, hn, h1, h2⟩
  · left
    refine ⟨⟨_, _, powerSolve_power S brenth r _ a ⟨hr.1.le, hr.2.le⟩ (by norm_num) ⟨ha.1, ha.2.le⟩ tail,
      powerSolve_power S brenth r _ a ⟨hr.1.le, hr.2.le⟩ (by norm_num) ⟨ha.1, ha.2.le⟩ tail, ?_⟩, h2⟩
    rcases pos_and_pos_or_neg_and_neg_of_mul_pos h1 with ⟨q1, q2⟩ | ⟨q1, q2⟩
    · left
      exact lt_min (by linarith) (by linarith)
    · right
      exact max_lt (by linarith) (by linarith)
  · right
    refine ⟨n, hn, h2, ?_⟩
    have h4 : 4 < n := lt_of_lt_of_le (by norm_num) hn.1
    rw [powerSolve_power S brenth r n a ⟨hr.1.le, hr.2.le⟩ h4 ⟨ha.1, ha.2.le⟩ tail]
    congr 2
    linarith

/-! ### the level -/

/-- **C197, the level of a two-sided test.** -/
theorem C197_level (S : ScipyCorr) (hS : ContinuousDist S) (brenth : (ℝ → ℝ) → ℝ → ℝ → Except PyErr ℝ) (hb : IsRootFinder brenth)
    (r n p : ℝ) (hr : -1 < r ∧ r < 1) (hn : 4 < n) (hp : 0 < p ∧ p ≤ 1) :
    ((∃ p0 p1, powerSolve S brenth (some r) (some n) none (some (1 / 10 ^ 10)) = .ok (some p0) ∧
        powerSolve S brenth (some r) (some n) none (some (1 - 1 / 10 ^ 10)) = .ok (some p1) ∧ (p < min p0 p1 ∨ max p0 p1 < p)) ∧
      powerSolve S brenth (some r) (some n) (some p) none = .ok none) ∨
    ∃ a ∈ Icc (1 / 10 ^ 10 : ℝ) (1 - 1 / 10 ^ 10), powerSolve S brenth (some r) (some n) (some p) none = .ok (some a) ∧
      powerSolve S brenth (some r) (some n) none (some a) = .ok (some p) := by
  have hr1 : |r| ≠ 1 := (abs_lt.mpr hr).ne
  have hc : ContinuousOn (fun a => powerAt S |r| n a "two-sided") (Icc (1 / 10 ^ 10 : ℝ) (1 - 1 / 10 ^ 10)) := by
    have hmap : MapsTo (fun a : ℝ => 1 - a / 2) (Icc (1 / 10 ^ 10 : ℝ) (1 - 1 / 10 ^ 10)) (Ioo 0 1) := by
      intro x hx
      have h1 := hx.1
      have h2 := hx.2
      norm_num at h1 h2
      exact ⟨by dsimp only; linarith, by dsimp only; linarith⟩
    refine powerAt_continuous S hS.phi |r| hr1 "two-sided" _ (fun a => S.T.ppf (1 - a / 2) (n - 2)) (fun _ => n) id
      ((hS.level (n - 2) (by linarith)).comp (by fun_prop) hmap) continuousOn_const (fun x hx => hn) fun x hx => ?_
    rw [if_pos rfl]
    rfl
  have hc' := hc.sub (continuousOn_const (c := p))
  have hab : (1 / 10 ^ 10 : ℝ) ≤ 1 - 1 / 10 ^ 10 := by norm_num
  rw [powerSolve_alpha S brenth r n p ⟨hr.1.le, hr.2.le⟩ hn hp "two-sided"]
  rcases brenthOrNan_eq brenth hb (fun a => powerAt S |r| n a "two-sided" - p) _ _ hab hc' with ⟨h1, h2⟩ | ⟨_, a, ha, h1, h2⟩
  · left
    refine ⟨⟨_, _, powerSolve_power S brenth r n _ ⟨hr.1.le, hr.2.le⟩ hn (by norm_num) _,
      powerSolve_power S brenth r n _ ⟨hr.1.le, hr.2.le⟩ hn (by norm_num) _, ?_⟩, h2⟩
    rcases pos_and_pos_or_neg_and_neg_of_mul_pos h1 with ⟨q1, q2⟩ | ⟨q1, q2⟩
    · left
      exact lt_min (by linarith) (by linarith)
    · right
      exact max_lt (by linarith) (by linarith)
  · right
    refine ⟨a, ha, h2, ?_⟩
    have h0 : (0 : ℝ) < a := lt_of_lt_of_le (by norm_num) ha.1
    have h1' : a ≤ 1 := le_trans ha.2 (by norm_num)
    rw [powerSolve_power S brenth r n a ⟨hr.1.le, hr.2.le⟩ hn ⟨h0, h1'⟩ _]
    congr 2
    linarith

/-- **C197, counterexample: the level of a one-sided test.**  For a t-distribution symmetric about 0 no level is ever found: the power is the
same at both ends of the search.  (Unless the power asked for is exactly that of a level of 10^-10.) -/
theorem C197_one_sided_counterexample (S : ScipyCorr) (brenth : (ℝ → ℝ) → ℝ → ℝ → Except PyErr ℝ) (hb : IsRootFinder brenth) (r n p : ℝ)
    (hr : -1 ≤ r ∧ r ≤ 1) (hn : 4 < n) (hp : 0 < p ∧ p ≤ 1) (hT : ∀ q, S.T.ppf (1 - q) (n - 2) = -S.T.ppf q (n - 2))
    (hne : powerSolve S brenth (some r) (some n) none (some (1 / 10 ^ 10)) "one-sided" ≠ .ok (some p)) :
    powerSolve S brenth (some r) (some n) (some p) none "one-sided" = .ok none := by
  rw [powerSolve_power S brenth r n _ hr hn (by norm_num) _] at hne
  rw [powerSolve_alpha S brenth r n p hr hn hp, brenthOrNan, hb.1]
  have e : powerAt S |r| n (1 - 1 / 10 ^ 10) "one-sided" = powerAt S |r| n (1 / 10 ^ 10) "one-sided" := by
    unfold powerAt
    simp only [show ¬ "one-sided" = "two-sided" by decide, if_false]
    have h1 := hT (1 - 1 / 10 ^ 10)
    rw [h1, neg_sq]
  rw [e]
  have h2 : powerAt S |r| n (1 / 10 ^ 10) "one-sided" - p ≠ 0 := fun h => hne (by rw [sub_eq_zero.mp h])
  exact mul_self_pos.mpr h2

/-! ### stronger correlations -/

/-- The distribution grows less the farther from 0. -/
def GrowsLessOutside (phi : ℝ → ℝ) : Prop := ∀ u v h, 0 ≤ u → u ≤ v → 0 ≤ h → phi (v + h) - phi v ≤ phi (u + h) - phi u

theorem interval_outward (phi : ℝ → ℝ) (hS : IsNormalLike phi) (hU : GrowsLessOutside phi) (x y d : ℝ) (hx : 0 ≤ x) (hxy : x ≤ y)
    (hd : 0 ≤ d) : phi (x - d) + phi (-x - d) ≤ phi (y - d) + phi (-y - d) := by
  have e1 : phi (-x - d) = 1 - phi (x + d) := by rw [← hS.symm]; congr 1; ring
  have e2 : phi (-y - d) = 1 - phi (y + d) := by rw [← hS.symm]; congr 1; ring
  rw [e1, e2]
  suffices phi (y + d) - phi (x + d) ≤ phi (y - d) - phi (x - d) by linarith
  rcases le_or_gt d x with h1 | h1
  · have := hU (x - d) (x + d) (y - x) (by linarith) (by linarith) (by linarith)
    rw [show x + d + (y - x) = y + d by ring, show x - d + (y - x) = y - d by ring] at this
    exact this
  · have e3 : phi (x - d) = 1 - phi (d - x) := by rw [← hS.symm]; congr 1; ring
    rcases le_or_gt y d with h2 | h2
    · have e4 : phi (y - d) = 1 - phi (d - y) := by rw [← hS.symm]; congr 1; ring
      have := hU (d - y) (x + d) (y - x) (by linarith) (by linarith) (by linarith)
      rw [show x + d + (y - x) = y + d by ring, show d - y + (y - x) = d - x by ring] at this
      rw [e3, e4]
      linarith
    · have h0 : phi 0 = 1 / 2 := by
        have := hS.symm 0
        rw [neg_zero] at this
        linarith
      have q1 := hU 0 (x + d) (y - d) le_rfl (by linarith) (by linarith)
      have q2 := hU 0 (x + d + (y - d)) (d - x) le_rfl (by linarith) (by linarith)
      rw [show x + d + (y - d) + (d - x) = y + d by ring] at q2
      rw [zero_add] at q1 q2
      rw [e3]
      linarith

theorem powerAt_mono (S : ScipyCorr) (hS : IsNormalLike S.phi) (hU : GrowsLessOutside S.phi) (r r' n a : ℝ) (h0 : 0 ≤ r) (h : r ≤ r')
    (h1 : r' < 1) (hn : 4 < n) (tail : String) : powerAt S r n a tail ≤ powerAt S r' n a tail := by
  have hr : r ≠ 1 := by linarith
  have hr' : r' ≠ 1 := by linarith
  have m1 := (Real.artanh_le_artanh_iff (x := r) (y := r') ⟨by linarith, by linarith⟩ ⟨by linarith, h1⟩).mpr h
  have hd : (0 : ℝ) < 2 * (n - 1) := by linarith
  have m2 := div_le_div_of_nonneg_right h hd.le
  have m3 : 0 ≤ Real.artanh r := Real.artanh_nonneg h0
  have m4 : 0 ≤ r / (2 * (n - 1)) := by positivity
  have hs := Real.sqrt_nonneg (n - 3)
  unfold powerAt
  simp only [hr, hr', if_false]
  generalize (if tail = "two-sided" then S.T.ppf (1 - a / 2) (n - 2) else S.T.ppf (1 - a) (n - 2)) = t
  have hz : 0 ≤ Real.artanh √(t ^ 2 / (t ^ 2 + (n - 2))) := Real.artanh_nonneg (Real.sqrt_nonneg _)
  generalize Real.artanh √(t ^ 2 / (t ^ 2 + (n - 2))) = z at hz
  have hw : 0 ≤ Real.artanh r + r / (2 * (n - 1)) := by linarith
  have hww : Real.artanh r + r / (2 * (n - 1)) ≤ Real.artanh r' + r' / (2 * (n - 1)) := by linarith
  generalize Real.artanh r + r / (2 * (n - 1)) = w at hw hww
  generalize Real.artanh r' + r' / (2 * (n - 1)) = w' at hww
  generalize √(n - 3) = s at hs
  split
  · have := interval_outward S.phi hS hU (w * s) (w' * s) (z * s) (mul_nonneg hw hs) (mul_le_mul_of_nonneg_right hww hs) (mul_nonneg hz hs)
    rw [sub_mul, sub_mul, sub_mul, sub_mul, neg_mul, neg_mul]
    exact this
  · exact hS.mono _ _ (mul_le_mul_of_nonneg_right (by linarith) hs)

theorem powerAt_le_one (S : ScipyCorr) (hS : IsNormalLike S.phi) (r n a : ℝ) (tail : String) : powerAt S r n a tail ≤ 1 := by
  have le1 : ∀ x, S.phi x ≤ 1 := fun x => by have := hS.nonneg (-x); rw [hS.symm] at this; linarith
  unfold powerAt
  dsimp only
  by_cases hr : r = 1
  · rw [if_pos hr]
  rw [if_neg hr]
  by_cases ht : tail = "two-sided"
  · simp only [ht, if_true]
    generalize S.T.ppf (1 - a / 2) (n - 2) = t
    have hz : 0 ≤ Real.artanh √(t ^ 2 / (t ^ 2 + (n - 2))) := Real.artanh_nonneg (Real.sqrt_nonneg _)
    generalize Real.artanh √(t ^ 2 / (t ^ 2 + (n - 2))) = z at hz
    generalize Real.artanh r + r / (2 * (n - 1)) = w
    have hs := Real.sqrt_nonneg (n - 3)
    have h1 : (w - z) * √(n - 3) ≤ -((-w - z) * √(n - 3)) := by nlinarith [mul_nonneg hz hs]
    have h2 := hS.mono _ _ h1
    rw [hS.symm] at h2
    linarith
  · simp only [ht, if_false]
    exact le1 _

/-- **C197, it is the weakest one.**  Every stronger correlation has at least the power asked for, for one-sided and two-sided tests. -/
theorem C197_stronger (S : ScipyCorr) (hphi : Continuous S.phi) (hS : IsNormalLike S.phi) (hU : GrowsLessOutside S.phi)
    (brenth : (ℝ → ℝ) → ℝ → ℝ → Except PyErr ℝ) (hb : IsRootFinder brenth) (n p a : ℝ) (hn : 4 < n) (hp : 0 < p ∧ p ≤ 1) (ha : 0 < a ∧ a ≤ 1)
    (tail : String) (r r' : ℝ) (h : powerSolve S brenth none (some n) (some p) (some a) tail = .ok (some r)) (hr : r ≤ |r'|)
    (hr' : |r'| ≤ 1) : ∃ p', powerSolve S brenth (some r') (some n) none (some a) tail = .ok (some p') ∧ p ≤ p' := by
  refine ⟨_, powerSolve_power S brenth r' n a (abs_le.mp hr') hn ha tail, ?_⟩
  rcases C197_correlation S hphi brenth hb n p a hn hp ha tail with ⟨_, h1⟩ | ⟨q, hq, h1, h2⟩
  · rw [h] at h1
    cases h1
  · rw [h] at h1
    cases h1
    have h0 : (0 : ℝ) < r := lt_of_lt_of_le (by norm_num) hq.1
    have h1 : r < 1 := lt_of_le_of_lt hq.2 (by norm_num)
    rw [powerSolve_power S brenth r n a ⟨by linarith, h1.le⟩ hn ha tail, abs_of_pos h0] at h2
    have e : powerAt S r n a tail = p := by
      have := Except.ok.inj h2
      exact Option.some.inj this
    rcases hr'.eq_or_lt with e1 | e1
    · have : powerAt S |r'| n a tail = 1 := by
        unfold powerAt
        simp only [e1, if_true]
      rw [this]
      exact hp.2
    · rw [← e]
      exact powerAt_mono S hS hU r |r'| n a h0.le hr e1 hn tail

/-- **C122, two-sided tests.**  The two-sided power grows with the size of the coefficient too. -/
theorem C122_monotone_two_sided (S : ScipyCorr) (hS : IsNormalLike S.phi) (hU : GrowsLessOutside S.phi) (r r' : ℝ) (h : |r| ≤ |r'|)
    (h2 : |r'| ≤ 1) (n : ℕ) (hn : 4 < n) (alpha : ℝ) (ha : 0 < alpha) (ha' : alpha ≤ 1) :
    ∃ p p', powerCorr S r n alpha "two-sided" = .ok (some p) ∧ powerCorr S r' n alpha "two-sided" = .ok (some p') ∧ p ≤ p' := by
  refine ⟨powerFn S |r| n alpha "two-sided", powerFn S |r'| n alpha "two-sided", ?_, ?_, ?_⟩
  · rw [powerCorr, if_neg (not_not.mpr (abs_le.mp (h.trans h2))), if_neg (not_not.mpr ⟨ha, ha'⟩), if_neg (by omega)]
  · rw [powerCorr, if_neg (not_not.mpr (abs_le.mp h2)), if_neg (not_not.mpr ⟨ha, ha'⟩), if_neg (by omega)]
  · have hn' : (4 : ℝ) < n := by exact_mod_cast hn
    change powerAt S |r| n alpha "two-sided" ≤ powerAt S |r'| n alpha "two-sided"
    rcases h2.eq_or_lt with e | e
    · have : powerAt S |r'| n alpha "two-sided" = 1 := by
        unfold powerAt
        simp only [e, if_true]
      rw [this]
      exact powerAt_le_one S hS _ _ _ _
    · exact powerAt_mono S hS hU _ _ _ _ (abs_nonneg r) h e hn' _

/-- **C197, what is refused.**  Exactly one argument must be missing. -/
theorem C197_refused (S : ScipyCorr) (brenth : (ℝ → ℝ) → ℝ → ℝ → Except PyErr ℝ) (r n p a : Option ℝ) (tail : String)
    (h : ([r, n, p, a].filter fun v => v.isNone).length ≠ 1) : powerSolve S brenth r n p a tail = .error .valueError := by
  unfold powerSolve
  rw [if_pos h]

/-- **C197, too few cases.**  Up to four cases the result is NaN, whichever of the other arguments is missing. -/
theorem C197_few_cases (S : ScipyCorr) (brenth : (ℝ → ℝ) → ℝ → ℝ → Except PyErr ℝ) (r p a : Option ℝ) (n : ℝ) (hn : n ≤ 4) (tail : String)
    (h1 : ([r, p, a].filter fun v => v.isNone).length = 1) (hr : ∀ v, r = some v → -1 ≤ v ∧ v ≤ 1) (hp : ∀ v, p = some v → 0 < v ∧ v ≤ 1)
    (ha : ∀ v, a = some v → 0 < v ∧ v ≤ 1) : powerSolve S brenth r (some n) p a tail = .ok none := by
  have h1' : ([r, some n, p, a].filter fun v => v.isNone).length = 1 := by
    rw [← h1]
    cases r <;> cases p <;> cases a <;> rfl
  unfold powerSolve
  rw [if_neg (by rw [h1']; simp), if_neg (by rintro ⟨v, hv, h⟩; exact h (hr v hv)), if_neg (by rintro ⟨v, hv, h⟩; exact h (ha v hv)),
    if_neg (by rintro ⟨v, hv, h⟩; exact h (hp v hv)), if_pos ⟨n, rfl, hn⟩]

/-- Four cases are too few, five are not. -/
example (S : ScipyCorr) (brenth : (ℝ → ℝ) → ℝ → ℝ → Except PyErr ℝ) :
    powerSolve S brenth (some (1 / 2)) (some 4) none (some (1 / 20)) = .ok none ∧
    powerSolve S brenth (some (1 / 2)) (some 5) none (some (1 / 20)) ≠ .ok none :=
  ⟨C197_few_cases S brenth _ _ _ 4 le_rfl _ rfl (by rintro v ⟨⟩; norm_num) (by rintro v ⟨⟩) (by rintro v ⟨⟩; norm_num), by
    rw [powerSolve_power S brenth (1 / 2) 5 (1 / 20) (by norm_num) (by norm_num) (by norm_num) _]
    simp⟩

/-- A distribution function that is piecewise linear. -/
noncomputable def rampPhi (x : ℝ) : ℝ := max 0 (min 1 (1 / 2 + x))

/-- Not vacuous: a distribution with all properties asked for, a t-distribution that is continuous and symmetric, and a root finder. -/
example : ∃ (S : ScipyCorr) (brenth : (ℝ → ℝ) → ℝ → ℝ → Except PyErr ℝ), ContinuousDist S ∧ IsNormalLike S.phi ∧ GrowsLessOutside S.phi ∧
    (∀ q d, S.T.ppf (1 - q) d = -S.T.ppf q d) ∧ IsRootFinder brenth := by
  obtain ⟨b, hb⟩ := exists_rootFinder
  refine ⟨⟨rampPhi, fun _ => 0, ⟨fun _ _ => 0, fun q _ => q - 1 / 2⟩, fun _ _ => .ok none, fun _ _ => .ok none, fun _ _ => .ok none, fun _ _ => .ok none⟩, b,
    ⟨by unfold rampPhi; fun_prop, fun q _ _ => continuousOn_const, fun d _ => by fun_prop⟩, ⟨fun x => le_max_left _ _, fun x y h => ?_, fun x => ?_⟩, ?_,
    fun q d => by dsimp only; ring, hb⟩
  · unfold rampPhi
    exact max_le_max le_rfl (min_le_min le_rfl (by linarith))
  · simp only [rampPhi]
    rcases le_total x (-1 / 2) with h | h
    · rw [min_eq_left (by linarith), min_eq_right (by linarith), max_eq_right (by norm_num), max_eq_left (by linarith)]
      norm_num
    · rcases le_total x (1 / 2) with h' | h'
      · rw [min_eq_right (by linarith), min_eq_right (by linarith), max_eq_right (by linarith), max_eq_right (by linarith)]
        ring
      · rw [min_eq_right (by linarith), min_eq_left (by linarith), max_eq_left (by linarith), max_eq_right (by norm_num)]
        norm_num
  · intro u v h hu huv hh
    simp only [rampPhi]
    rw [max_eq_right (le_min zero_le_one (by linarith)), max_eq_right (le_min zero_le_one (by linarith)),
      max_eq_right (le_min zero_le_one (by linarith)), max_eq_right (le_min zero_le_one (by linarith))]
    rcases le_total (1 / 2 + v) 1 with h1 | h1
    · rw [min_eq_right h1, min_eq_right (show 1 / 2 + u ≤ 1 by linarith)]
      rcases le_total (1 / 2 + (u + h)) 1 with h2 | h2
      · rw [min_eq_right h2]
        linarith [min_le_right (1 : ℝ) (1 / 2 + (v + h))]
      · rw [min_eq_left h2]
        linarith [min_le_left (1 : ℝ) (1 / 2 + (v + h))]
    · rw [min_eq_left h1, min_eq_left (show 1 ≤ 1 / 2 + (v + h) by linarith)]
      have : min 1 (1 / 2 + u) ≤ min 1 (1 / 2 + (u + h)) := min_le_min le_rfl (by linarith)
      linarith

end Metcalcpy.Props
