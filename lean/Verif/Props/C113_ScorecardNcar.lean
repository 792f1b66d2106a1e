/-
C113  The NCAR significance of a comparison is plus or minus the confidence of the paired t-test (partial).
C114  The significance of a comparison is judged by the perfect score of its own statistic (false).
-/
import Verif.Model.ScorecardNcar
import Verif.Spec.Derived
import Verif.Props.C33_Derived

namespace Metcalcpy.Props
open Metcalcpy Spec

/-- The distribution functions are those of a symmetric distribution on the positive axis: at least 1/2, at most 1. -/
def HalfToOne (D : TDist) : Prop := ∀ q df, 0 ≤ q → 1 / 2 ≤ D.cdf q df ∧ D.cdf q df ≤ 1

theorem diffSigNcar_ok {D : TDist} {stat : String} {rest : List String} {v1 v2 : List ℝ} {r : Option ℝ}
    (h : diffSigNcar D (stat :: rest) v1 v2 = .ok r) :
    v1.length = v2.length ∧ 2 ≤ v1.length ∧
      r = (match ncarPval D (List.zipWith (fun a b => a - b) v1 v2).length
          (Score.div (meanR (List.zipWith (fun a b => a - b) v1 v2)) (stdevR (List.zipWith (fun a b => a - b) v1 v2) /
            Real.sqrt (List.zipWith (fun a b => a - b) v1 v2).length)) with
        | none => none
        | some p => perfectScoreAdjustment (meanR v1) (meanR v2) stat p) := by
  unfold diffSigNcar at h
  split at h
  · simp at h
  · next h1 =>
    split at h
    · simp at h
    · next h2 =>
      simp only [Except.ok.injEq] at h
      exact ⟨by simpa using h1, by omega, h.symm⟩

/-- C113: the significance lies between -1 and 1. -/
theorem C113_range (D : TDist) (hD : HalfToOne D) (stats : List String) (v1 v2 : List ℝ) (q : ℝ)
    (h : diffSigNcar D stats v1 v2 = .ok (some q)) : -1 ≤ q ∧ q ≤ 1 := by
  cases stats with
  | nil =>
    unfold diffSigNcar at h
    split at h
    · simp at h
    · split at h <;> simp at h
  | cons stat rest =>
    obtain ⟨-, -, hr⟩ := diffSigNcar_ok h
    generalize (Score.div _ _ : Score ℝ) = sc at hr
    generalize (List.zipWith (fun a b => a - b) v1 v2).length = n at hr
    have hp : ∀ p, ncarPval D n sc = some p → 0 ≤ p ∧ p ≤ 1 := by
      intro p hp
      cases sc with
      | nan => simp [ncarPval] at hp
      | negInf => simp [ncarPval] at hp; rw [← hp]; norm_num
      | posInf => simp [ncarPval] at hp; rw [← hp]; norm_num
      | fin t =>
        simp only [ncarPval, pt, Bool.false_eq_true, if_false, Option.some.injEq] at hp
        have := hD |t| (n - 1) (abs_nonneg t)
        constructor <;> linarith [this.1, this.2]
    cases hc : ncarPval D n sc with
    | none => rw [hc] at hr; simp at hr
    | some p =>
      rw [hc] at hr
      have hm := C34_magnitude (meanR v1) (meanR v2) p q stat hr.symm
      obtain ⟨h0, h1⟩ := hp p hc
      rw [abs_of_nonneg h0] at hm
      have := abs_le.mp (hm.le.trans h1)
      exact this

/-- The sample standard deviation vanishes only for equal values. -/
theorem stdevR_pos {d : List ℝ} (h2 : 2 ≤ d.length) (hx : ∃ x ∈ d, x ≠ meanR d) : 0 < stdevR d := by
  unfold stdevR
  apply Real.sqrt_pos.mpr
  apply div_pos
  · obtain ⟨x, hx, hne⟩ := hx
    have hnn : ∀ y ∈ d.map (fun x => (x - meanR d) * (x - meanR d)), (0 : ℝ) ≤ y := by
      intro y hy
      obtain ⟨z, -, rfl⟩ := List.mem_map.mp hy
      exact mul_self_nonneg _
    have hle := List.single_le_sum hnn _ (List.mem_map.mpr ⟨x, hx, rfl⟩)
    have : 0 < (x - meanR d) * (x - meanR d) := by
      have : x - meanR d ≠ 0 := sub_ne_zero.mpr hne
      exact mul_self_pos.mpr this
    linarith
  · have : (2 : ℝ) ≤ d.length := by exact_mod_cast h2
    linarith

theorem stdevR_zero {d : List ℝ} (hx : ∀ x ∈ d, x = meanR d) : stdevR d = 0 := by
  unfold stdevR
  have : (d.map (fun x => (x - meanR d) * (x - meanR d))).sum = 0 := by
    apply List.sum_eq_zero
    intro y hy
    obtain ⟨z, hz, rfl⟩ := List.mem_map.mp hy
    rw [hx z hz]; ring
  rw [this]; simp

/-- C113 (partial): for a statistic with a perfect score (the first one requested) and differences `d` of the paired values
that are not all equal, the significance is the confidence 1 - 2 (1 - F(|t|)) of the paired t-test with
t = mean / (s / sqrt n), n - 1 degrees of freedom, with a minus sign exactly when the first mean is farther from the
perfect score.  For differences that are all equal and not zero it is 1 or -1, for differences that are all zero it is
missing. -/
theorem C113_confidence_partial (D : TDist) (stat : String) (rest : List String) (best : ℚ)
    (hb : PerfectScore (upper stat) (some best)) (v1 v2 d : List ℝ) (hl : v1.length = v2.length) (h2 : 2 ≤ v1.length)
    (hd : d = List.zipWith (fun a b => a - b) v1 v2) (mean s : ℝ) (hm : mean = d.sum / d.length)
    (hs : 0 ≤ s) (hs2 : s * s = (d.map (fun x => (x - mean) * (x - mean))).sum / (d.length - 1)) :
    ∃ r, diffSigNcar D (stat :: rest) v1 v2 = .ok r ∧
      (∀ t, s ≠ 0 → t = mean / (s / Real.sqrt d.length) → r = some ((if |v1.sum / v1.length - best| > |v2.sum / v2.length - best| then -1 else 1) *
        (1 - 2 * (1 - D.cdf |t| (v1.length - 1))))) ∧
      (s = 0 → mean ≠ 0 → r = some (if |v1.sum / v1.length - best| > |v2.sum / v2.length - best| then -1 else 1)) ∧
      (s = 0 → mean = 0 → r = none) := by
  have hdl : d.length = v1.length := by rw [hd, List.length_zipWith, ← hl, min_self]
  have hmean : meanR d = mean := by rw [hm]; rfl
  have hsd : stdevR d = s := by
    unfold stdevR
    rw [hmean, ← hs2]
    exact Real.sqrt_mul_self hs
  have hn : (0 : ℝ) < d.length := by
    rw [hdl]; exact_mod_cast (by omega : 0 < v1.length)
  have hsn : Real.sqrt d.length ≠ 0 := (Real.sqrt_pos.mpr hn).ne'
  unfold diffSigNcar
  rw [if_neg (by simpa using hl), if_neg (by omega)]
  simp only
  rw [← hd, hmean, hsd]
  have hadj := fun p : ℝ => (C34_sign (meanR v1) (meanR v2) p stat).2 best hb
  refine ⟨_, rfl, ?_, ?_, ?_⟩
  · intro t hs0 ht
    have hb0 : s / Real.sqrt d.length ≠ 0 := div_ne_zero hs0 hsn
    unfold Score.div
    rw [if_neg hb0, ← ht]
    simp only [ncarPval, pt, Bool.false_eq_true, if_false]
    rw [hadj, hdl]
    unfold meanR
    congr 1
    split <;> ring
  · intro hs0 hm0
    unfold Score.div
    rw [if_pos (by rw [hs0]; simp), if_neg hm0]
    have : ∀ sc : Score ℝ, (sc = .posInf ∨ sc = .negInf) → ncarPval D d.length sc = some 1 := by
      rintro _ (rfl | rfl) <;> rfl
    rw [this _ (by split <;> simp)]
    simp only
    rw [hadj]
    rfl
  · intro hs0 hm0
    unfold Score.div
    rw [if_pos (by rw [hs0]; simp), if_pos hm0]
    rfl

/-- C113: exchanging the two series negates the significance, when their means are not equally far from the perfect
score. -/
theorem C113_swap_partial (D : TDist) (stat : String) (rest : List String) (best : ℚ)
    (hb : PerfectScore (upper stat) (some best)) (v1 v2 : List ℝ)
    (hdist : |v1.sum / v1.length - best| ≠ |v2.sum / v2.length - best|) (r r' : ℝ)
    (h : diffSigNcar D (stat :: rest) v1 v2 = .ok (some r)) (h' : diffSigNcar D (stat :: rest) v2 v1 = .ok (some r')) :
    r' = - r := by
  obtain ⟨hl, h2, hr⟩ := diffSigNcar_ok h
  obtain ⟨-, -, hr'⟩ := diffSigNcar_ok h'
  have hneg : List.zipWith (fun a b => a - b) v2 v1 = (List.zipWith (fun a b => a - b) v1 v2).map (fun x => -x) := by
    clear hr hr' h h' hdist h2
    induction v1 generalizing v2 with
    | nil => simp
    | cons a v1 ih =>
      cases v2 with
      | nil => simp
      | cons b v2 =>
        simp only [List.zipWith_cons_cons, List.map_cons]
        rw [ih v2 (by simpa using hl)]
        simp
  rw [hneg] at hr'
  generalize hd : List.zipWith (fun a b => a - b) v1 v2 = d at hr hr'
  have hsum : ∀ l : List ℝ, (l.map (fun x => -x)).sum = - l.sum := by
    intro l; induction l with
    | nil => simp
    | cons a l ih => simp only [List.map_cons, List.sum_cons, ih]; ring
  have hmean : meanR (d.map (fun x => -x)) = - meanR d := by
    unfold meanR
    rw [hsum, List.length_map, neg_div]
  have hsd : stdevR (d.map (fun x => -x)) = stdevR d := by
    unfold stdevR
    rw [hmean, List.map_map, List.length_map]
    congr 4
    funext x
    simp only [Function.comp]
    ring
  rw [hmean, hsd, List.length_map] at hr'
  have hp : ∀ a b : ℝ, ncarPval D d.length (Score.div (-a) b) = ncarPval D d.length (Score.div a b) := by
    intro a b
    unfold Score.div
    by_cases hb : b = 0
    · rw [if_pos hb, if_pos hb]
      by_cases ha : a = 0
      · simp [ha]
      · rw [if_neg (by simpa using ha), if_neg ha]
        split <;> split <;> rfl
    · rw [if_neg hb, if_neg hb]
      simp [ncarPval, neg_div]
  rw [hp] at hr'
  cases hc : ncarPval D d.length (Score.div (meanR d) (stdevR d / Real.sqrt d.length)) with
  | none => rw [hc] at hr; simp at hr
  | some p =>
    rw [hc] at hr hr'
    simp only at hr hr'
    rw [(C34_sign (meanR v1) (meanR v2) p stat).2 best hb] at hr
    rw [(C34_sign (meanR v2) (meanR v1) p stat).2 best hb] at hr'
    have hr := Option.some.inj hr
    have hr' := Option.some.inj hr'
    unfold meanR at hr hr'
    rcases lt_or_gt_of_ne hdist with hlt | hgt
    · rw [if_neg (not_lt.mpr hlt.le)] at hr
      rw [if_pos hlt] at hr'
      rw [hr, hr']
    · rw [if_pos hgt] at hr
      rw [if_neg (not_lt.mpr hgt.le)] at hr'
      rw [hr, hr', neg_neg]

/-- C113: the run fails when the numbers of values differ, or when there is only one pair. -/
theorem C113_failures (D : TDist) (stats : List String) (v1 v2 : List ℝ) :
    (v1.length ≠ v2.length → diffSigNcar D stats v1 v2 = .error .typeError) ∧
    (v1.length = v2.length → v1.length ≤ 1 → diffSigNcar D stats v1 v2 = .error .valueError) := by
  unfold diffSigNcar
  constructor
  · intro h
    rw [if_pos h]
  · intro h h1
    rw [if_neg (by simpa using h), if_pos (by omega)]

/-! ### Examples and counterexamples -/

/-- C113 (example): one pair. -/
example (D : TDist) : diffSigNcar D ["ME"] [1] [2] = .error .valueError := (C113_failures D _ _ _).2 rfl le_rfl

/-- A distribution function that is 1/2 up to 0 and 1 afterwards. -/
noncomputable def stepDist : TDist := ⟨fun q _ => if q ≤ 0 then 1 / 2 else 1, fun _ _ => 0⟩

theorem stepDist_half : HalfToOne stepDist := by
  intro q df hq
  unfold stepDist
  simp only
  split <;> norm_num

/-- C113 (example): two mean errors that differ by 1 at every case; the first model is farther from 0. -/
example : diffSigNcar stepDist ["ME"] [3, 4] [2, 3] = .ok (some (-1)) := by
  obtain ⟨r, h, -, h2, -⟩ := C113_confidence_partial stepDist "ME" [] 0 (PerfectScore.error (by decide)) [3, 4] [2, 3]
    [1, 1] rfl (by norm_num) (by norm_num) 1 0 (by norm_num) le_rfl (by norm_num)
  rw [h, h2 rfl one_ne_zero, if_pos (by norm_num)]

/-- C113 (example): differences 1 and 3, standard deviation sqrt 2, t = 2. -/
example : ∃ r, diffSigNcar stepDist ["ME"] [3, 6] [2, 3] = .ok (some r) ∧ -1 ≤ r ∧ r ≤ 1 := by
  obtain ⟨r, h, h1, -, -⟩ := C113_confidence_partial stepDist "ME" [] 0 (PerfectScore.error (by decide)) [3, 6] [2, 3]
    [1, 3] rfl (by norm_num) (by norm_num) 2 (Real.sqrt 2) (by norm_num) (Real.sqrt_nonneg _)
    (by rw [Real.mul_self_sqrt (by norm_num)]; norm_num)
  rw [h1 2 (by positivity) (by rw [div_div_eq_mul_div]; norm_num)] at h
  exact ⟨_, h, C113_range stepDist stepDist_half _ _ _ _ h⟩

/-- C113 (counterexample): two models with mean errors -1 and 1 are equally good; each of them is reported as better than
the other. -/
theorem C113_tie_counterexample : diffSigNcar stepDist ["ME"] [-1, -1] [1, 1] = .ok (some 1) ∧
    diffSigNcar stepDist ["ME"] [1, 1] [-1, -1] = .ok (some 1) := by
  constructor
  · obtain ⟨r, h, -, h2, -⟩ := C113_confidence_partial stepDist "ME" [] 0 (PerfectScore.error (by decide)) [-1, -1] [1, 1]
      [-2, -2] rfl (by norm_num) (by norm_num) (-2) 0 (by norm_num) le_rfl (by norm_num)
    rw [h, h2 rfl (by norm_num), if_neg (by norm_num)]
  · obtain ⟨r, h, -, h2, -⟩ := C113_confidence_partial stepDist "ME" [] 0 (PerfectScore.error (by decide)) [1, 1] [-1, -1]
      [2, 2] rfl (by norm_num) (by norm_num) 2 0 (by norm_num) le_rfl (by norm_num)
    rw [h, h2 rfl (by norm_num), if_neg (by norm_num)]

/-- C114: the significance of every comparison depends on the first requested statistic only. -/
theorem C114_first_statistic_only (D : TDist) (stat : String) (rest rest' : List String) (v1 v2 : List ℝ) :
    diffSigNcar D (stat :: rest) v1 v2 = diffSigNcar D (stat :: rest') v1 v2 := rfl

/-- C114 (counterexample): with RMSE and ACC requested, a comparison of ACC where the first model is the better one (1/2 and
3/4 against 1/4 and 1/2) gets a negative significance; with ACC alone it is positive. -/
theorem C114_counterexample : diffSigNcar stepDist ["RMSE", "ACC"] [1 / 2, 3 / 4] [1 / 4, 1 / 2] = .ok (some (-1)) ∧
    diffSigNcar stepDist ["ACC"] [1 / 2, 3 / 4] [1 / 4, 1 / 2] = .ok (some 1) := by
  constructor
  · obtain ⟨r, h, -, h2, -⟩ := C113_confidence_partial stepDist "RMSE" ["ACC"] 0 (PerfectScore.error (by decide))
      [1 / 2, 3 / 4] [1 / 4, 1 / 2] [1 / 4, 1 / 4] rfl (by norm_num) (by norm_num) (1 / 4) 0 (by norm_num) le_rfl
      (by norm_num)
    rw [h, h2 rfl (by norm_num), if_pos (by norm_num [abs_of_pos])]
  · obtain ⟨r, h, -, h2, -⟩ := C113_confidence_partial stepDist "ACC" [] 1 (PerfectScore.skill (by decide))
      [1 / 2, 3 / 4] [1 / 4, 1 / 2] [1 / 4, 1 / 4] rfl (by norm_num) (by norm_num) (1 / 4) 0 (by norm_num) le_rfl
      (by norm_num)
    rw [h, h2 rfl (by norm_num), if_neg (by norm_num [abs_of_pos])]

end Metcalcpy.Props
