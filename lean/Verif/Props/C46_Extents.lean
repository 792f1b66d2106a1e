/-
C46, C113, C130, C173, C235  For exactly which inputs these claims hold.
-/
import Verif.Props.C45_ObjectBootstrap
import Verif.Props.C113_ScorecardNcar
import Verif.Props.C127_Regimes
import Verif.Props.C172_DiffSig
import Verif.Props.C234_BootWidth

namespace Metcalcpy.Props
open Metcalcpy Spec

/-! ### C46 -/

/-- C46, extent: the rows of a resample are those of the cases drawn, each as often as it was drawn, exactly when every case drawn more
than once has no rows. -/
theorem C46_exactly_partial (k : ℕ) (rows : List (List Val)) (cases : List String) :
    (resampledRows k rows cases).Perm (drawnRows k rows cases) ↔
      ∀ c, 2 ≤ cases.count c → ∀ r ∈ rows, (cellAt r k).text ≠ c := by
  have h1 : ∀ r, (resampledRows k rows cases).count r = if (cellAt r k).text ∈ cases then rows.count r else 0 := by
    intro r
    unfold resampledRows
    by_cases h : (cellAt r k).text ∈ cases
    · rw [if_pos h, List.count_filter (by simpa using h)]
    · rw [if_neg h, List.count_eq_zero]
      simp [h]
  have h2 : ∀ r, (drawnRows k rows cases).count r = cases.count (cellAt r k).text * rows.count r := by
    intro r
    unfold drawnRows
    clear h1
    induction cases with
    | nil => simp
    | cons c cases ih =>
      rw [List.flatMap_cons, List.count_append, ih, List.count_cons]
      by_cases h : (cellAt r k).text = c
      · rw [List.count_filter (by simpa using h)]
        simp only [h, beq_self_eq_true, if_true]
        ring
      · have : (rows.filter (fun r => decide ((cellAt r k).text = c))).count r = 0 := by
          rw [List.count_eq_zero]
          simp [h]
        rw [this, if_neg (by simpa using fun e => h e.symm)]
        ring
  rw [List.perm_iff_count]
  constructor
  · intro h c hc r hr e
    have := h r
    have hm : (cellAt r k).text ∈ cases := by
      rw [e]
      exact List.count_pos_iff.mp (by omega)
    rw [h1, h2, if_pos hm, e] at this
    have hp : 0 < rows.count r := List.count_pos_iff.mpr hr
    nlinarith
  · intro h r
    rw [h1, h2]
    by_cases hm : (cellAt r k).text ∈ cases
    · rw [if_pos hm]
      by_cases hr : r ∈ rows
      · have : cases.count (cellAt r k).text = 1 := by
          have h3 : 0 < cases.count (cellAt r k).text := List.count_pos_iff.mpr hm
          by_contra hne
          exact h _ (by omega) r hr rfl
        rw [this, one_mul]
      · rw [List.count_eq_zero.mpr hr, mul_zero]
    · rw [if_neg hm, List.count_eq_zero.mpr hm, zero_mul]

/-- C46 (example): a case drawn twice, and there are rows of it. -/
example : ¬ (resampledRows 0 [[.str "a"], [.str "b"]] ["a", "a"]).Perm (drawnRows 0 [[.str "a"], [.str "b"]] ["a", "a"]) := fun h =>
  (C46_exactly_partial _ _ _).mp h "a" (by decide) [.str "a"] (by simp) (by decide)

/-! ### C130 -/

/-- C130, extent: the trend of a grid point is gone exactly when its weight is zero or there was none. -/
theorem C130_exactly_partial (w : ℚ) (xs : List ℚ) (hne : xs ≠ []) :
    (∃ ys, weightsDetrend w (xs.map some) = ys.map some ∧ trend ys = 0) ↔ w = 0 ∨ trend xs = 0 := by
  obtain ⟨ys, h, -, -, ht⟩ := C130_trend_kept w xs hne
  constructor
  · rintro ⟨zs, hz, h0⟩
    rw [h] at hz
    have : ys = zs := List.map_injective_iff.mpr (Option.some_injective _) hz
    rw [← this, ht] at h0
    exact mul_eq_zero.mp h0
  · intro h0
    exact ⟨ys, h, by rw [ht]; exact mul_eq_zero.mpr h0⟩

/-- C130 (example): a record with a trend. -/
example := C130_exactly_partial 1 [1, 2, 3] (by simp)

/-! ### C173 -/

/-- C173, extent: DIFF_SIG of the swapped series is the negative exactly when the series are not equally far from the perfect score, or it
is zero. -/
theorem C173_exactly_partial (stat : String) (reps : List (Option ℚ)) (a b best q q' : ℚ) (hp : PerfectScore (upper stat) (some best))
    (hr : reps.filterMap id ≠ [])
    (h : diffSig stat (reps.map asPyNum) (.num (a - b)) (.num a) (.num b) = .ok (.num q))
    (h' : diffSig stat ((reps.map (fun z => z.map (fun x => -x))).map asPyNum) (.num (b - a)) (.num b) (.num a) = .ok (.num q')) :
    q' = -q ↔ |a - best| ≠ |b - best| ∨ q = 0 := by
  by_cases hab : |a - best| = |b - best|
  · obtain ⟨p, -, h1, h2⟩ := C173_tie_counterexample stat reps a b best hp hr hab
    rw [h1] at h
    rw [h2] at h'
    simp only [Except.ok.injEq, PyNum.num.injEq] at h h'
    subst h h'
    constructor
    · intro e
      right
      linarith
    · rintro (e | e)
      · exact absurd hab e
      · rw [e, neg_zero]
  · obtain ⟨p, h1, h2⟩ := C173_swap_partial stat reps a b best hp hr hab
    rw [h1] at h
    rw [h2] at h'
    simp only [Except.ok.injEq, PyNum.num.injEq] at h h'
    subst h h'
    simp [hab]

/-- C173 (example): mean errors of 2 and -2. -/
example := C173_exactly_partial "ME" [some 3, some 5] 2 (-2) 0 1 1 (PerfectScore.error (by decide)) (by simp) (by decide +kernel)
  (by decide +kernel)

/-! ### C113 -/

/-- C113: exchanging two series whose means are equally far from the perfect score changes nothing. -/
theorem C113_tie (D : TDist) (stat : String) (rest : List String) (best : ℚ)
    (hb : PerfectScore (upper stat) (some best)) (v1 v2 : List ℝ)
    (hdist : |v1.sum / v1.length - best| = |v2.sum / v2.length - best|) (r r' : ℝ)
    (h : diffSigNcar D (stat :: rest) v1 v2 = .ok (some r)) (h' : diffSigNcar D (stat :: rest) v2 v1 = .ok (some r')) :
    r' = r := by
  obtain ⟨hl, h2, hr⟩ := diffSigNcar_ok h
  obtain ⟨-, -, hr'⟩ := diffSigNcar_ok h'
  have hneg : List.zipWith (fun a b => a - b) v2 v1 = (List.zipWith (fun a b => a - b) v1 v2).map (fun x => -x) := by
    clear hr hr' h h' hdist h2
    induction v1 generalizing v2 with
    | nil => simp
    | cons a v1 ih =>
      cases v2 with
      | nil => simp
      | cons b v2 =>
        simp only [List.zipWith_cons_cons, List.map_cons]
        rw [ih v2 (by simpa using hl)]
        simp
  rw [hneg] at hr'
  generalize hd : List.zipWith (fun a b => a - b) v1 v2 = d at hr hr'
  have hsum : ∀ l : List ℝ, (l.map (fun x => -x)).sum = - l.sum := by
    intro l; induction l with
    | nil => simp
    | cons a l ih => simp only [List.map_cons, List.sum_cons, ih]; ring
  have hmean : meanR (d.map (fun x => -x)) = - meanR d := by
    unfold meanR
    rw [hsum, List.length_map, neg_div]
  have hsd : stdevR (d.map (fun x => -x)) = stdevR d := by
    unfold stdevR
    rw [hmean, List.map_map, List.length_map]
    congr 4
    funext x
    simp only [Function.comp]
    ring
  rw [hmean, hsd, List.length_map] at hr'
  have hp : ∀ a b : ℝ, ncarPval D d.length (Score.div (-a) b) = ncarPval D d.length (Score.div a b) := by
    intro a b
    unfold Score.div
    by_cases hb : b = 0
    · rw [if_pos hb, if_pos hb]
      by_cases ha : a = 0
      · simp [ha]
      · rw [if_neg (by simpa using ha), if_neg ha]
        split <;> split <;> rfl
    · rw [if_neg hb, if_neg hb]
      simp [ncarPval, neg_div]
  rw [hp] at hr'
  cases hc : ncarPval D d.length (Score.div (meanR d) (stdevR d / Real.sqrt d.length)) with
  | none => rw [hc] at hr; simp at hr
  | some p =>
    rw [hc] at hr hr'
    simp only at hr hr'
    rw [(C34_sign (meanR v1) (meanR v2) p stat).2 best hb] at hr
    rw [(C34_sign (meanR v2) (meanR v1) p stat).2 best hb] at hr'
    have hr := Option.some.inj hr
    have hr' := Option.some.inj hr'
    unfold meanR at hr hr'
    rw [if_neg (by rw [hdist]; exact lt_irrefl _)] at hr
    rw [if_neg (by rw [hdist]; exact lt_irrefl _)] at hr'
    rw [hr, hr']

/-- C113, extent: exchanging the series negates the significance exactly when their means are not equally far from the perfect score, or
the significance is zero. -/
theorem C113_exactly_partial (D : TDist) (stat : String) (rest : List String) (best : ℚ)
    (hb : PerfectScore (upper stat) (some best)) (v1 v2 : List ℝ) (r r' : ℝ)
    (h : diffSigNcar D (stat :: rest) v1 v2 = .ok (some r)) (h' : diffSigNcar D (stat :: rest) v2 v1 = .ok (some r')) :
    r' = -r ↔ |v1.sum / v1.length - best| ≠ |v2.sum / v2.length - best| ∨ r = 0 := by
  by_cases hd : |v1.sum / v1.length - best| = |v2.sum / v2.length - best|
  · have e := C113_tie D stat rest best hb v1 v2 hd r r' h h'
    subst e
    constructor
    · intro e
      right
      linarith
    · rintro (e | e)
      · exact absurd hd e
      · rw [e, neg_zero]
  · have := C113_swap_partial D stat rest best hb v1 v2 hd r r' h h'
    simp [hd, this]

/-- C113 (example): mean errors of -1 and 1. -/
example := C113_exactly_partial stepDist "ME" [] 0 (PerfectScore.error (by decide)) [-1, -1] [1, 1] 1 1 C113_tie_counterexample.1
  C113_tie_counterexample.2

/-! ### C235 -/

/-- C235, extent: for a value other than zero the relative width is not negative exactly when the value is positive or the bounds agree, and
multiplication by `x` leaves it unchanged exactly when `x` is positive or the bounds agree. -/
theorem C235_exactly_partial (l v u x : ℚ) (hv : v ≠ 0) (hx : x ≠ 0) :
    ∃ q q', errorFraction (mkBoot (some l) (some v) (some u)) = .ok (.num q) ∧ (0 ≤ q ↔ 0 < v ∨ l = u) ∧
      (∀ op, op = .mul x ∨ op = .rmul x → ∃ r, bootApply (mkBoot (some l) (some v) (some u)) op = .ok r ∧ errorFraction r = .ok (.num q')) ∧
      (q' = q ↔ 0 < x ∨ l = u) := by
  have key : ∀ l v u : ℚ, v ≠ 0 → errorFraction (mkBoot (some l) (some v) (some u)) = .ok (.num (|u - l| / v)) := by
    intro l v u hv
    obtain ⟨a, b⟩ := mkBoot_width l v u
    unfold errorFraction
    rw [b, if_neg (by simpa using hv), a]
    rfl
  have hw : |u - l| = 0 ↔ l = u := by rw [abs_eq_zero, sub_eq_zero, eq_comm]
  refine ⟨_, |u - l| * |x| / (v * x), key l v u hv, ?_, ?_, ?_⟩
  · by_cases he : l = u
    · simp [he]
    · have hp : 0 < |u - l| := lt_of_le_of_ne (abs_nonneg _) fun e => he (hw.mp e.symm)
      simp only [he, or_false]
      constructor
      · intro h
        by_contra hn
        have : v < 0 := lt_of_le_of_ne (not_lt.mp hn) hv
        have := div_neg_of_pos_of_neg hp this
        linarith
      · intro h
        positivity
  · intro op hop
    have hf : ∀ q, op.fn q = q * x := by rcases hop with rfl | rfl <;> intro q <;> rfl
    have : ∃ l' u', mkBoot (some l) (some v) (some u) = ⟨some l', some v, some u'⟩ ∧ |u' - l'| = |u - l| := by
      unfold mkBoot
      dsimp only
      split
      · exact ⟨u, l, rfl, abs_sub_comm _ _⟩
      · exact ⟨l, u, rfl, rfl⟩
    obtain ⟨l', u', e, ew⟩ := this
    rw [e]
    refine ⟨mkBoot (some (op.fn l')) (some (op.fn v)) (some (op.fn u')), rfl, ?_⟩
    rw [hf, hf, hf, key _ _ _ (mul_ne_zero hv hx), ← sub_mul, abs_mul, ew]
  · by_cases he : l = u
    · simp [he]
    · have hp : |u - l| ≠ 0 := fun e => he (hw.mp e)
      simp only [he, or_false]
      have h0 : |u - l| / v ≠ 0 := div_ne_zero hp hv
      rw [mul_div_mul_comm]
      constructor
      · intro h
        have h1 : |x| / x = 1 := by
          have : |u - l| / v * (|x| / x) = |u - l| / v * 1 := by rw [h, mul_one]
          exact mul_left_cancel₀ h0 this
        rw [div_eq_one_iff_eq hx] at h1
        exact lt_of_le_of_ne (abs_eq_self.mp h1) hx.symm
      · intro h
        rw [abs_of_pos h, div_self hx, mul_one]

/-- C235 (example): a negative value. -/
example := C235_exactly_partial (-3) (-2) (-1) 2 (by norm_num) (by norm_num)

end Metcalcpy.Props
