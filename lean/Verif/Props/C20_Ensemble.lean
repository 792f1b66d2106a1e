/-
C20  Neighbourhood statistics of an aggregated group are total-weighted (false for the observed rate and,
     when a row is a perfect forecast, for the fractions skill score).
C21  Ensemble statistics of an aggregated group use each field's own weighted mean (false for
     spread_plus_oerr).
C22  Fractions skill scores stay in range.
C66  The aggregated ranked probability skill score is computed from the weighted score and the weighted
     reference (false when a row is a perfect forecast).
C67  Conditional mean errors of an ensemble are weighted by the number of members that enter them.
-/
import Verif.Lemmas.SetCol
import Verif.Lemmas.Round
import Mathlib.Tactic.Linarith
import Mathlib.Tactic.Positivity

namespace Metcalcpy.Props
open Metcalcpy Spec

theorem skillDenominator_inv (b d : List ℚ) (hl : d.length = b.length) (hb : ∀ x ∈ b, x ≠ 0)
    (hd : ∀ x ∈ d, x ≠ 0) :
    skillDenominator (b.map some) ((List.zipWith (fun b d => 1 - b / d) b d).map some) =
      d.map some := by
  unfold skillDenominator
  induction b generalizing d with
  | nil => cases d <;> simp at *
  | cons x b ih =>
    cases d with
    | nil => simp at hl
    | cons y d =>
      have hx : x ≠ 0 := hb x (by simp)
      have hy : y ≠ 0 := hd y (by simp)
      have e : (1 : ℚ) - (1 - x / y) = x / y := by ring
      have e2 : x / y ≠ 0 := div_ne_zero hx hy
      have e3 : x / (x / y) = y := by field_simp
      simp only [List.map_cons, List.zipWith_cons_cons, List.cons.injEq]
      refine ⟨?_, ih d (by simpa using hl) (fun z hz => hb z (by simp [hz]))
        (fun z hz => hd z (by simp [hz]))⟩
      rw [e, if_neg e2, e3]

theorem length_skillDenominator (a b : List Cell) :
    (skillDenominator a b).length = min a.length b.length := by
  simp [skillDenominator]

theorem length_mulCols (a b : List Cell) : (mulCols a b).length = min a.length b.length := by
  simp [mulCols]

/-- The prepared NBRCNT table. -/
theorem nbr_prepared {t : Table} {n b s f o : List ℚ} (W : WeightedRows t n)
    (hb : CompleteColumn t "fbs" b) (hs : CompleteColumn t "fss" s) (hf : CompleteColumn t "f_rate" f)
    (ho : CompleteColumn t "o_rate" o) :
    ∃ t', prepareNbrCnt t = .ok t' ∧ t'.rows ≠ [] ∧ CompleteColumn t' "total" n ∧
      CompleteColumn t' "fbs" (List.zipWith (· * ·) n b) ∧
      IsColumn t' "fss" (mulCols (skillDenominator (b.map some) (s.map some)) (n.map some)) ∧
      CompleteColumn t' "f_rate" (List.zipWith (· * ·) n f) ∧ CompleteColumn t' "o_rate" o := by
  have ln : n.length = t.rows.length := by simpa using IsColumn.length W.total
  have lb : b.length = t.rows.length := by simpa using IsColumn.length hb
  have ls : s.length = t.rows.length := by simpa using IsColumn.length hs
  have lf : f.length = t.rows.length := by simpa using IsColumn.length hf
  obtain ⟨w1, r1, c1, k1⟩ := setCol_ok W.rect "fbs" (mulCols (n.map some) (b.map some))
    (by simp [length_mulCols, ln, lb])
  obtain ⟨w2, r2, c2, k2⟩ := setCol_ok w1 "fss"
    (mulCols (skillDenominator (b.map some) (s.map some)) (n.map some))
    (by simp [length_mulCols, length_skillDenominator, ln, lb, ls, r1])
  obtain ⟨w3, r3, c3, k3⟩ := setCol_ok w2 "f_rate" (mulCols (n.map some) (f.map some))
    (by simp [length_mulCols, ln, lf, r1, r2])
  refine ⟨setCol (setCol (setCol t "fbs" (mulCols (n.map some) (b.map some))) "fss"
    (mulCols (skillDenominator (b.map some) (s.map some)) (n.map some))) "f_rate"
    (mulCols (n.map some) (f.map some)), ?_, ?_, ?_, ?_, ?_, ?_, ?_⟩
  · simp only [prepareNbrCnt, getCol_complete W.total, getCol_complete hb, getCol_complete hs,
      getCol_complete hf, bind, Except.bind, pure, Except.pure]
  · intro h; rw [h] at r3; apply W.rows_ne
    exact List.eq_nil_of_length_eq_zero (by rw [r2, r1] at r3; simpa using r3.symm)
  · exact k3 _ _ (by simp) (k2 _ _ (by simp) (k1 _ _ (by simp) W.total))
  · unfold CompleteColumn
    rw [← mulCols_some]; exact k3 _ _ (by simp) (k2 _ _ (by simp) c1)
  · exact k3 _ _ (by simp) c2
  · unfold CompleteColumn
    rw [← mulCols_some]; exact c3
  · exact k3 _ _ (by simp) (k2 _ _ (by simp) (k1 _ _ (by simp) ho))

theorem aggregatedNbrCnt_of {α : Type} {calculate : Table → Bool → α} {t t' : Table}
    (h : prepareNbrCnt t = .ok t') : aggregatedNbrCnt calculate t = .ok (calculate t' true) := by
  simp only [aggregatedNbrCnt, h, bind, Except.bind, pure, Except.pure]

/-! ### C20 -/

/-- C20 (the part that holds): FBS and the forecast rate of a group are the total-weighted means of the
rows. -/
theorem C20_fbs_f_rate_partial (t : Table) (n b d f o : List ℚ) (D : NbrCntData t n b d f o) :
    aggregatedNbrCnt (weightedAverage "fbs") t = .ok (some (roundHalfUp (wmean n b) 7)) ∧
    aggregatedNbrCnt (weightedAverage "f_rate") t = .ok (some (roundHalfUp (wmean n f) 7)) := by
  obtain ⟨t', h, hr, hn, h1, -, h3, -⟩ := nbr_prepared D.toWeightedRows D.fbs D.fss D.f_rate D.o_rate
  rw [aggregatedNbrCnt_of h, aggregatedNbrCnt_of h]
  simp [weightedAverage, colMean_scaled hr hn D.total_pos h1, colMean_scaled hr hn D.total_pos h3,
    PRECISION]

/-- C20 (the part that holds): if no row is a perfect forecast (FBS 0), the fractions skill score of a group
is one minus the weighted FBS over the weighted reference value. -/
theorem C20_fss_partial (t : Table) (n b d f o : List ℚ) (D : NbrCntData t n b d f o)
    (hb : ∀ x ∈ b, x ≠ 0) (hd : ∀ x ∈ d, x ≠ 0) (hm : wmean n d ≠ 0) :
    aggregatedNbrCnt (skillScore "fbs" "fss") t =
      .ok (some (roundHalfUp (1 - wmean n b / wmean n d) 7)) := by
  obtain ⟨t', h, hr, hn, h1, h2, -, -⟩ := nbr_prepared D.toWeightedRows D.fbs D.fss D.f_rate D.o_rate
  rw [skillDenominator_inv b d D.len hb hd, mulCols_some] at h2
  rw [aggregatedNbrCnt_of h]
  simp [skillScore, colMean_scaled hr hn D.total_pos h1, colMean_scaled' hr hn D.total_pos h2, pyDiv, hm,
    PRECISION]

/-- The rows used below: totals 1 and 3. -/
def nbrExample : Table :=
  { cols := ["total", "fbs", "fss", "f_rate", "o_rate"]
    rows := [[some 1, some (1/10), some (1/2), some (1/2), some (1/2)],
             [some 3, some (1/5), some (1/2), some (1/4), some (1/4)]] }

theorem nbrExample_data :
    NbrCntData nbrExample [1, 3] [1/10, 1/5] [1/5, 2/5] [1/2, 1/4] [1/2, 1/4] where
  rows_ne := by decide
  rect := by unfold WellFormed; decide +kernel
  total := ⟨0, by decide, by decide, by decide +kernel⟩
  total_pos := by norm_num
  fbs := ⟨1, by decide, by decide, by decide +kernel⟩
  fss := ⟨2, by decide, by decide, by decide +kernel⟩
  f_rate := ⟨3, by decide, by decide, by decide +kernel⟩
  o_rate := ⟨4, by decide, by decide, by decide +kernel⟩
  len := rfl

/-- The hypotheses of the two theorems above are satisfiable, and the result is not trivial. -/
example : aggregatedNbrCnt (skillScore "fbs" "fss") nbrExample =
    .ok (some (roundHalfUp (1 - wmean [1, 3] [1/10, 1/5] / wmean [1, 3] [1/5, 2/5]) 7)) :=
  C20_fss_partial _ _ _ _ _ _ nbrExample_data (by decide +kernel) (by decide +kernel) (by decide +kernel)

/-- C20 fails for the observed rate: the rows have rates 1/2 (total 1) and 1/4 (total 3), the weighted mean is
5/16 but the code gives (1/2 + 1/4)/4 = 3/16, because `o_rate` is not multiplied by the totals. -/
theorem C20_o_rate_counterexample :
    ∃ (t : Table) (n b d f o : List ℚ), NbrCntData t n b d f o ∧
      aggregatedNbrCnt (weightedAverage "o_rate") t = .ok (some (3 / 16)) ∧
      roundHalfUp (wmean n o) 7 = 5 / 16 :=
  ⟨nbrExample, _, _, _, _, _, nbrExample_data, by decide +kernel, by decide +kernel⟩

/-- What the code computes instead: the plain sum of the observed rates over the sum of totals. -/
theorem C20_o_rate_actual (t : Table) (n b d f o : List ℚ) (D : NbrCntData t n b d f o) :
    aggregatedNbrCnt (weightedAverage "o_rate") t = .ok (some (roundHalfUp (o.sum / n.sum) 7)) := by
  obtain ⟨t', h, hr, hn, -, -, -, h4⟩ := nbr_prepared D.toWeightedRows D.fbs D.fss D.f_rate D.o_rate
  rw [aggregatedNbrCnt_of h]
  simp [weightedAverage, colMean_of hr hn D.total_pos h4, PRECISION]

/-- C20 fails for the skill score when a row is a perfect forecast: its reference value cannot be
recovered (0/0) and is dropped from the denominator.  Two rows with equal totals, reference 1/5 each and FBS 0
and 1/10: the pooled score is 3/4, the code gives 1/2. -/
theorem C20_fss_counterexample :
    ∃ (t : Table) (n b d f o : List ℚ), NbrCntData t n b d f o ∧
      aggregatedNbrCnt (skillScore "fbs" "fss") t = .ok (some (1 / 2)) ∧
      roundHalfUp (1 - wmean n b / wmean n d) 7 = 3 / 4 := by
  refine ⟨{ cols := ["total", "fbs", "fss", "f_rate", "o_rate"]
            rows := [[some 1, some 0, some 1, some (1/2), some (1/2)],
                     [some 1, some (1/10), some (1/2), some (1/2), some (1/2)]] },
    [1, 1], [0, 1/10], [1/5, 1/5], [1/2, 1/2], [1/2, 1/2],
    ⟨⟨by decide, by unfold WellFormed; decide +kernel, ⟨0, by decide, by decide, by decide +kernel⟩, by norm_num⟩,
     ⟨1, by decide, by decide, by decide +kernel⟩, ⟨2, by decide, by decide, by decide +kernel⟩,
     ⟨3, by decide, by decide, by decide +kernel⟩, ⟨4, by decide, by decide, by decide +kernel⟩, rfl⟩,
    by decide +kernel, by decide +kernel⟩

/-! ### C22 -/

theorem zip_sum_nonneg (a b : List ℚ) (ha : ∀ x ∈ a, 0 ≤ x) (hb : ∀ x ∈ b, 0 ≤ x) :
    0 ≤ (List.zipWith (· * ·) a b).sum := by
  induction a generalizing b with
  | nil => simp
  | cons x a ih =>
    cases b with
    | nil => simp
    | cons y b =>
      simp only [List.zipWith_cons_cons, List.sum_cons]
      have := ih b (fun z hz => ha z (by simp [hz])) (fun z hz => hb z (by simp [hz]))
      have := mul_nonneg (ha x (by simp)) (hb y (by simp))
      linarith

theorem sum_le_of_le_one (o n : List ℚ) (hl : o.length = n.length) (ho : ∀ x ∈ o, x ≤ 1)
    (hn : ∀ x ∈ n, 1 ≤ x) : o.sum ≤ n.sum := by
  induction o generalizing n with
  | nil => cases n <;> simp at *
  | cons x o ih =>
    cases n with
    | nil => simp at hl
    | cons y n =>
      have := ih n (by simpa using hl) (fun z hz => ho z (by simp [hz])) (fun z hz => hn z (by simp [hz]))
      have h1 := ho x (by simp)
      have h2 := hn y (by simp)
      simp only [List.sum_cons]; linarith

/-- C22: for rates in [0,1] and totals of at least one, AFSS of a group is None or lies in [0,1], and UFSS
lies in [1/2,1]. -/
theorem C22_afss_ufss (t : Table) (n b s f o : List ℚ) (W : WeightedRows t n)
    (hb : CompleteColumn t "fbs" b) (hs : CompleteColumn t "fss" s) (hf : CompleteColumn t "f_rate" f)
    (ho : CompleteColumn t "o_rate" o) (hn1 : ∀ x ∈ n, 1 ≤ x)
    (hfr : ∀ x ∈ f, 0 ≤ x ∧ x ≤ 1) (hor : ∀ x ∈ o, 0 ≤ x ∧ x ≤ 1) :
    (∃ r, aggregatedNbrCnt nbrAfss t = .ok r ∧ ∀ v, r = some v → 0 ≤ v ∧ v ≤ 1) ∧
    (∃ v, aggregatedNbrCnt nbrUfss t = .ok (some v) ∧ 1 / 2 ≤ v ∧ v ≤ 1) := by
  obtain ⟨t', h, hr, hn, -, -, h3, h4⟩ := nbr_prepared W hb hs hf ho
  have lo : o.length = n.length := by
    have h1 := IsColumn.length W.total
    have h2 := IsColumn.length ho
    simp at h1 h2; omega
  have po : 0 ≤ o.sum / n.sum := div_nonneg (List.sum_nonneg (fun x hx => (hor x hx).1)) W.total_pos.le
  have uo : o.sum / n.sum ≤ 1 :=
    (div_le_one W.total_pos).mpr (sum_le_of_le_one o n lo (fun x hx => (hor x hx).2) hn1)
  have pf : 0 ≤ wmean n f := div_nonneg (zip_sum_nonneg n f
    (fun x hx => le_trans (by norm_num) (hn1 x hx)) (fun x hx => (hfr x hx).1)) W.total_pos.le
  constructor
  · refine ⟨_, aggregatedNbrCnt_of h, ?_⟩
    intro v hv
    simp only [nbrAfss, colMean_scaled hr hn W.total_pos h3, colMean_of hr hn W.total_pos h4, bind,
      Option.bind, pyDiv] at hv
    generalize wmean n f = F at *
    generalize o.sum / n.sum = O at *
    by_cases hz : F * F + O * O = 0
    · simp [hz] at hv
    · simp only [hz, if_false, Option.some.injEq] at hv
      have hp : 0 < F * F + O * O := lt_of_le_of_ne (by positivity) (Ne.symm hz)
      rw [← hv]
      refine ⟨round7_nonneg (div_nonneg (by positivity) hp.le), round7_le_one ?_⟩
      rw [div_le_one hp]; nlinarith [sq_nonneg (F - O)]
  · refine ⟨roundHalfUp (1 / 2 + o.sum / n.sum / 2) PRECISION, ?_, ?_, ?_⟩
    · rw [aggregatedNbrCnt_of h]
      simp [nbrUfss, colMean_of hr hn W.total_pos h4]
    · have e : roundHalfUp (1 / 2 : ℚ) PRECISION = 1 / 2 := by decide +kernel
      rw [← e]; exact roundHalfUp_mono (by linarith) _
    · exact round7_le_one (by linarith)

theorem mulCols_skill_nonneg (b s n : List ℚ) (hb : ∀ x ∈ b, 0 ≤ x) (hs : ∀ x ∈ s, x ≤ 1)
    (hn : ∀ x ∈ n, 0 ≤ x) :
    0 ≤ ((mulCols (skillDenominator (b.map some) (s.map some)) (n.map some)).filterMap id).sum := by
  unfold mulCols skillDenominator
  induction b generalizing s n with
  | nil => simp
  | cons x b ih =>
    cases s with
    | nil => simp
    | cons y s =>
      cases n with
      | nil => simp
      | cons z n =>
        have := ih s n (fun z hz => hb z (by simp [hz])) (fun z hz => hs z (by simp [hz]))
          (fun z hz => hn z (by simp [hz]))
        simp only [List.map_cons, List.zipWith_cons_cons]
        by_cases hy : 1 - y = 0
        · rw [if_pos hy]; simpa [mulCell, List.filterMap_cons] using this
        · rw [if_neg hy]
          have h1 : 0 ≤ x / (1 - y) := div_nonneg (hb x (by simp)) (by have := hs y (by simp); linarith)
          have h2 := mul_nonneg h1 (hn z (by simp))
          simp only [mulCell, List.filterMap_cons_some (f := id) rfl, List.sum_cons]
          exact add_nonneg h2 this

/-- C22: with non-negative FBS (and row skill scores at most 1) the fractions skill score of a group is None or
at most 1. -/
theorem C22_fss_le_one (t : Table) (n b s f o : List ℚ) (W : WeightedRows t n)
    (hb : CompleteColumn t "fbs" b) (hs : CompleteColumn t "fss" s) (hf : CompleteColumn t "f_rate" f)
    (ho : CompleteColumn t "o_rate" o) (hn1 : ∀ x ∈ n, 0 ≤ x) (hb0 : ∀ x ∈ b, 0 ≤ x)
    (hs1 : ∀ x ∈ s, x ≤ 1) :
    ∃ r, aggregatedNbrCnt (skillScore "fbs" "fss") t = .ok r ∧ ∀ v, r = some v → v ≤ 1 := by
  obtain ⟨t', h, hr, hn, h1, h2, -, -⟩ := nbr_prepared W hb hs hf ho
  refine ⟨_, aggregatedNbrCnt_of h, ?_⟩
  intro v hv
  have pb : 0 ≤ wmean n b := div_nonneg (zip_sum_nonneg n b hn1 hb0) W.total_pos.le
  have pd := mulCols_skill_nonneg b s n hb0 hs1 hn1
  rw [← columnData_eq_some_iff] at h2
  generalize mulCols (skillDenominator (b.map some) (s.map some)) (n.map some) = cells at *
  have hcm : ∀ m, colMean "fss" t' true = some m → 0 ≤ m := by
    intro m hm
    have hsum : sumColumn t' "fss" = if cells.all Option.isNone then none else
        some (cells.filterMap id).sum := by simp [sumColumn, h2]
    simp only [colMean, getTotalValues, sumColumn_of_complete hr hn, hsum, if_true, pyDiv] at hm
    by_cases ha : cells.all Option.isNone = true
    · simp [ha] at hm
    · rw [if_neg ha] at hm
      simp only [bind, Option.bind, W.total_pos.ne', if_false, Option.some.injEq] at hm
      rw [← hm]; exact div_nonneg pd W.total_pos.le
  simp only [skillScore, colMean_scaled hr hn W.total_pos h1, bind, Option.bind] at hv
  cases hc : colMean "fss" t' true with
  | none => simp [hc] at hv
  | some m =>
    have hm := hcm m hc
    simp only [hc, pyDiv] at hv
    by_cases hz : m = 0
    · simp [hz] at hv
    · simp only [hz, if_false, Option.some.injEq] at hv
      rw [← hv]
      apply round7_le_one
      have := div_nonneg pb hm
      linarith

/-- The hypotheses are satisfiable; the AFSS of the example is strictly between the bounds. -/
example : aggregatedNbrCnt nbrAfss nbrExample = .ok (some (8823529 / 10000000)) := by decide +kernel
example : WeightedRows nbrExample [1, 3] := nbrExample_data.toWeightedRows

/-! ### C21 -/

theorem ecntDerived_ok {t : Table} {n r ro s so sp : List ℚ} (D : EcntData t n r ro s so sp) :
    ∃ t', ecntDerived t = .ok t' ∧ t'.rows ≠ [] ∧ WellFormed t' ∧
      CompleteColumn t' "mse" (List.zipWith (· * ·) (squares r) n) ∧
      CompleteColumn t' "mse_oerr" (List.zipWith (· * ·) (squares ro) n) ∧
      CompleteColumn t' "variance" (List.zipWith (· * ·) (squares s) n) ∧
      CompleteColumn t' "variance_oerr" (List.zipWith (· * ·) (squares so) n) ∧
      CompleteColumn t' "variance_plus_oerr" (List.zipWith (· * ·) (squares so) n) ∧
      ∀ c y, c ∉ ["mse", "mse_oerr", "variance", "variance_oerr", "variance_plus_oerr"] →
        CompleteColumn t c y → CompleteColumn t' c y := by
  have ln : n.length = t.rows.length := by simpa using IsColumn.length D.total
  have l1 : r.length = t.rows.length := by simpa using IsColumn.length D.rmse
  have l2 : ro.length = t.rows.length := by simpa using IsColumn.length D.rmse_oerr
  have l3 : s.length = t.rows.length := by simpa using IsColumn.length D.spread
  have l4 : so.length = t.rows.length := by simpa using IsColumn.length D.spread_oerr
  have key : ∀ x : List ℚ, mulCols (mulCols (x.map some) (x.map some)) (n.map some) =
      (List.zipWith (· * ·) (squares x) n).map some := by
    intro x
    rw [mulCols_some, mulCols_some]
    congr 2
    unfold squares
    rw [List.zipWith_self]
  have len : ∀ x : List ℚ, x.length = t.rows.length →
      ((List.zipWith (· * ·) (squares x) n).map some).length = t.rows.length := by
    intro x hx; simp [squares, hx, ln]
  obtain ⟨w1, r1, c1, k1⟩ := setCol_ok D.rect "mse" ((List.zipWith (· * ·) (squares r) n).map some)
    (len _ l1)
  obtain ⟨w2, r2, c2, k2⟩ := setCol_ok w1 "mse_oerr" ((List.zipWith (· * ·) (squares ro) n).map some)
    (by rw [len _ l2, r1])
  obtain ⟨w3, r3, c3, k3⟩ := setCol_ok w2 "variance" ((List.zipWith (· * ·) (squares s) n).map some)
    (by rw [len _ l3, r2, r1])
  obtain ⟨w4, r4, c4, k4⟩ := setCol_ok w3 "variance_oerr" ((List.zipWith (· * ·) (squares so) n).map some)
    (by rw [len _ l4, r3, r2, r1])
  obtain ⟨w5, r5, c5, k5⟩ := setCol_ok w4 "variance_plus_oerr"
    ((List.zipWith (· * ·) (squares so) n).map some) (by rw [len _ l4, r4, r3, r2, r1])
  refine ⟨_, ?_, ?_, w5, ?_, ?_, ?_, ?_, c5, ?_⟩
  · simp only [ecntDerived, getCol_complete D.total, getCol_complete D.rmse, getCol_complete D.rmse_oerr,
      getCol_complete D.spread, getCol_complete D.spread_oerr, bind, Except.bind, pure, Except.pure, key]
  · intro h; rw [h] at r5; apply D.rows_ne
    exact List.eq_nil_of_length_eq_zero (by rw [r4, r3, r2, r1] at r5; simpa using r5.symm)
  · exact k5 _ _ (by simp) (k4 _ _ (by simp) (k3 _ _ (by simp) (k2 _ _ (by simp) c1)))
  · exact k5 _ _ (by simp) (k4 _ _ (by simp) (k3 _ _ (by simp) c2))
  · exact k5 _ _ (by simp) (k4 _ _ (by simp) c3)
  · exact k5 _ _ (by simp) c4
  · intro c y hc hy
    simp only [List.mem_cons, List.not_mem_nil, or_false, not_or] at hc
    exact k5 _ _ hc.2.2.2.2 (k4 _ _ hc.2.2.2.1 (k3 _ _ hc.2.2.1 (k2 _ _ hc.2.1 (k1 _ _ hc.1 hy))))

theorem rows_ne_of_length {t t' : Table} (h : t'.rows.length = t.rows.length) (hr : t.rows ≠ []) :
    t'.rows ≠ [] := by
  intro e; rw [e] at h; exact hr (List.eq_nil_of_length_eq_zero (by simpa using h.symm))

/-- Preparation for a statistic that multiplies at most one column by the totals. -/
theorem ecnt_prepared {t : Table} {n r ro s so sp : List ℚ} (D : EcntData t n r ro s so sp)
    (stat c : String) (x : List ℚ) (hf : ecntFieldsOf stat = some [c])
    (hx : CompleteColumn t c x) (hw : ecntWeight c = "total") (hne : c ≠ "total")
    (hc : c ∉ ["mse", "mse_oerr", "variance", "variance_oerr", "variance_plus_oerr"]) :
    ∃ t', prepareEcnt stat t = .ok t' ∧ t'.rows ≠ [] ∧ CompleteColumn t' "total" n ∧
      CompleteColumn t' c (List.zipWith (· * ·) x n) ∧
      CompleteColumn t' "variance" (List.zipWith (· * ·) (squares s) n) ∧
      CompleteColumn t' "variance_oerr" (List.zipWith (· * ·) (squares so) n) ∧
      CompleteColumn t' "variance_plus_oerr" (List.zipWith (· * ·) (squares so) n) := by
  obtain ⟨t1, e1, r1, w1, m1, m2, m3, m4, m5, keep⟩ := ecntDerived_ok D
  have hn1 := keep "total" n (by simp) D.total
  obtain ⟨t2, e2, -, l2, c2, k2⟩ := mulColumn_ok hn1 (keep c x hc hx)
  simp only [List.mem_cons, List.not_mem_nil, or_false, not_or] at hc
  refine ⟨t2, ?_, rows_ne_of_length l2 r1, k2 _ _ (Ne.symm hne) hn1, c2, k2 _ _ (Ne.symm hc.2.2.1) m3,
    k2 _ _ (Ne.symm hc.2.2.2.1) m4, k2 _ _ (Ne.symm hc.2.2.2.2) m5⟩
  simp only [prepareEcnt, e1, bind, Except.bind, hf, List.foldlM_cons, List.foldlM_nil, hw, e2, pure,
    Except.pure]

theorem aggregatedEcnt_of {α : Type} {stat : String} {calculate : Table → Bool → α} {t t' : Table}
    (h : prepareEcnt stat t = .ok t') : aggregatedEcnt stat calculate t = .ok (calculate t' true) := by
  simp only [aggregatedEcnt, h, bind, Except.bind, pure, Except.pure]

theorem wmean_sq_nonneg (n x : List ℚ) (hn : ∀ a ∈ n, 0 ≤ a) : 0 ≤ wmean n (squares x) := by
  refine div_nonneg (zip_sum_nonneg n _ hn ?_) (List.sum_nonneg hn)
  intro a ha
  obtain ⟨y, _, rfl⟩ := List.mem_map.mp ha
  exact mul_self_nonneg y

theorem ecntRoot_of {t : Table} {c : String} {n x : List ℚ} (hr : t.rows ≠ [])
    (hn : CompleteColumn t "total" n) (hp : 0 < n.sum) (h0 : ∀ a ∈ n, 0 ≤ a)
    (hc : CompleteColumn t c (List.zipWith (· * ·) (squares x) n)) :
    ecntRoot c t true =
      some (roundHalfUp (Real.sqrt ((roundHalfUp (wmean n (squares x)) 7 : ℚ) : ℝ)) 7) := by
  have h1 : ¬ roundHalfUp (wmean n (squares x)) 7 < 0 := not_lt.mpr (round7_nonneg (wmean_sq_nonneg n x h0))
  simp [ecntRoot, weightedAverage, colMean_scaled' hr hn hp hc, PRECISION, h1]

/-- C21 (the part that holds): RMSE, RMSE_OERR, SPREAD and SPREAD_OERR of a group are the square roots of the
total-weighted means of the squares of their own columns (both the mean and the root rounded to seven
decimals). -/
theorem C21_roots_partial (t : Table) (n r ro s so sp : List ℚ) (D : EcntData t n r ro s so sp)
    (h0 : ∀ a ∈ n, 0 ≤ a) :
    aggregatedEcnt "ecnt_rmse" ecntRmse t =
      .ok (some (roundHalfUp (Real.sqrt ((roundHalfUp (wmean n (squares r)) 7 : ℚ) : ℝ)) 7)) ∧
    aggregatedEcnt "ecnt_rmse_oerr" ecntRmseOerr t =
      .ok (some (roundHalfUp (Real.sqrt ((roundHalfUp (wmean n (squares ro)) 7 : ℚ) : ℝ)) 7)) ∧
    aggregatedEcnt "ecnt_spread" ecntSpread t =
      .ok (some (roundHalfUp (Real.sqrt ((roundHalfUp (wmean n (squares s)) 7 : ℚ) : ℝ)) 7)) ∧
    aggregatedEcnt "ecnt_spread_oerr" ecntSpreadOerr t =
      .ok (some (roundHalfUp (Real.sqrt ((roundHalfUp (wmean n (squares so)) 7 : ℚ) : ℝ)) 7)) := by
  obtain ⟨t1, e1, r1, w1, m1, m2, m3, m4, m5, keep⟩ := ecntDerived_ok D
  have hn1 := keep "total" n (by simp) D.total
  have p : ∀ stat, ecntFieldsOf stat = some [] → prepareEcnt stat t = .ok t1 := by
    intro stat hs
    simp only [prepareEcnt, e1, bind, Except.bind, hs, List.foldlM_nil, pure, Except.pure]
  refine ⟨?_, ?_, ?_, ?_⟩
  · rw [aggregatedEcnt_of (p _ rfl), ecntRmse, ecntRoot_of r1 hn1 D.total_pos h0 m1]
  · rw [aggregatedEcnt_of (p _ rfl), ecntRmseOerr, ecntRoot_of r1 hn1 D.total_pos h0 m2]
  · obtain ⟨t2, e2, r2, hn2, -, v1, v2, v3⟩ := ecnt_prepared D "ecnt_spread" "spread" s rfl D.spread
      (by decide) (by decide) (by decide)
    rw [aggregatedEcnt_of e2, ecntSpread, ecntRoot_of r2 hn2 D.total_pos h0 v1]
  · obtain ⟨t2, e2, r2, hn2, -, v1, v2, v3⟩ := ecnt_prepared D "ecnt_spread_oerr" "spread_oerr" so rfl
      D.spread_oerr (by decide) (by decide) (by decide)
    rw [aggregatedEcnt_of e2, ecntSpreadOerr, ecntRoot_of r2 hn2 D.total_pos h0 v2]

/-- C21 (the part that holds): the averaged ECNT fields are the total-weighted means of their columns. -/
theorem C21_means_partial (t : Table) (n r ro s so sp : List ℚ) (D : EcntData t n r ro s so sp)
    (c : String) (x : List ℚ) (hx : CompleteColumn t c x)
    (hc : c ∈ ["crps", "ign", "me", "me_oerr", "crpscl", "crps_emp", "crpscl_emp", "crps_emp_fair",
      "spread_md", "mae", "mae_oerr"]) :
    aggregatedEcnt ("ecnt_" ++ c) (weightedAverage c) t = .ok (some (roundHalfUp (wmean n x) 7)) := by
  have h : ecntFieldsOf ("ecnt_" ++ c) = some [c] ∧ ecntWeight c = "total" ∧ c ≠ "total" ∧
      c ∉ ["mse", "mse_oerr", "variance", "variance_oerr", "variance_plus_oerr"] := by
    simp only [List.mem_cons, List.not_mem_nil, or_false] at hc
    rcases hc with rfl | rfl | rfl | rfl | rfl | rfl | rfl | rfl | rfl | rfl | rfl <;>
      refine ⟨by decide +kernel, by decide, by decide, by decide⟩
  obtain ⟨t2, e2, r2, hn2, v, -⟩ := ecnt_prepared D _ c x h.1 hx h.2.1 h.2.2.1 h.2.2.2
  rw [aggregatedEcnt_of e2]
  simp [weightedAverage, colMean_scaled' r2 hn2 D.total_pos v, PRECISION]

/-- C21: what SPREAD_PLUS_OERR of a group is computed from: the column `spread_oerr`, not
`spread_plus_oerr`. -/
theorem C21_spread_plus_oerr_actual (t : Table) (n r ro s so sp : List ℚ)
    (D : EcntData t n r ro s so sp) (h0 : ∀ a ∈ n, 0 ≤ a) :
    aggregatedEcnt "ecnt_spread_plus_oerr" ecntSpreadPlusOerr t =
      .ok (some (roundHalfUp (Real.sqrt ((roundHalfUp (wmean n (squares so)) 7 : ℚ) : ℝ)) 7)) := by
  obtain ⟨t2, e2, r2, hn2, -, v1, v2, v3⟩ := ecnt_prepared D "ecnt_spread_plus_oerr" "spread_plus_oerr" sp
    rfl D.spread_plus_oerr (by decide) (by decide) (by decide)
  rw [aggregatedEcnt_of e2, ecntSpreadPlusOerr, ecntRoot_of r2 hn2 D.total_pos h0 v3]

def ecntExample : Table :=
  { cols := ["total", "rmse", "rmse_oerr", "spread", "spread_oerr", "spread_plus_oerr", "crps"]
    rows := [[some 1, some 1, some 1, some 1, some 1, some 3, some 2],
             [some 1, some 1, some 1, some 1, some 1, some 3, some 4]] }

theorem ecntExample_data : EcntData ecntExample [1, 1] [1, 1] [1, 1] [1, 1] [1, 1] [3, 3] where
  rows_ne := by decide
  rect := by unfold WellFormed; decide +kernel
  total := ⟨0, by decide, by decide, by decide +kernel⟩
  total_pos := by norm_num
  rmse := ⟨1, by decide, by decide, by decide +kernel⟩
  rmse_oerr := ⟨2, by decide, by decide, by decide +kernel⟩
  spread := ⟨3, by decide, by decide, by decide +kernel⟩
  spread_oerr := ⟨4, by decide, by decide, by decide +kernel⟩
  spread_plus_oerr := ⟨5, by decide, by decide, by decide +kernel⟩

example : aggregatedEcnt "ecnt_crps" (weightedAverage "crps") ecntExample = .ok (some 3) := by
  decide +kernel

/-- C21 fails for SPREAD_PLUS_OERR: two rows with spread_oerr 1 and spread_plus_oerr 3 give 1 instead of 3. -/
theorem C21_spread_plus_oerr_counterexample :
    ∃ (t : Table) (n r ro s so sp : List ℚ), EcntData t n r ro s so sp ∧
      aggregatedEcnt "ecnt_spread_plus_oerr" ecntSpreadPlusOerr t = .ok (some 1) ∧
      roundHalfUp (Real.sqrt ((wmean n (squares sp) : ℚ) : ℝ)) 7 = 3 := by
  refine ⟨ecntExample, _, _, _, _, _, _, ecntExample_data, ?_, ?_⟩
  · rw [C21_spread_plus_oerr_actual _ _ _ _ _ _ _ ecntExample_data (by decide +kernel)]
    have : roundHalfUp (wmean [1, 1] (squares [1, 1])) 7 = 1 := by decide +kernel
    rw [this]
    simp only [Rat.cast_one, Real.sqrt_one]
    exact congrArg _ (congrArg _ round7_one)
  · have : wmean [1, 1] (squares [3, 3]) = 9 := by decide +kernel
    rw [this]
    have h9 : Real.sqrt ((9 : ℚ) : ℝ) = ((3 : ℤ) : ℝ) := by
      rw [show ((9 : ℚ) : ℝ) = 3 ^ 2 by norm_num, Real.sqrt_sq (by norm_num)]; norm_num
    rw [h9]
    have := round7_int (K := ℝ) 3
    simpa [PRECISION] using this

/-! ### C66 -/

theorem rps_prepared {t : Table} {n s p k : List ℚ} (W : WeightedRows t n)
    (hs : CompleteColumn t "rps" s) (hp : CompleteColumn t "rpss" p) (hk : CompleteColumn t "rps_comp" k) :
    ∃ t', prepareRps t = .ok t' ∧ t'.rows ≠ [] ∧ CompleteColumn t' "total" n ∧
      CompleteColumn t' "rps" (List.zipWith (· * ·) s n) ∧
      IsColumn t' "rps_climo" (mulCols (skillDenominator (s.map some) (p.map some)) (n.map some)) ∧
      CompleteColumn t' "rps_comp" (List.zipWith (· * ·) k n) := by
  have ln : n.length = t.rows.length := by simpa using IsColumn.length W.total
  have ls : s.length = t.rows.length := by simpa using IsColumn.length hs
  have lp : p.length = t.rows.length := by simpa using IsColumn.length hp
  have lk : k.length = t.rows.length := by simpa using IsColumn.length hk
  obtain ⟨w1, r1, c1, k1⟩ := setCol_ok W.rect "rps_climo"
    (mulCols (skillDenominator (s.map some) (p.map some)) (n.map some))
    (by simp [length_mulCols, length_skillDenominator, ln, ls, lp])
  obtain ⟨w2, r2, c2, k2⟩ := setCol_ok w1 "rps" (mulCols (s.map some) (n.map some))
    (by simp [length_mulCols, ln, ls, r1])
  obtain ⟨w3, r3, c3, k3⟩ := setCol_ok w2 "rps_comp" (mulCols (k.map some) (n.map some))
    (by simp [length_mulCols, ln, lk, r1, r2])
  refine ⟨setCol (setCol (setCol t "rps_climo"
    (mulCols (skillDenominator (s.map some) (p.map some)) (n.map some))) "rps"
    (mulCols (s.map some) (n.map some))) "rps_comp" (mulCols (k.map some) (n.map some)),
    ?_, ?_, ?_, ?_, ?_, ?_⟩
  · simp only [prepareRps, getCol_complete W.total, getCol_complete hs, getCol_complete hp,
      getCol_complete hk, bind, Except.bind, pure, Except.pure]
  · intro h; rw [h] at r3; apply W.rows_ne
    exact List.eq_nil_of_length_eq_zero (by rw [r2, r1] at r3; simpa using r3.symm)
  · exact k3 _ _ (by simp) (k2 _ _ (by simp) (k1 _ _ (by simp) W.total))
  · unfold CompleteColumn
    rw [← mulCols_some]; exact k3 _ _ (by simp) c2
  · exact k3 _ _ (by simp) (k2 _ _ (by simp) c1)
  · unfold CompleteColumn
    rw [← mulCols_some]; exact c3

theorem aggregatedRps_of {α : Type} {calculate : Table → Bool → α} {t t' : Table}
    (h : prepareRps t = .ok t') : aggregatedRps calculate t = .ok (calculate t' true) := by
  simp only [aggregatedRps, h, bind, Except.bind, pure, Except.pure]

/-- C66: RPS and its complement of a group are total-weighted means; if no row is a perfect forecast, RPSS is
one minus the weighted score over the weighted climatological reference. -/
theorem C66_rps_partial (t : Table) (n s c k : List ℚ) (D : RpsData t n s c k) :
    aggregatedRps (weightedAverage "rps") t = .ok (some (roundHalfUp (wmean n s) 7)) ∧
    aggregatedRps (weightedAverage "rps_comp") t = .ok (some (roundHalfUp (wmean n k) 7)) ∧
    ((∀ x ∈ s, x ≠ 0) → (∀ x ∈ c, x ≠ 0) → wmean n c ≠ 0 →
      aggregatedRps (skillScore "rps" "rps_climo") t =
        .ok (some (roundHalfUp (1 - wmean n s / wmean n c) 7))) := by
  obtain ⟨t', h, hr, hn, h1, h2, h3⟩ := rps_prepared D.toWeightedRows D.rps D.rpss D.rps_comp
  refine ⟨?_, ?_, fun hs hc hm => ?_⟩
  · rw [aggregatedRps_of h]
    simp [weightedAverage, colMean_scaled' hr hn D.total_pos h1, PRECISION]
  · rw [aggregatedRps_of h]
    simp [weightedAverage, colMean_scaled' hr hn D.total_pos h3, PRECISION]
  · rw [skillDenominator_inv s c D.len hs hc, mulCols_some] at h2
    rw [aggregatedRps_of h]
    simp [skillScore, colMean_scaled' hr hn D.total_pos h1, colMean_scaled' hr hn D.total_pos h2, pyDiv,
      hm, PRECISION]

/-- C66: the complement of the aggregated RPS is the aggregated complement when every row satisfies
RPS_COMP = 1 - RPS (up to the two roundings). -/
theorem C66_complement (t : Table) (n s c : List ℚ) (D : RpsData t n s c (s.map (1 - ·))) :
    ∃ a b : ℚ, aggregatedRps (weightedAverage "rps") t = .ok (some a) ∧
      aggregatedRps (weightedAverage "rps_comp") t = .ok (some b) ∧ |a + b - 1| ≤ 1 / 10 ^ 7 := by
  obtain ⟨h1, h2, -⟩ := C66_rps_partial t n s c _ D
  refine ⟨_, _, h1, h2, ?_⟩
  have l : s.length = n.length := by
    have h1 := IsColumn.length D.total
    have h2 := IsColumn.length D.rps
    simp at h1 h2; omega
  have e : ∀ (n s : List ℚ), s.length = n.length →
      (List.zipWith (· * ·) n (s.map (1 - ·))).sum = n.sum - (List.zipWith (· * ·) n s).sum := by
    intro n
    induction n with
    | nil => intro s; simp
    | cons x n ih =>
      intro s hs
      cases s with
      | nil => simp at hs
      | cons y s =>
        simp only [List.map_cons, List.zipWith_cons_cons, List.sum_cons, ih s (by simpa using hs)]; ring
  have hw : wmean n (s.map (1 - ·)) = 1 - wmean n s := by
    unfold wmean
    rw [e n s l, sub_div, div_self D.total_pos.ne']
  rw [hw]
  have a1 := abs_roundHalfUp_sub_le (wmean n s) 7
  have a2 := abs_roundHalfUp_sub_le (1 - wmean n s) 7
  rw [abs_le] at a1 a2 ⊢
  norm_num at a1 a2 ⊢
  constructor <;> linarith [a1.1, a1.2, a2.1, a2.2]

def rpsExample : Table :=
  { cols := ["total", "rps", "rpss", "rps_comp"]
    rows := [[some 1, some 0, some 1, some 1], [some 1, some (1/10), some (1/2), some (9/10)]] }

theorem rpsExample_data : RpsData rpsExample [1, 1] [0, 1/10] [1/5, 1/5] ([0, 1/10].map (1 - ·)) where
  rows_ne := by decide
  rect := by unfold WellFormed; decide +kernel
  total := ⟨0, by decide, by decide, by decide +kernel⟩
  total_pos := by norm_num
  rps := ⟨1, by decide, by decide, by decide +kernel⟩
  rpss := ⟨2, by decide, by decide, by decide +kernel⟩
  rps_comp := ⟨3, by decide, by decide, by decide +kernel⟩
  len := rfl

/-- C66 fails for RPSS when a row is a perfect forecast: scores 0 and 1/10 against reference 1/5 each have
skill 3/4 together, the code gives 1/2. -/
theorem C66_rpss_counterexample :
    ∃ (t : Table) (n s c k : List ℚ), RpsData t n s c k ∧
      aggregatedRps (skillScore "rps" "rps_climo") t = .ok (some (1 / 2)) ∧
      roundHalfUp (1 - wmean n s / wmean n c) 7 = 3 / 4 :=
  ⟨rpsExample, _, _, _, _, rpsExample_data, by decide +kernel, by decide +kernel⟩

/-! ### C67 -/

/-- C67: ME_GE_OBS and ME_LT_OBS of a group are weighted by the number of members at or above, respectively
below, the observation, not by the number of pairs. -/
theorem C67_conditional_means (t : Table) (n r ro s so sp : List ℚ) (D : EcntData t n r ro s so sp)
    (g x : List ℚ) (c : String) (hc : c = "ge" ∨ c = "lt")
    (hg : CompleteColumn t ("n_" ++ c ++ "_obs") g) (hx : CompleteColumn t ("me_" ++ c ++ "_obs") x)
    (hp : 0 < g.sum) :
    aggregatedEcnt ("ecnt_me_" ++ c ++ "_obs")
        (ecntMeOf ("me_" ++ c ++ "_obs") ("n_" ++ c ++ "_obs")) t =
      .ok (some (roundHalfUp (wmean g x) 7)) := by
  obtain ⟨t1, e1, r1, w1, m1, m2, m3, m4, m5, keep⟩ := ecntDerived_ok D
  have key : ∀ stat col cnt, ecntFieldsOf stat = some [col] → ecntWeight col = cnt → cnt ≠ col →
      cnt ∉ ["mse", "mse_oerr", "variance", "variance_oerr", "variance_plus_oerr"] →
      col ∉ ["mse", "mse_oerr", "variance", "variance_oerr", "variance_plus_oerr"] →
      CompleteColumn t cnt g → CompleteColumn t col x →
      aggregatedEcnt stat (ecntMeOf col cnt) t = .ok (some (roundHalfUp (wmean g x) 7)) := by
    intro stat col cnt hf hw hne h1 h2 hg hx
    obtain ⟨t2, e2, -, l2, c2, k2⟩ := mulColumn_ok (keep cnt g h1 hg) (keep col x h2 hx)
    have r2 := rows_ne_of_length l2 r1
    have e3 : prepareEcnt stat t = .ok t2 := by
      simp only [prepareEcnt, e1, bind, Except.bind, hf, List.foldlM_cons, List.foldlM_nil, hw, e2, pure,
        Except.pure]
    rw [aggregatedEcnt_of e3]
    rw [sum_zip_comm] at c2
    simp [ecntMeOf, sumColumn_of_complete r2 (k2 _ _ hne (keep cnt g h1 hg)),
      sumColumn_of_complete r2 c2, pyDiv, hp.ne', wmean, PRECISION]
  rcases hc with rfl | rfl
  · exact key _ _ _ (by decide +kernel) (by decide) (by decide) (by decide) (by decide) hg hx
  · exact key _ _ _ (by decide +kernel) (by decide) (by decide) (by decide) (by decide) hg hx

def ecntGeExample : Table :=
  { cols := ["total", "rmse", "rmse_oerr", "spread", "spread_oerr", "spread_plus_oerr", "n_ge_obs",
      "me_ge_obs"]
    rows := [[some 10, some 1, some 1, some 1, some 1, some 3, some 1, some 1],
             [some 10, some 1, some 1, some 1, some 1, some 3, some 3, some 2]] }

/-- Counts 1 and 3, means 1 and 2: the group mean is 7/4. -/
example : aggregatedEcnt "ecnt_me_ge_obs" (ecntMeOf "me_ge_obs" "n_ge_obs") ecntGeExample =
    .ok (some (7 / 4)) := by decide +kernel

end Metcalcpy.Props
