/-
C134  Which pairs of values enter the autocorrelation of revisions at any lag.
-/
import Verif.Props.C134_MtdRevision

namespace Metcalcpy.Props
open Metcalcpy Spec

/-- The values, revision after revision in the order in which the revisions first appear, with one missing value between two
revisions. -/
def separatedRevisions (rows : List (String × Option ℚ)) : List (Option ℚ) :=
  List.intercalate [none] ((rows.map Prod.fst).reverse.dedup.reverse.map (revisionValues rows))

/-- The lag that is used for a list of `n` values: the requested one, by default the largest whole number not above
`10 log10 n`, but never more than `n - 1`. -/
def IsUsedLag (n : ℕ) (lag : Option ℕ) (k : ℕ) : Prop :=
  ∃ l, (∀ r, lag = some r → l = r) ∧ (lag = none → 10 ^ l ≤ n ^ 10 ∧ n ^ 10 < 10 ^ (l + 1)) ∧ k = min l (n - 1)

theorem intercalate_none (l : List (List Cell)) (h : l ≠ []) :
    l.flatMap (fun b => b ++ [none]) = List.intercalate [none] l ++ [none] := by
  induction l with
  | nil => exact absurd rfl h
  | cons a l ih =>
    cases l with
    | nil => simp [List.intercalate]
    | cons b l =>
      rw [List.flatMap_cons, ih (by simp)]
      simp [List.intercalate]

theorem mtdData_separated (rows : List (String × Cell)) (h : rows ≠ []) : mtdData rows = separatedRevisions rows := by
  have h1 := dropLast_sep rows h
  have hne : (revisionIds rows).map (revisionValues rows) ≠ [] := by
    obtain ⟨r, rows, rfl⟩ := List.exists_cons_of_ne_nil h
    intro e
    have : r.1 ∈ revisionIds (r :: rows) := by unfold revisionIds; simp
    rw [List.map_eq_nil_iff.mp e] at this
    simp at this
  have h2 := intercalate_none _ hne
  rw [List.flatMap_map] at h2
  have e : (fun id => revisionValues rows id ++ [none]) = revisionBlock rows := by
    funext id
    exact (revisionBlock_eq rows id).symm
  rw [e] at h2
  have h3 := h1.symm.trans h2
  exact List.append_cancel_right h3

theorem mapM_range_last {α : Type} (f : ℕ → Except PyErr α) (k : ℕ) (l : List α)
    (h : (List.range (k + 1)).mapM f = .ok l) : ∃ v, f k = .ok v ∧ l.getLast? = some v := by
  rw [List.range_succ, List.mapM_append] at h
  simp only [List.mapM_cons, List.mapM_nil, bind, Except.bind] at h
  cases h1 : (List.range k).mapM f with
  | error e => rw [h1] at h; cases h
  | ok a =>
    rw [h1] at h
    simp only at h
    cases h2 : f k with
    | error e => rw [h2] at h; cases h
    | ok v =>
      rw [h2] at h
      simp only [pure, Except.pure, Except.ok.injEq] at h
      subst h
      exact ⟨v, rfl, by simp⟩

/-- C134 at any lag: the reported value is the rounded quotient of two averages.  The first is over the products of deviations
of all values that stand the used lag apart in the list of the revisions separated by one missing value, and their number is
increased by the lag; the second is over the squared deviations of all values.  So from lag 2 on values of different
revisions are paired wherever the separators and the values between them add up to the lag.  The property itself holds for
lag 1 (`C134_lag_one_partial`) and is false for the default lag (`C134_default_lag_counterexample`). -/
theorem C134_any_lag_partial (phi : ℝ → ℝ) (rows : List (String × Cell)) (lag : Option ℕ) (s : MtdStats) (hr : rows ≠ [])
    (h : mtdRevisionStats phi true rows (lag.map Int.ofNat) = .ok s) :
    ∃ k r, IsUsedLag (separatedRevisions rows).length lag k ∧ s.autoCorR = some r ∧
      let m := overallMean rows
      let pairs := completePairs (separatedRevisions rows) ((separatedRevisions rows).drop k)
      IsRounded (((pairs.map fun p => (p.1 - m) * (p.2 - m)).sum / (pairs.length + k) /
        (((presentValues rows).map fun a => (a - m) ^ 2).sum / (presentValues rows).length) : ℚ)) 2 r := by
  rw [mtd_uncentred phi rows _ hr, removeNone_mtd rows hr] at h
  have hp := joined_perm rows
  by_cases hj : joinedRevisions rows = []
  · rw [pyMean, if_pos hj] at h; simp [bind, Except.bind] at h
  have hm : listMean (joinedRevisions rows) = overallMean rows := by
    unfold listMean overallMean; rw [hp.sum_eq, hp.length_eq]
  have hn0 : ((presentValues rows).length : ℚ) ≠ 0 := by
    rw [← hp.length_eq]; simpa using hj
  have hlen0 : ¬ (mtdData rows).length = 0 := by
    intro e
    apply hj
    rw [← removeNone_mtd rows hr, List.length_eq_zero_iff.mp e]; rfl
  have hpm : pyMean (joinedRevisions rows) = .ok (overallMean rows) := by rw [pyMean, if_neg hj, hm]
  have c0 : autocovariance (mtdData rows) 0 (overallMean rows) =
      .ok (((presentValues rows).map fun a => (a - overallMean rows) ^ 2).sum / (presentValues rows).length) := by
    unfold autocovariance
    simp only [acf_terms, List.drop_zero, completePairs_self, removeNone_mtd rows hr, List.map_map, List.length_map]
    rw [hp.length_eq, if_neg (by
      rw [Nat.add_zero]; exact_mod_cast hn0)]
    congr 1
    rw [← (hp.map fun a => (a - overallMean rows) ^ 2).sum_eq]
    have : ((fun p : ℚ × ℚ => (p.1 - overallMean rows) * (p.2 - overallMean rows)) ∘ fun a => (a, a)) =
        fun a => (a - overallMean rows) ^ 2 := by funext a; simp [sq]
    rw [this]
    push_cast
    rw [add_zero]
    ring
  rw [hpm] at h
  simp only [bind, Except.bind] at h
  unfold acf at h
  rw [if_neg (by decide), if_neg hlen0, removeNone_mtd rows hr, hpm] at h
  simp only [bind, Except.bind, c0] at h
  obtain ⟨l, hl1, hl2⟩ : ∃ l : ℕ, (lag.map Int.ofNat).getD ((Nat.log 10 ((mtdData rows).length ^ 10) : ℕ) : ℤ) = (l : ℤ) ∧
      IsUsedLag (separatedRevisions rows).length lag (min l ((mtdData rows).length - 1)) := by
    rw [← mtdData_separated rows hr]
    cases lag with
    | some r =>
      exact ⟨r, rfl, ⟨r, fun r' h' => by simpa using h', fun h' => by simp at h', rfl⟩⟩
    | none =>
      refine ⟨_, rfl, ⟨_, fun r' h' => by simp at h', fun _ => ?_, rfl⟩⟩
      exact ⟨Nat.pow_log_le_self 10 (by positivity), Nat.lt_pow_succ_log_self (by norm_num) _⟩
  rw [hl1] at h
  obtain ⟨k, hk⟩ : ∃ k, k = min l ((mtdData rows).length - 1) := ⟨_, rfl⟩
  have hmin : (min (l : ℤ) (((mtdData rows).length : ℤ) - 1) + 1).toNat = k + 1 := by omega
  rw [hmin] at h
  rw [← hk] at hl2
  cases hmm : (List.range (k + 1)).mapM (acfEntry (mtdData rows) "correlation" (overallMean rows)
      (((presentValues rows).map fun a => (a - overallMean rows) ^ 2).sum / (presentValues rows).length)) with
  | error e => rw [hmm] at h; cases h
  | ok res =>
    rw [hmm] at h
    obtain ⟨v, hv, hlast⟩ := mapM_range_last _ _ _ hmm
    simp only [lastRounded, hlast] at h
    rcases hw : runsTest phi (mtdData rows) "left.sided" "median" with e | w
    · rw [hw] at h; simp at h
    rw [hw] at h
    simp only [Except.ok.injEq] at h
    subst h
    refine ⟨k, _, hl2, rfl, ?_⟩
    unfold acfEntry autocovariance at hv
    simp only [acf_terms, List.length_map, bind, Except.bind,
      show ¬ ("correlation" : String) = "covariance" by decide, if_false, pyDivE] at hv
    rw [mtdData_separated rows hr] at hv
    dsimp only
    generalize completePairs (separatedRevisions rows) ((separatedRevisions rows).drop k) = pairs at hv ⊢
    split at hv
    · cases hv
    · split at hv
      · cases hv
      · simp only [Except.ok.injEq] at hv
        rename_i hc _
        split at hc
        · cases hc
        · simp only [Except.ok.injEq] at hc
          rw [one_div, inv_mul_eq_div] at hc
          rw [hc, hv]
          exact npRound_spec _ _

/-- Two revisions of two values at lag 3: the values 1 and 4, 2 and 8 of different revisions are paired. -/
example : separatedRevisions exTwoRevisions = [some 1, some 2, none, some 4, some 8] ∧
    completePairs (separatedRevisions exTwoRevisions) ((separatedRevisions exTwoRevisions).drop 3) = [(1, 4), (2, 8)] ∧
    IsUsedLag (separatedRevisions exTwoRevisions).length (some 3) 3 ∧
    IsUsedLag (separatedRevisions exTwoRevisions).length none 4 := by
  have e : separatedRevisions exTwoRevisions = [some 1, some 2, none, some 4, some 8] := by decide +kernel
  rw [e]
  refine ⟨rfl, by decide +kernel, ⟨3, by simp, by simp, by simp⟩, ⟨6, by simp, fun _ => by norm_num, by simp⟩⟩

end Metcalcpy.Props
