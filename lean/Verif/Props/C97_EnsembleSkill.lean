/-
C97  Ensemble skill scores, member counts and the bias ratio of an aggregated group are those of the pooled
     rows.
-/
import Verif.Props.C20_Ensemble

namespace Metcalcpy.Props
open Metcalcpy Spec

/-- Preparation for a statistic that multiplies two columns by their weights. -/
theorem ecnt_prepared_two {t : Table} {n r ro s so sp : List ℚ} (D : EcntData t n r ro s so sp)
    (stat c d wc wd : String) (x y g h : List ℚ) (hf : ecntFieldsOf stat = some [c, d])
    (hc : CompleteColumn t c x) (hd : CompleteColumn t d y) (hg : CompleteColumn t wc g)
    (hh : CompleteColumn t wd h) (ec : ecntWeight c = wc) (ed : ecntWeight d = wd)
    (hne : d ≠ c ∧ wc ≠ c ∧ wc ≠ d ∧ wd ≠ c ∧ wd ≠ d)
    (hnew : ∀ z ∈ [c, d, wc, wd], z ∉ ["mse", "mse_oerr", "variance", "variance_oerr", "variance_plus_oerr"]) :
    ∃ t', prepareEcnt stat t = .ok t' ∧ t'.rows ≠ [] ∧
      CompleteColumn t' c (List.zipWith (· * ·) g x) ∧ CompleteColumn t' d (List.zipWith (· * ·) h y) ∧
      CompleteColumn t' wc g ∧ CompleteColumn t' wd h := by
  obtain ⟨n1, n2, n3, n4, n5⟩ := hne
  obtain ⟨t1, e1, r1, w1, m1, m2, m3, m4, m5, keep⟩ := ecntDerived_ok D
  obtain ⟨t2, e2, -, l2, c2, k2⟩ := mulColumn_ok (keep wc g (hnew _ (by simp)) hg) (keep c x (hnew _ (by simp)) hc)
  have r2 := rows_ne_of_length l2 r1
  obtain ⟨t3, e3, -, l3, c3, k3⟩ := mulColumn_ok (k2 _ _ n4 (keep wd h (hnew _ (by simp)) hh))
    (k2 _ _ n1 (keep d y (hnew _ (by simp)) hd))
  rw [sum_zip_comm] at c2 c3
  refine ⟨t3, ?_, rows_ne_of_length l3 r2, k3 _ _ (Ne.symm n1) c2, c3,
    k3 _ _ n3 (k2 _ _ n2 (keep wc g (hnew _ (by simp)) hg)), k3 _ _ n5 (k2 _ _ n4 (keep wd h (hnew _ (by simp)) hh))⟩
  simp only [prepareEcnt, e1, bind, Except.bind, hf, List.foldlM_cons, List.foldlM_nil, ec, ed, e2, e3, pure,
    Except.pure]

/-- C97: CRPSS and CRPSS_EMP of a group are one minus the ratio of the total-weighted mean score and the
total-weighted mean climatological score. -/
theorem C97_skill (t : Table) (n r ro s so sp : List ℚ) (D : EcntData t n r ro s so sp)
    (suffix : String) (hs : suffix = "" ∨ suffix = "_emp") (x y : List ℚ)
    (hx : CompleteColumn t ("crps" ++ suffix) x) (hy : CompleteColumn t ("crpscl" ++ suffix) y)
    (hm : wmean n y ≠ 0) :
    aggregatedEcnt ("ecnt_crpss" ++ suffix) (skillScore ("crps" ++ suffix) ("crpscl" ++ suffix)) t =
      .ok (some (roundHalfUp (1 - wmean n x / wmean n y) 7)) := by
  rcases hs with rfl | rfl
  · obtain ⟨t', h, hr, h1, h2, h3, -⟩ := ecnt_prepared_two D "ecnt_crpss" "crps" "crpscl" "total" "total" x y n n
      rfl hx hy D.total D.total (by decide) (by decide) (by decide) (by decide)
    rw [show "ecnt_crpss" ++ "" = "ecnt_crpss" from rfl, aggregatedEcnt_of h]
    change Except.ok (skillScore "crps" "crpscl" t' true) = _
    simp [skillScore, colMean_scaled hr h3 D.total_pos h1, colMean_scaled hr h3 D.total_pos h2, pyDiv, hm, PRECISION]
  · obtain ⟨t', h, hr, h2, h1, h3, -⟩ := ecnt_prepared_two D "ecnt_crpss_emp" "crpscl_emp" "crps_emp" "total" "total"
      y x n n rfl hy hx D.total D.total (by decide) (by decide) (by decide) (by decide)
    rw [show "ecnt_crpss" ++ "_emp" = "ecnt_crpss_emp" from rfl, aggregatedEcnt_of h]
    change Except.ok (skillScore "crps_emp" "crpscl_emp" t' true) = _
    simp [skillScore, colMean_scaled hr h3 D.total_pos h1, colMean_scaled hr h3 D.total_pos h2, pyDiv, hm, PRECISION]

/-- C97: the score has no value exactly when the weighted climatological score is zero. -/
theorem C97_no_skill (t : Table) (n r ro s so sp : List ℚ) (D : EcntData t n r ro s so sp) (x y : List ℚ)
    (hx : CompleteColumn t "crps" x) (hy : CompleteColumn t "crpscl" y) :
    aggregatedEcnt "ecnt_crpss" (skillScore "crps" "crpscl") t = .ok none ↔ wmean n y = 0 := by
  constructor
  · intro h
    by_contra hm
    have e := C97_skill t n r ro s so sp D "" (.inl rfl) x y hx hy hm
    rw [show "ecnt_crpss" ++ "" = "ecnt_crpss" from rfl, show "crps" ++ "" = "crps" from rfl,
      show "crpscl" ++ "" = "crpscl" from rfl, h] at e
    simp at e
  · intro hm
    obtain ⟨t', h, hr, h1, h2, h3, -⟩ := ecnt_prepared_two D "ecnt_crpss" "crps" "crpscl" "total" "total" x y n n
      rfl hx hy D.total D.total (by decide) (by decide) (by decide) (by decide)
    rw [aggregatedEcnt_of h]
    simp [skillScore, colMean_scaled hr h3 D.total_pos h1, colMean_scaled hr h3 D.total_pos h2, pyDiv, hm]

/-- C97: the numbers of members above and below the observations of a group are the sums over its rows. -/
theorem C97_counts (t : Table) (n r ro s so sp : List ℚ) (D : EcntData t n r ro s so sp)
    (c : String) (hc : c = "n_ge_obs" ∨ c = "n_lt_obs") (g : List ℚ) (hg : CompleteColumn t c g) :
    aggregatedEcnt ("ecnt_" ++ c) (ecntCount c) t = .ok (some (roundHalfUp g.sum 7)) := by
  obtain ⟨t1, e1, r1, w1, m1, m2, m3, m4, m5, keep⟩ := ecntDerived_ok D
  have hf : ecntFieldsOf ("ecnt_" ++ c) = some [] := by rcases hc with rfl | rfl <;> decide +kernel
  have p : prepareEcnt ("ecnt_" ++ c) t = .ok t1 := by
    simp only [prepareEcnt, e1, bind, Except.bind, hf, List.foldlM_nil, pure, Except.pure]
  have k := keep c g (by rcases hc with rfl | rfl <;> decide) hg
  rw [aggregatedEcnt_of p]
  simp [ecntCount, sumColumn_of_complete r1 k, PRECISION]

/-- C97: the bias ratio of a group is the mean error of the members at or above the observation over the
absolute mean error of those below, each weighted by its own number of members (and rounded before the
division). -/
theorem C97_bias_ratio (t : Table) (n r ro s so sp : List ℚ) (D : EcntData t n r ro s so sp)
    (g h x y : List ℚ) (hg : CompleteColumn t "n_ge_obs" g) (hh : CompleteColumn t "n_lt_obs" h)
    (hx : CompleteColumn t "me_ge_obs" x) (hy : CompleteColumn t "me_lt_obs" y)
    (pg : 0 < g.sum) (ph : 0 < h.sum) (hm : roundHalfUp (wmean h y) 7 ≠ 0) :
    aggregatedEcnt "ecnt_bias_ratio" ecntBiasRatio t =
      .ok (some (roundHalfUp (roundHalfUp (wmean g x) 7 / |roundHalfUp (wmean h y) 7|) 7)) := by
  obtain ⟨t', e, hr, h1, h2, h3, h4⟩ := ecnt_prepared_two D "ecnt_bias_ratio" "me_ge_obs" "me_lt_obs" "n_ge_obs"
    "n_lt_obs" x y g h rfl hx hy hg hh (by decide) (by decide) (by decide) (by decide)
  rw [aggregatedEcnt_of e]
  simp [ecntBiasRatio, ecntMeOf, sumColumn_of_complete hr h1, sumColumn_of_complete hr h2,
    sumColumn_of_complete hr h3, sumColumn_of_complete hr h4, pyDiv, pg.ne', ph.ne', wmean, PRECISION]
  rw [if_neg (by simpa [wmean] using hm)]
  rfl

def ecntSkillExample : Table :=
  { cols := ["total", "rmse", "rmse_oerr", "spread", "spread_oerr", "spread_plus_oerr", "crps", "crpscl",
      "crps_emp", "crpscl_emp", "n_ge_obs", "me_ge_obs", "n_lt_obs", "me_lt_obs"]
    rows := [[some 1, some 1, some 1, some 1, some 1, some 3, some 1, some 4, some 2, some 4, some 1, some 1, some 2,
              some (-3)],
             [some 3, some 1, some 1, some 1, some 1, some 3, some 3, some 8, some 2, some 8, some 3, some 2, some 2,
              some (-4)]] }

theorem ecntSkillExample_data : EcntData ecntSkillExample [1, 3] [1, 1] [1, 1] [1, 1] [1, 1] [3, 3] where
  rows_ne := by decide
  rect := by unfold WellFormed; decide +kernel
  total := ⟨0, by decide, by decide, by decide +kernel⟩
  total_pos := by norm_num
  rmse := ⟨1, by decide, by decide, by decide +kernel⟩
  rmse_oerr := ⟨2, by decide, by decide, by decide +kernel⟩
  spread := ⟨3, by decide, by decide, by decide +kernel⟩
  spread_oerr := ⟨4, by decide, by decide, by decide +kernel⟩
  spread_plus_oerr := ⟨5, by decide, by decide, by decide +kernel⟩

/-- Totals 1 and 3, scores 1 and 3 against 4 and 8: 1 - (10/4)/(28/4). -/
example : aggregatedEcnt "ecnt_crpss" (skillScore "crps" "crpscl") ecntSkillExample =
    .ok (some (roundHalfUp (1 - wmean [1, 3] [1, 3] / wmean [1, 3] [4, 8]) 7)) :=
  C97_skill _ _ _ _ _ _ _ ecntSkillExample_data "" (.inl rfl) _ _ ⟨6, by decide, by decide, by decide +kernel⟩
    ⟨7, by decide, by decide, by decide +kernel⟩ (by decide +kernel)
example : wmean [1, 3] [1, 3] / wmean [1, 3] [4, 8] = 5 / 14 := by decide +kernel
example : aggregatedEcnt "ecnt_crpss_emp" (skillScore "crps_emp" "crpscl_emp") ecntSkillExample =
    .ok (some (7142857 / 10000000)) := by decide +kernel
example : aggregatedEcnt "ecnt_n_lt_obs" (ecntCount "n_lt_obs") ecntSkillExample = .ok (some 4) := by decide +kernel
/-- Mean errors 7/4 (counts 1 and 3) and -7/2 (counts 2 and 2). -/
example : aggregatedEcnt "ecnt_bias_ratio" ecntBiasRatio ecntSkillExample = .ok (some (1 / 2)) := by decide +kernel

end Metcalcpy.Props
