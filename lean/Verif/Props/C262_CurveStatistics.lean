/-
C262 with derived curves, statistic by statistic; examples of C261 on all other line types.
-/
import Verif.Props.C261_MoreCurves
import Verif.Props.C262_CurveCompletes

namespace Metcalcpy.Props

open Metcalcpy Spec

section
variable {f : Frame} {p : AggParams} {init : List (String × List String)} {sv : String × List String}
  {parts : String → List String} {fix : List (String × List String)} {fv : String} {sts : List String}
  {rest : List (String × List String)}

/-- C262 with derived curves: RMSE of SL1L2 lines. -/
theorem C262_rmse_curves (etb : List PyNum → List PyNum → PyNum) (s : BootSettings)
    (ha : 0 ≤ s.alpha ∧ s.alpha ≤ 1) (draws₁ draws₂ : ℕ → ℕ → List (List ℕ)) (k : ℕ)
    (hk : 0 < k) (hdraw : ∀ i n, IndexMatrix n k (draws₁ i n)) (R : OneAxisRun f p init sv parts fix fv sts rest)
    (key : List Val → String) (hkey : ∀ r ∈ f.rows, IsCaseKey f p.indyVar true r (key r))
    (hindy : CaseFixesIndependent f p.indyVar key) (htime : CaseFixesTime f key)
    (hread : ∀ x ∈ init ++ [sv], ∀ v ∈ x.2, ∀ w ∈ parts v, ReadAlike w) (hcurves : PlainOrSigCurves s (p.config p.axis₁))
    (hn : ∀ as i st, List.Forall₂ (fun x q => x ∈ q.2) as (init ++ [sv]) → i ∈ p.indyVals → st ∈ p.axis₁.stats →
      ((comparedRows f (init ++ [sv]) parts fix fv p.indyVar key as i st).map (caseOf f)).Nodup)
    (pairs : List Val → List Pair) (L : Sl1l2Lines f pairs)
    (hs : ∀ st ∈ p.axis₁.stats, lower st = "rmse") :
    ∃ out, bootRun (rootPrepared .fields f) etb s draws₁ draws₂ f p = .ok out :=
  C262_sig_curves_partial _ etb s ha draws₁ draws₂ k hk hdraw R key hkey hindy htime hread hcurves hn (fun st hst zs z1 z2 => by
    rw [hs st hst]
    exact ⟨_, root_except rfl (rmse_value (sl_table L z1 z2))⟩)

/-- C262 with derived curves: root mean square anomalies of SAL1L2 lines. -/
theorem C262_anomalies_curves (etb : List PyNum → List PyNum → PyNum) (s : BootSettings)
    (ha : 0 ≤ s.alpha ∧ s.alpha ≤ 1) (draws₁ draws₂ : ℕ → ℕ → List (List ℕ))
    (k : ℕ) (hk : 0 < k) (hdraw : ∀ i n, IndexMatrix n k (draws₁ i n)) (R : OneAxisRun f p init sv parts fix fv sts rest)
    (key : List Val → String) (hkey : ∀ r ∈ f.rows, IsCaseKey f p.indyVar true r (key r))
    (hindy : CaseFixesIndependent f p.indyVar key) (htime : CaseFixesTime f key)
    (hread : ∀ x ∈ init ++ [sv], ∀ v ∈ x.2, ∀ w ∈ parts v, ReadAlike w) (hcurves : PlainOrSigCurves s (p.config p.axis₁))
    (hn : ∀ as i st, List.Forall₂ (fun x q => x ∈ q.2) as (init ++ [sv]) → i ∈ p.indyVals → st ∈ p.axis₁.stats →
      ((comparedRows f (init ++ [sv]) parts fix fv p.indyVar key as i st).map (caseOf f)).Nodup)
    (pairs : List Val → List Pair) (L : Sal1l2Lines f pairs)
    (hs : ∀ st ∈ p.axis₁.stats, lower st ∈ ["rmsfa", "rmsoa"]) :
    ∃ out, bootRun (rootPrepared .fields f) etb s draws₁ draws₂ f p = .ok out :=
  C262_sig_curves_partial _ etb s ha draws₁ draws₂ k hk hdraw R key hkey hindy htime hread hcurves hn (fun st hst zs z1 z2 => by
    have h := hs st hst
    generalize lower st = s' at h
    simp only [List.mem_cons, List.not_mem_nil, or_false] at h
    have D := sal_table L z1 z2
    rcases h with rfl | rfl
    · exact ⟨_, root_real rfl (C96_rms _ _ D).1⟩
    · exact ⟨_, root_real rfl (C96_rms _ _ D).2⟩)

/-- C262 with derived curves: wind statistics of VL1L2 and VCNT lines. -/
theorem C262_winds_curves (etb : List PyNum → List PyNum → PyNum) (s : BootSettings)
    (ha : 0 ≤ s.alpha ∧ s.alpha ≤ 1) (draws₁ draws₂ : ℕ → ℕ → List (List ℕ)) (k : ℕ)
    (hk : 0 < k) (hdraw : ∀ i n, IndexMatrix n k (draws₁ i n)) (R : OneAxisRun f p init sv parts fix fv sts rest)
    (key : List Val → String) (hkey : ∀ r ∈ f.rows, IsCaseKey f p.indyVar true r (key r))
    (hindy : CaseFixesIndependent f p.indyVar key) (htime : CaseFixesTime f key)
    (hread : ∀ x ∈ init ++ [sv], ∀ v ∈ x.2, ∀ w ∈ parts v, ReadAlike w) (hcurves : PlainOrSigCurves s (p.config p.axis₁))
    (hn : ∀ as i st, List.Forall₂ (fun x q => x ∈ q.2) as (init ++ [sv]) → i ∈ p.indyVals → st ∈ p.axis₁.stats →
      ((comparedRows f (init ++ [sv]) parts fix fv p.indyVar key as i st).map (caseOf f)).Nodup)
    (pairs : List Val → List WindPair) (L : WindLines vl1l2Columns f pairs)
    (hs : ∀ st ∈ p.axis₁.stats, lower st ∈ ["vl1l2_msve", "vl1l2_rmsve", "vl1l2_bias", "vl1l2_speed_err", "vcnt_msve",
      "vcnt_rmsve", "vcnt_fbar", "vcnt_obar", "vcnt_fs_rms", "vcnt_os_rms", "vcnt_fbar_speed", "vcnt_obar_speed",
      "vcnt_vdiff_speed", "vcnt_speed_err", "vcnt_speed_abserr"]) :
    ∃ out, bootRun (rootPrepared .fields f) etb s draws₁ draws₂ f p = .ok out :=
  C262_sig_curves_partial _ etb s ha draws₁ draws₂ k hk hdraw R key hkey hindy htime hread hcurves hn (fun st hst zs z1 z2 => by
    have D := wind_table L z1 z2
    obtain ⟨a1, a2⟩ := C68_msve_partial _ _ D "vl1l2" (.inl rfl)
    obtain ⟨a3, a4⟩ := C68_msve_partial _ _ D "vcnt" (.inr rfl)
    obtain ⟨b1, b2, b3, b4, b5⟩ := C68_speeds_partial _ _ D
    obtain ⟨m1, m2, m3, m4⟩ := C68_mean_vectors_partial _ _ D
    have se := C68_speed_err_partial _ _ D
    have h := hs st hst
    generalize lower st = s' at h
    simp only [List.mem_cons, List.not_mem_nil, or_false] at h
    rcases h with rfl | rfl | rfl | rfl | rfl | rfl | rfl | rfl | rfl | rfl | rfl | rfl | rfl | rfl | rfl
    · exact ⟨_, root_rat rfl a1⟩
    · exact ⟨_, root_real rfl a2⟩
    · exact ⟨_, root_real rfl b5⟩
    · exact ⟨_, root_real rfl (se _ (.inl rfl))⟩
    · exact ⟨_, root_rat rfl a3⟩
    · exact ⟨_, root_real rfl a4⟩
    · exact ⟨_, root_rat rfl b1⟩
    · exact ⟨_, root_rat rfl b2⟩
    · exact ⟨_, root_real rfl b3⟩
    · exact ⟨_, root_real rfl b4⟩
    · exact ⟨_, root_real rfl m1⟩
    · exact ⟨_, root_real rfl m2⟩
    · exact ⟨_, root_real rfl m3⟩
    · exact ⟨_, root_real rfl (se _ (.inr rfl))⟩
    · exact ⟨_, root_real rfl m4⟩)

/-- C262 with derived curves: RMSE and spread of ECNT lines. -/
theorem C262_ensembles_curves (etb : List PyNum → List PyNum → PyNum) (s : BootSettings)
    (ha : 0 ≤ s.alpha ∧ s.alpha ≤ 1) (draws₁ draws₂ : ℕ → ℕ → List (List ℕ))
    (k : ℕ) (hk : 0 < k) (hdraw : ∀ i n, IndexMatrix n k (draws₁ i n)) (R : OneAxisRun f p init sv parts fix fv sts rest)
    (key : List Val → String) (hkey : ∀ r ∈ f.rows, IsCaseKey f p.indyVar true r (key r))
    (hindy : CaseFixesIndependent f p.indyVar key) (htime : CaseFixesTime f key)
    (hread : ∀ x ∈ init ++ [sv], ∀ v ∈ x.2, ∀ w ∈ parts v, ReadAlike w) (hcurves : PlainOrSigCurves s (p.config p.axis₁))
    (hn : ∀ as i st, List.Forall₂ (fun x q => x ∈ q.2) as (init ++ [sv]) → i ∈ p.indyVals → st ∈ p.axis₁.stats →
      ((comparedRows f (init ++ [sv]) parts fix fv p.indyVar key as i st).map (caseOf f)).Nodup)
    (n : List Val → ℚ) (x : String → List Val → ℚ) (L : EcntLines f n x)
    (hs : ∀ st ∈ p.axis₁.stats, lower st ∈ ["ecnt_rmse", "ecnt_rmse_oerr", "ecnt_spread", "ecnt_spread_oerr"]) :
    ∃ out, bootRun (rootPrepared .ecnt f) etb s draws₁ draws₂ f p = .ok out :=
  C262_sig_curves_partial _ etb s ha draws₁ draws₂ k hk hdraw R key hkey hindy htime hread hcurves hn (fun st hst zs z1 z2 => by
    obtain ⟨c, hc, e⟩ : ∃ c ∈ ["rmse", "rmse_oerr", "spread", "spread_oerr"], lower st = "ecnt_" ++ c := by
      have := hs st hst
      generalize lower st = s' at this
      simp only [List.mem_cons, List.not_mem_nil, or_false] at this
      rcases this with rfl | rfl | rfl | rfl
      exacts [⟨"rmse", by simp, rfl⟩, ⟨"rmse_oerr", by simp, rfl⟩, ⟨"spread", by simp, rfl⟩, ⟨"spread_oerr", by simp, rfl⟩]
    rw [e]
    exact ⟨_, ecnt_roots R.input.wf L (List.Perm.refl _) z1 z2 hc⟩)

/-- C262 with derived curves: means, errors and spread of SSVAR lines. -/
theorem C262_spread_curves (etb : List PyNum → List PyNum → PyNum) (s : BootSettings)
    (ha : 0 ≤ s.alpha ∧ s.alpha ≤ 1) (draws₁ draws₂ : ℕ → ℕ → List (List ℕ)) (k : ℕ)
    (hk : 0 < k) (hdraw : ∀ i n, IndexMatrix n k (draws₁ i n)) (R : OneAxisRun f p init sv parts fix fv sts rest)
    (key : List Val → String) (hkey : ∀ r ∈ f.rows, IsCaseKey f p.indyVar true r (key r))
    (hindy : CaseFixesIndependent f p.indyVar key) (htime : CaseFixesTime f key)
    (hread : ∀ x ∈ init ++ [sv], ∀ v ∈ x.2, ∀ w ∈ parts v, ReadAlike w) (hcurves : PlainOrSigCurves s (p.config p.axis₁))
    (hn : ∀ as i st, List.Forall₂ (fun x q => x ∈ q.2) as (init ++ [sv]) → i ∈ p.indyVals → st ∈ p.axis₁.stats →
      ((comparedRows f (init ++ [sv]) parts fix fv p.indyVar key as i st).map (caseOf f)).Nodup)
    (points : List Val → List (Pair × ℚ)) (L : SsvarLines f points)
    (hs : ∀ st ∈ p.axis₁.stats, lower st ∈ ["ssvar_fbar", "ssvar_obar", "ssvar_me", "ssvar_me2", "ssvar_mse", "ssvar_rmse",
      "ssvar_bcmse", "ssvar_spread"]) :
    ∃ out, bootRun (spreadPrepared f) etb s draws₁ draws₂ f p = .ok out :=
  C262_sig_curves_partial _ etb s ha draws₁ draws₂ k hk hdraw R key hkey hindy htime hread hcurves hn (fun st hst zs z1 z2 => by
    have h := hs st hst
    generalize lower st = s' at h
    have h' : s' ∈ ["ssvar_fbar", "ssvar_obar", "ssvar_me", "ssvar_me2", "ssvar_mse", "ssvar_rmse", "ssvar_bcmse",
        "ssvar_fstdev", "ssvar_ostdev", "ssvar_pr_corr", "ssvar_msess", "ssvar_spread"] := by
      simp only [List.mem_cons, List.not_mem_nil, or_false] at h ⊢
      tauto
    obtain ⟨v, hv⟩ := spread_exists L z1 z2 h'
    have S := spread_value L (List.Perm.refl zs) z1 z2 hv
    rw [hv]
    simp only [List.mem_cons, List.not_mem_nil, or_false] at h
    rcases h with rfl | rfl | rfl | rfl | rfl | rfl | rfl | rfl
    · exact ⟨_, by rw [S.fbar rfl]⟩
    · exact ⟨_, by rw [S.obar rfl]⟩
    · exact ⟨_, by rw [S.me rfl]⟩
    · exact ⟨_, by rw [S.me2 rfl]⟩
    · exact ⟨_, by rw [S.mse rfl]⟩
    · obtain ⟨q, e, -⟩ := (S.rmse rfl).value
      exact ⟨q, by rw [e]⟩
    · obtain ⟨q, e, -⟩ := S.bcmse rfl
      exact ⟨q, by rw [e]⟩
    · obtain ⟨q, e, -⟩ := S.spread rfl
      exact ⟨q, by rw [e]⟩)

/-- C262 with derived curves: means and counts of ECNT lines. -/
theorem C262_ecnt_curves (etb : List PyNum → List PyNum → PyNum) (s : BootSettings)
    (ha : 0 ≤ s.alpha ∧ s.alpha ≤ 1) (draws₁ draws₂ : ℕ → ℕ → List (List ℕ))
    (k : ℕ) (hk : 0 < k) (hdraw : ∀ i n, IndexMatrix n k (draws₁ i n)) (R : OneAxisRun f p init sv parts fix fv sts rest)
    (key : List Val → String) (hkey : ∀ r ∈ f.rows, IsCaseKey f p.indyVar true r (key r))
    (hindy : CaseFixesIndependent f p.indyVar key) (htime : CaseFixesTime f key)
    (hread : ∀ x ∈ init ++ [sv], ∀ v ∈ x.2, ∀ w ∈ parts v, ReadAlike w) (hcurves : PlainOrSigCurves s (p.config p.axis₁))
    (hn : ∀ as i st, List.Forall₂ (fun x q => x ∈ q.2) as (init ++ [sv]) → i ∈ p.indyVals → st ∈ p.axis₁.stats →
      ((comparedRows f (init ++ [sv]) parts fix fv p.indyVar key as i st).map (caseOf f)).Nodup)
    (n : List Val → ℚ) (x : String → List Val → ℚ) (L : EcntLines f n x)
    (hs : ∀ st ∈ p.axis₁.stats, ∃ c ∈ ["crps", "ign", "me", "me_oerr", "crpscl", "crps_emp", "crpscl_emp",
      "crps_emp_fair", "spread_md", "mae", "mae_oerr", "n_ge_obs", "n_lt_obs"], lower st = "ecnt_" ++ c) :
    ∃ out, bootRun (ensemblePrepared .ecnt f) etb s draws₁ draws₂ f p = .ok out :=
  C262_sig_curves_partial _ etb s ha draws₁ draws₂ k hk hdraw R key hkey hindy htime hread hcurves hn (fun st hst zs z1 z2 => by
    obtain ⟨c, hc, e⟩ := hs st hst
    rw [e]
    exact ecnt_number R.input.wf L z1 z2 hc)

/-- C262 with derived curves: FBS and the forecast rate of NBRCNT lines. -/
theorem C262_nbrcnt_curves (etb : List PyNum → List PyNum → PyNum) (s : BootSettings)
    (ha : 0 ≤ s.alpha ∧ s.alpha ≤ 1) (draws₁ draws₂ : ℕ → ℕ → List (List ℕ))
    (k : ℕ) (hk : 0 < k) (hdraw : ∀ i n, IndexMatrix n k (draws₁ i n)) (R : OneAxisRun f p init sv parts fix fv sts rest)
    (key : List Val → String) (hkey : ∀ r ∈ f.rows, IsCaseKey f p.indyVar true r (key r))
    (hindy : CaseFixesIndependent f p.indyVar key) (htime : CaseFixesTime f key)
    (hread : ∀ x ∈ init ++ [sv], ∀ v ∈ x.2, ∀ w ∈ parts v, ReadAlike w) (hcurves : PlainOrSigCurves s (p.config p.axis₁))
    (hn : ∀ as i st, List.Forall₂ (fun x q => x ∈ q.2) as (init ++ [sv]) → i ∈ p.indyVals → st ∈ p.axis₁.stats →
      ((comparedRows f (init ++ [sv]) parts fix fv p.indyVar key as i st).map (caseOf f)).Nodup)
    (n b d fr o : List Val → ℚ) (L : NbrCntLines f n b d fr o)
    (hs : ∀ st ∈ p.axis₁.stats, lower st = "nbr_fbs" ∨ lower st = "nbr_f_rate") :
    ∃ out, bootRun (ensemblePrepared .nbrCnt f) etb s draws₁ draws₂ f p = .ok out :=
  C262_sig_curves_partial _ etb s ha draws₁ draws₂ k hk hdraw R key hkey hindy htime hread hcurves hn (fun st hst zs z1 z2 => by
    obtain ⟨h1, h2⟩ := C20_fbs_f_rate_partial _ _ _ _ _ _ (nbrcnt_table R.input.wf L z1 z2)
    rcases hs st hst with e | e <;> rw [e]
    · exact ⟨_, ensemblePrepared_of (l := .nbrCnt) rfl h1⟩
    · exact ⟨_, ensemblePrepared_of (l := .nbrCnt) rfl h2⟩)

/-- C262 with derived curves: RPS and its complement of RPS lines. -/
theorem C262_rps_curves (etb : List PyNum → List PyNum → PyNum) (s : BootSettings)
    (ha : 0 ≤ s.alpha ∧ s.alpha ≤ 1) (draws₁ draws₂ : ℕ → ℕ → List (List ℕ))
    (k : ℕ) (hk : 0 < k) (hdraw : ∀ i n, IndexMatrix n k (draws₁ i n)) (R : OneAxisRun f p init sv parts fix fv sts rest)
    (key : List Val → String) (hkey : ∀ r ∈ f.rows, IsCaseKey f p.indyVar true r (key r))
    (hindy : CaseFixesIndependent f p.indyVar key) (htime : CaseFixesTime f key)
    (hread : ∀ x ∈ init ++ [sv], ∀ v ∈ x.2, ∀ w ∈ parts v, ReadAlike w) (hcurves : PlainOrSigCurves s (p.config p.axis₁))
    (hn : ∀ as i st, List.Forall₂ (fun x q => x ∈ q.2) as (init ++ [sv]) → i ∈ p.indyVals → st ∈ p.axis₁.stats →
      ((comparedRows f (init ++ [sv]) parts fix fv p.indyVar key as i st).map (caseOf f)).Nodup)
    (n x c m : List Val → ℚ) (L : RpsLines f n x c m)
    (hs : ∀ st ∈ p.axis₁.stats, lower st = "rps" ∨ lower st = "rps_comp") :
    ∃ out, bootRun (ensemblePrepared .rps f) etb s draws₁ draws₂ f p = .ok out :=
  C262_sig_curves_partial _ etb s ha draws₁ draws₂ k hk hdraw R key hkey hindy htime hread hcurves hn (fun st hst zs z1 z2 => by
    obtain ⟨h1, h2, -⟩ := C66_rps_partial _ _ _ _ _ (rps_table R.input.wf L z1 z2)
    rcases hs st hst with e | e <;> rw [e]
    · exact ⟨_, ensemblePrepared_of (l := .rps) rfl h1⟩
    · exact ⟨_, ensemblePrepared_of (l := .rps) rfl h2⟩)

/-- C262 with derived curves: mean gradients of GRAD lines. -/
theorem C262_grad_curves (etb : List PyNum → List PyNum → PyNum) (s : BootSettings)
    (ha : 0 ≤ s.alpha ∧ s.alpha ≤ 1) (draws₁ draws₂ : ℕ → ℕ → List (List ℕ))
    (k : ℕ) (hk : 0 < k) (hdraw : ∀ i n, IndexMatrix n k (draws₁ i n)) (R : OneAxisRun f p init sv parts fix fv sts rest)
    (key : List Val → String) (hkey : ∀ r ∈ f.rows, IsCaseKey f p.indyVar true r (key r))
    (hindy : CaseFixesIndependent f p.indyVar key) (htime : CaseFixesTime f key)
    (hread : ∀ x ∈ init ++ [sv], ∀ v ∈ x.2, ∀ w ∈ parts v, ReadAlike w) (hcurves : PlainOrSigCurves s (p.config p.axis₁))
    (hn : ∀ as i st, List.Forall₂ (fun x q => x ∈ q.2) as (init ++ [sv]) → i ∈ p.indyVals → st ∈ p.axis₁.stats →
      ((comparedRows f (init ++ [sv]) parts fix fv p.indyVar key as i st).map (caseOf f)).Nodup)
    (pairs : List Val → List Pair) (L : GradLines f pairs)
    (hs : ∀ st ∈ p.axis₁.stats, lower st ∈ ["fgbar", "ogbar", "mgbar", "egbar"]) :
    ∃ out, bootRun (ensemblePrepared .grad f) etb s draws₁ draws₂ f p = .ok out :=
  C262_sig_curves_partial _ etb s ha draws₁ draws₂ k hk hdraw R key hkey hindy htime hread hcurves hn (fun st hst zs z1 z2 => by
    have h := hs st hst
    generalize lower st = s' at h
    have ha := grad_means (grad_table L z1 z2) s' h
    refine ⟨_, ensemblePrepared_of (l := .grad) (calculate := weightedAverage s') ?_ ha⟩
    simp only [List.mem_cons, List.not_mem_nil, or_false] at h
    rcases h with rfl | rfl | rfl | rfl <;> rfl)

/-- C262 with derived curves: a bootstrapped run on the forecast direction completes if all forecast winds blow from the west. -/
theorem C262_directions_curves (etb : List PyNum → List PyNum → PyNum) (s : BootSettings)
    (ha : 0 ≤ s.alpha ∧ s.alpha ≤ 1) (draws₁ draws₂ : ℕ → ℕ → List (List ℕ))
    (k : ℕ) (hk : 0 < k) (hdraw : ∀ i n, IndexMatrix n k (draws₁ i n)) (R : OneAxisRun f p init sv parts fix fv sts rest)
    (key : List Val → String) (hkey : ∀ r ∈ f.rows, IsCaseKey f p.indyVar true r (key r))
    (hindy : CaseFixesIndependent f p.indyVar key) (htime : CaseFixesTime f key)
    (hread : ∀ x ∈ init ++ [sv], ∀ v ∈ x.2, ∀ w ∈ parts v, ReadAlike w) (hcurves : PlainOrSigCurves s (p.config p.axis₁))
    (hn : ∀ as i st, List.Forall₂ (fun x q => x ∈ q.2) as (init ++ [sv]) → i ∈ p.indyVals → st ∈ p.axis₁.stats →
      ((comparedRows f (init ++ [sv]) parts fix fv p.indyVar key as i st).map (caseOf f)).Nodup)
    (pairs : List Val → List WindPair) (L : WindLines vl1l2Columns f pairs)
    (hw : ∀ r ∈ f.rows, ∀ w ∈ pairs r, 1 / 10 ^ 5 ≤ w.uf) (hs : ∀ st ∈ p.axis₁.stats, lower st = "vcnt_fdir") :
    ∃ out, bootRun (directionPrepared f) etb s draws₁ draws₂ f p = .ok out :=
  C262_sig_curves_partial _ etb s ha draws₁ draws₂ k hk hdraw R key hkey hindy htime hread hcurves hn (fun st hst zs z1 z2 => by
    rw [hs st hst]
    obtain ⟨v, hv⟩ := direction_exists L z1 z2 (st := "vcnt_fdir") (by simp)
    have hd := (direction_value L (List.Perm.refl _) z1 z2 hv).fdir rfl
    have hpool : zs.flatMap pairs ≠ [] := by
      obtain ⟨r, hr⟩ := List.exists_mem_of_ne_nil _ z1
      intro h0
      have := List.flatMap_eq_nil_iff.mp h0 r hr
      exact L.batch r (z2 r hr) this
    have havg : 1 / 10 ^ 5 ≤ avg WindPair.uf (zs.flatMap pairs) := by
      have hl : (0 : ℚ) < (zs.flatMap pairs).length := by
        exact_mod_cast List.length_pos_iff.mpr hpool
      have hsum : ∀ l : List WindPair, (∀ w ∈ l, 1 / 10 ^ 5 ≤ w.uf) → (l.length : ℚ) * (1 / 10 ^ 5) ≤ (l.map WindPair.uf).sum := by
        intro l
        induction l with
        | nil => intro _; simp
        | cons w l ih =>
          intro hl
          have h1 := ih (fun w hw => hl w (List.mem_cons_of_mem _ hw))
          have h2 := hl w (by simp)
          simp only [List.map_cons, List.sum_cons, List.length_cons]
          push_cast
          linarith
      unfold avg
      rw [le_div_iff₀ hl]
      have := hsum (zs.flatMap pairs) (by
        intro w hw'
        obtain ⟨r, hr, hw'⟩ := List.mem_flatMap.mp hw'
        exact hw r (z2 r hr) w hw')
      linarith
    obtain ⟨q, hq, -⟩ := hd.wind (by
      rintro ⟨h1, -⟩
      have := le_abs_self (avg WindPair.uf (zs.flatMap pairs))
      linarith)
    exact ⟨q, by rw [hv, hq]⟩)

end

/-! ### Examples -/

/-- The difference of both models. -/
def exCurveParams (stat : String) : AggParams :=
  { exSlParams with
    axis₁ := ⟨[("model", ["A", "B"])], [stat], [["A TMP " ++ stat, "B TMP " ++ stat, "DIFF"]], [("TMP", [stat])]⟩ }

section
variable {cols : List String} {stat : String} {l : List (String × String × List ℚ)}

theorem exCurve_input (I : OneAxisRun (exLines cols stat l) (exLinesParams stat) [] ("model", ["A", "B"]) (fun v => [v]) []
    "TMP" [stat] []) :
    OneAxisRun (exLines cols stat l) (exCurveParams stat) [] ("model", ["A", "B"]) (fun v => [v]) [] "TMP" [stat] [] :=
  { input := I.input
    forecast := I.forecast
    statistic := I.statistic
    on := rfl
    series := rfl
    second := rfl
    fixed := rfl
    names := I.names
    columns := I.columns
    groups := I.groups
    texts := I.texts
    fcst := rfl
    pairs := I.pairs
    stats := I.stats
    indy := I.indy
    somestat := I.somestat
    distinct := I.distinct
    plain := I.plain }

theorem exCurve_lead : ∀ r ∈ (exLines cols stat l).rows, ∀ v, HasCell (exLines cols stat l) r "fcst_lead" v → v = .num 6 "6" := by
  intro r hr v hv
  obtain ⟨q, hq, rfl⟩ := List.mem_map.mp hr
  obtain ⟨j, hj1, hj2, hj3⟩ := hv
  have : j = 1 := by
    rcases lt_trichotomy j 1 with hlt | heq | hgt
    · obtain rfl : j = 0 := by omega
      simp [exLines] at hj1
    · exact heq
    · exact absurd rfl (hj2 1 hgt)
  subst this
  simpa using hj3.symm

theorem exCurve_indy (I : OneAxisRun (exLines cols stat l) (exLinesParams stat) [] ("model", ["A", "B"]) (fun v => [v]) []
    "TMP" [stat] []) : CaseFixesIndependent (exLines cols stat l) "fcst_lead" exRunKey :=
  C201_case_fixes_independent "fcst_lead" exRunKey I.input (exLines_key _ _ _) (Or.inl rfl)
    (fun r hr v hv => by rw [exCurve_lead r hr v hv]; decide)
    (fun r hr r' hr' v v' hv hv' _ => by rw [exCurve_lead r hr v hv, exCurve_lead r' hr' v' hv'])

theorem exCurve_once
    (hn : ∀ m ∈ ["A", "B"], (((exLines cols stat l).rows.filter (fun r => cellAt r 2 == .str m)).map
      (caseOf (exLines cols stat l))).Nodup) :
    ∀ as i st, List.Forall₂ (fun x (q : String × List String) => x ∈ q.2) as ([] ++ [("model", ["A", "B"])]) →
      i ∈ (exCurveParams stat).indyVals → st ∈ (exCurveParams stat).axis₁.stats →
      ((comparedRows (exLines cols stat l) ([] ++ [("model", ["A", "B"])]) (fun v => [v]) [] "TMP" (exCurveParams stat).indyVar
        exRunKey as i st).map (caseOf (exLines cols stat l))).Nodup := by
  classical
  intro as i st ha hi hst
  obtain ⟨m, rfl, hm⟩ : ∃ m, as = [m] ∧ m ∈ ["A", "B"] := by
    cases ha with
    | cons h1 h2 => cases h2; exact ⟨_, rfl, h1⟩
  refine List.Nodup.sublist (List.Sublist.map _ ?_) (hn m hm)
  unfold comparedRows
  apply List.monotone_filter_right
  intro r hr
  simp only [decide_eq_true_eq] at hr
  obtain ⟨⟨hr, -⟩, -⟩ := hr
  obtain ⟨v, hv, hc⟩ := hr ("model", m) (by simp [pointRequest]) (by simp [exLines])
  have hm' : ':' ∉ m.toList ∧ ';' ∉ m.toList ∧ PlainText m := by
    simp only [List.mem_cons, List.not_mem_nil, or_false] at hm
    rcases hm with rfl | rfl
    · exact ⟨by decide, by decide, plainText_of (by decide) (by decide) (by decide)⟩
    · exact ⟨by decide, by decide, plainText_of (by decide) (by decide) (by decide)⟩
  obtain ⟨w', hw', rfl⟩ := (cellAmong_text (plain_standsFor hm'.1 hm'.2.1) (by simpa using hm'.2.2)).mp hc
  obtain rfl : w' = m := by simpa using hw'
  obtain ⟨j, hj1, hj2, hj3⟩ := hv
  have : j = 2 := by
    rcases lt_trichotomy j 2 with hlt | heq | hgt
    · obtain rfl | rfl : j = 0 ∨ j = 1 := by omega
      · simp [exLines] at hj1
      · simp [exLines] at hj1
    · exact heq
    · exact absurd rfl (hj2 2 hgt)
  subst this
  unfold cellAt
  rw [hj3]
  simp

/-- The name of the curve. -/
def exCurveName (stat : String) : String := "DIFF(A TMP " ++ stat ++ "-B TMP " ++ stat ++ ")"

theorem exCurve_plainCurves (C : CurveRequest ((exCurveParams stat).config (exCurveParams stat).axis₁) [] [] ["TMP"] "A" "B" stat
    ("A TMP " ++ stat) ("B TMP " ++ stat) "DIFF" (exCurveName stat)) (hs : ':' ∉ stat.toList)
    (hn : ':' ∉ (exCurveName stat).toList) :
    PlainCurves ((exCurveParams stat).config (exCurveParams stat).axis₁) := by
  intro d hd
  obtain rfl : d = ["A TMP " ++ stat, "B TMP " ++ stat, "DIFF"] := by simpa [exCurveParams, AggParams.config] using hd
  refine ⟨[], [], ["TMP"], "A", "B", stat, _, _, _, _, rfl, C, Or.inr ⟨rfl, ?_⟩⟩
  intro z hz
  have hz' : z ∈ ["A", "B", "TMP", "6", stat, exCurveName stat] := by
    simpa [exCurveParams, exSlParams, exRunParams, AggParams.config] using hz
  simp only [List.mem_cons, List.not_mem_nil, or_false] at hz'
  rcases hz' with rfl | rfl | rfl | rfl | rfl | rfl
  · decide
  · decide
  · decide
  · decide
  · exact hs
  · exact hn

theorem exCurve_plain (C : CurveRequest ((exCurveParams stat).config (exCurveParams stat).axis₁) [] [] ["TMP"] "A" "B" stat
    ("A TMP " ++ stat) ("B TMP " ++ stat) "DIFF" (exCurveName stat)) (hs : ':' ∉ stat.toList)
    (hn : ':' ∉ (exCurveName stat).toList) {s : BootSettings} :
    PlainOrSigCurves s ((exCurveParams stat).config (exCurveParams stat).axis₁) := (exCurve_plainCurves C hs hn).orSig s

end

theorem exCurveSl_curve : CurveRequest ((exCurveParams "RMSE").config (exCurveParams "RMSE").axis₁) [] [] ["TMP"] "A" "B"
    "RMSE" ("A TMP " ++ "RMSE") ("B TMP " ++ "RMSE") "DIFF" (exCurveName "RMSE") where
  operation := Or.inl rfl
  requested := by decide
  named := by decide +kernel
  only := by decide +kernel
  first := by unfold SeriesText; decide +kernel
  second := by unfold SeriesText; decide +kernel
  differs := ⟨[], "model", ["A", "B"], [], rfl, .nil, .nil, by decide, by decide, Or.inr rfl⟩
  disjoint := by decide
  groups := by decide

theorem exCurveSl_time : CaseFixesTime (exRootSl "RMSE") exRunKey := by
  unfold CaseFixesTime
  decide +kernel

example : ∃ out, bootRun (rootPrepared .fields (exRootSl "RMSE")) (fun _ _ => .none) ⟨1 / 2, .perc, true⟩ threeDraws threeDraws
    (exRootSl "RMSE") (exCurveParams "RMSE") = .ok out ∧ out ≠ [] ∧
    ShowsCurves (exRootSl "RMSE") (exCurveParams "RMSE") [("model", ["A", "B"])] (fun v => [v]) [] "TMP" exRunKey 3
      ⟨1 / 2, .perc, true⟩ (fun s rows v => RootScore s (rows.flatMap exRootPairs) v) out := by
  have R := exCurve_input exRootSl_input
  obtain ⟨out, h⟩ := C262_rmse_curves (fun _ _ => .none) ⟨1 / 2, .perc, true⟩ (by norm_num) threeDraws threeDraws 3 (by decide)
    threeDraws_ok R exRunKey (exLines_key _ _ _) (exCurve_indy exRootSl_input) exCurveSl_time exSl_read
    (exCurve_plain exCurveSl_curve (by decide) (by decide +kernel)) (exCurve_once (by decide +kernel)) exRootPairs exRootSl_lines (by decide +kernel)
  have hne := boot_nonempty _ _ _ _ _ 3 threeDraws_ok _ R
    (fun st hst _ z1 z2 => exists_not_keyError (sl_root_exists exRootSl_lines z1 z2 (by
      rw [List.mem_singleton.mp hst]; decide +kernel))) h _ rfl rfl (by decide +kernel) (by decide +kernel)
    ["A", "6", "RMSE"] (.cons (by decide) (.cons (by decide) (.cons (by decide) .nil)))
  exact ⟨out, h, hne, C261_roots _ _ _ _ 3 threeDraws_ok (by simp) out R exRunKey (exLines_key _ _ _)
    (exCurve_indy exRootSl_input) exCurveSl_time exSl_read exRootPairs exRootSl_lines (by decide +kernel) h hne⟩

/-- The same with the significance of the difference. -/
def exSigRmse : AggParams :=
  { exSlParams with
    axis₁ := ⟨[("model", ["A", "B"])], ["RMSE"], [["A TMP RMSE", "B TMP RMSE", "DIFF_SIG"]], [("TMP", ["RMSE"])]⟩ }

theorem exSigRmse_input : OneAxisRun (exRootSl "RMSE") exSigRmse [] ("model", ["A", "B"]) (fun v => [v]) [] "TMP" ["RMSE"] [] :=
  let I := exCurve_input exRootSl_input
  { input := I.input
    forecast := I.forecast
    statistic := I.statistic
    on := rfl
    series := rfl
    second := rfl
    fixed := rfl
    names := I.names
    columns := I.columns
    groups := I.groups
    texts := I.texts
    fcst := rfl
    pairs := I.pairs
    stats := I.stats
    indy := I.indy
    somestat := I.somestat
    distinct := I.distinct
    plain := I.plain }

theorem exSigRmse_curve : CurveNamed (exSigRmse.config exSigRmse.axis₁) [] [] ["TMP"] "A" "B" "RMSE" "A TMP RMSE" "B TMP RMSE"
    "DIFF_SIG" "DIFF_SIG(A TMP RMSE-B TMP RMSE)" where
  requested := by decide
  named := by decide +kernel
  only := by decide +kernel
  first := by unfold SeriesText; decide +kernel
  second := by unfold SeriesText; decide +kernel
  differs := ⟨[], "model", ["A", "B"], [], rfl, .nil, .nil, by decide, by decide, Or.inr rfl⟩
  disjoint := by decide
  groups := by decide

example : ∃ out, bootRun (rootPrepared .fields (exRootSl "RMSE")) (fun _ _ => .none) ⟨1 / 2, .pivotal, true⟩ threeDraws threeDraws
    (exRootSl "RMSE") exSigRmse = .ok out :=
  C262_rmse_curves (fun _ _ => .none) ⟨1 / 2, .pivotal, true⟩ (by norm_num) threeDraws threeDraws 3 (by decide)
    threeDraws_ok exSigRmse_input exRunKey (exLines_key _ _ _) (exCurve_indy exRootSl_input) exCurveSl_time exSl_read (by
      intro d hd
      obtain rfl : d = ["A TMP RMSE", "B TMP RMSE", "DIFF_SIG"] := by simpa [exSigRmse, AggParams.config] using hd
      exact ⟨[], [], ["TMP"], "A", "B", "RMSE", _, _, _, _, rfl, exSigRmse_curve,
        Or.inr ⟨Or.inr ⟨rfl, by decide⟩, by decide +kernel⟩⟩)
    (exCurve_once (by decide +kernel)) exRootPairs exRootSl_lines (by decide +kernel)

theorem exCurveSal_curve : CurveRequest ((exCurveParams "RMSFA").config (exCurveParams "RMSFA").axis₁) [] [] ["TMP"] "A" "B"
    "RMSFA" ("A TMP " ++ "RMSFA") ("B TMP " ++ "RMSFA") "DIFF" (exCurveName "RMSFA") where
  operation := Or.inl rfl
  requested := by decide
  named := by decide +kernel
  only := by decide +kernel
  first := by unfold SeriesText; decide +kernel
  second := by unfold SeriesText; decide +kernel
  differs := ⟨[], "model", ["A", "B"], [], rfl, .nil, .nil, by decide, by decide, Or.inr rfl⟩
  disjoint := by decide
  groups := by decide

theorem exCurveSal_time : CaseFixesTime exBootSal exRunKey := by
  unfold CaseFixesTime
  decide +kernel

example : ∃ out, bootRun (rootPrepared .fields exBootSal) (fun _ _ => .none) ⟨1 / 2, .perc, true⟩ threeDraws threeDraws
    exBootSal (exCurveParams "RMSFA") = .ok out ∧ out ≠ [] ∧
    ShowsCurves exBootSal (exCurveParams "RMSFA") [("model", ["A", "B"])] (fun v => [v]) [] "TMP" exRunKey 3
      ⟨1 / 2, .perc, true⟩ (fun s rows v => AnomalyScore s (rows.flatMap exRootPairs) v) out := by
  have R := exCurve_input exBootSal_input
  obtain ⟨out, h⟩ := C262_anomalies_curves (fun _ _ => .none) ⟨1 / 2, .perc, true⟩ (by norm_num) threeDraws threeDraws 3 (by decide)
    threeDraws_ok R exRunKey (exLines_key _ _ _) (exCurve_indy exBootSal_input) exCurveSal_time exSl_read
    (exCurve_plain exCurveSal_curve (by decide) (by decide +kernel)) (exCurve_once (by decide +kernel)) exRootPairs exBootSal_lines (by decide +kernel)
  have hne := boot_nonempty _ _ _ _ _ 3 threeDraws_ok _ R
    (fun st hst _ z1 z2 => exists_not_keyError (sal_root_exists exBootSal_lines z1 z2 (by
      rw [List.mem_singleton.mp hst]; decide +kernel))) h _ rfl rfl (by decide +kernel) (by decide +kernel)
    ["A", "6", "RMSFA"] (.cons (by decide) (.cons (by decide) (.cons (by decide) .nil)))
  exact ⟨out, h, hne, C261_anomalies _ _ _ _ 3 threeDraws_ok (by simp) out R exRunKey (exLines_key _ _ _)
    (exCurve_indy exBootSal_input) exCurveSal_time exSl_read exRootPairs exBootSal_lines (by decide +kernel) h hne⟩

theorem exCurveVl_curve : CurveRequest ((exCurveParams "VL1L2_RMSVE").config (exCurveParams "VL1L2_RMSVE").axis₁) [] [] ["TMP"] "A" "B"
    "VL1L2_RMSVE" ("A TMP " ++ "VL1L2_RMSVE") ("B TMP " ++ "VL1L2_RMSVE") "DIFF" (exCurveName "VL1L2_RMSVE") where
  operation := Or.inl rfl
  requested := by decide
  named := by decide +kernel
  only := by decide +kernel
  first := by unfold SeriesText; decide +kernel
  second := by unfold SeriesText; decide +kernel
  differs := ⟨[], "model", ["A", "B"], [], rfl, .nil, .nil, by decide, by decide, Or.inr rfl⟩
  disjoint := by decide
  groups := by decide

theorem exCurveVl_time : CaseFixesTime exRootVl exRunKey := by
  unfold CaseFixesTime
  decide +kernel

example : ∃ out, bootRun (rootPrepared .fields exRootVl) (fun _ _ => .none) ⟨1 / 2, .perc, true⟩ threeDraws threeDraws
    exRootVl (exCurveParams "VL1L2_RMSVE") = .ok out ∧ out ≠ [] ∧
    ShowsCurves exRootVl (exCurveParams "VL1L2_RMSVE") [("model", ["A", "B"])] (fun v => [v]) [] "TMP" exRunKey 3
      ⟨1 / 2, .perc, true⟩ (fun s rows v => WindScore s (rows.flatMap exRootWinds) v) out := by
  have R := exCurve_input exRootVl_input
  obtain ⟨out, h⟩ := C262_winds_curves (fun _ _ => .none) ⟨1 / 2, .perc, true⟩ (by norm_num) threeDraws threeDraws 3 (by decide)
    threeDraws_ok R exRunKey (exLines_key _ _ _) (exCurve_indy exRootVl_input) exCurveVl_time exSl_read
    (exCurve_plain exCurveVl_curve (by decide) (by decide +kernel)) (exCurve_once (by decide +kernel)) exRootWinds exRootVl_lines (by decide +kernel)
  have hne := boot_nonempty _ _ _ _ _ 3 threeDraws_ok _ R
    (fun st hst _ z1 z2 => exists_not_keyError (wind_root_exists exRootVl_lines z1 z2 (by
      rw [List.mem_singleton.mp hst]; decide +kernel))) h _ rfl rfl (by decide +kernel) (by decide +kernel)
    ["A", "6", "VL1L2_RMSVE"] (.cons (by decide) (.cons (by decide) (.cons (by decide) .nil)))
  exact ⟨out, h, hne, C261_winds _ _ _ _ 3 threeDraws_ok (by simp) out R exRunKey (exLines_key _ _ _)
    (exCurve_indy exRootVl_input) exCurveVl_time exSl_read exRootWinds exRootVl_lines (by decide +kernel) h hne⟩

theorem exCurveEcnt_curve : CurveRequest ((exCurveParams "ECNT_RMSE").config (exCurveParams "ECNT_RMSE").axis₁) [] [] ["TMP"] "A" "B"
    "ECNT_RMSE" ("A TMP " ++ "ECNT_RMSE") ("B TMP " ++ "ECNT_RMSE") "DIFF" (exCurveName "ECNT_RMSE") where
  operation := Or.inl rfl
  requested := by decide
  named := by decide +kernel
  only := by decide +kernel
  first := by unfold SeriesText; decide +kernel
  second := by unfold SeriesText; decide +kernel
  differs := ⟨[], "model", ["A", "B"], [], rfl, .nil, .nil, by decide, by decide, Or.inr rfl⟩
  disjoint := by decide
  groups := by decide

theorem exCurveEcnt_time : CaseFixesTime exRootEcnt exRunKey := by
  unfold CaseFixesTime
  decide +kernel

example : ∃ out, bootRun (rootPrepared .ecnt exRootEcnt) (fun _ _ => .none) ⟨1 / 2, .perc, true⟩ threeDraws threeDraws
    exRootEcnt (exCurveParams "ECNT_RMSE") = .ok out ∧ out ≠ [] ∧
    ShowsCurves exRootEcnt (exCurveParams "ECNT_RMSE") [("model", ["A", "B"])] (fun v => [v]) [] "TMP" exRunKey 3
      ⟨1 / 2, .perc, true⟩ (EcntRootScore (exNum 5) exEcntField) out := by
  have R := exCurve_input exRootEcnt_input
  obtain ⟨out, h⟩ := C262_ensembles_curves (fun _ _ => .none) ⟨1 / 2, .perc, true⟩ (by norm_num) threeDraws threeDraws 3 (by decide)
    threeDraws_ok R exRunKey (exLines_key _ _ _) (exCurve_indy exRootEcnt_input) exCurveEcnt_time exSl_read
    (exCurve_plain exCurveEcnt_curve (by decide) (by decide +kernel)) (exCurve_once (by decide +kernel)) _ _ exRootEcnt_lines (by decide +kernel)
  have hne := boot_nonempty _ _ _ _ _ 3 threeDraws_ok _ R
    (fun st hst _ z1 z2 => exists_not_keyError (by
      rw [List.mem_singleton.mp hst]
      exact ⟨_, ecnt_roots exRootEcnt_input.input.wf exRootEcnt_lines (List.Perm.refl _) z1 z2 (c := "rmse") (by simp)⟩)) h _ rfl rfl (by decide +kernel) (by decide +kernel)
    ["A", "6", "ECNT_RMSE"] (.cons (by decide) (.cons (by decide) (.cons (by decide) .nil)))
  exact ⟨out, h, hne, C261_ensembles _ _ _ _ 3 threeDraws_ok (by simp) out R exRunKey (exLines_key _ _ _)
    (exCurve_indy exRootEcnt_input) exCurveEcnt_time exSl_read _ _ exRootEcnt_lines (by decide +kernel) h hne⟩

theorem exCurveSpread_curve : CurveRequest ((exCurveParams "SSVAR_RMSE").config (exCurveParams "SSVAR_RMSE").axis₁) [] [] ["TMP"] "A" "B"
    "SSVAR_RMSE" ("A TMP " ++ "SSVAR_RMSE") ("B TMP " ++ "SSVAR_RMSE") "DIFF" (exCurveName "SSVAR_RMSE") where
  operation := Or.inl rfl
  requested := by decide
  named := by decide +kernel
  only := by decide +kernel
  first := by unfold SeriesText; decide +kernel
  second := by unfold SeriesText; decide +kernel
  differs := ⟨[], "model", ["A", "B"], [], rfl, .nil, .nil, by decide, by decide, Or.inr rfl⟩
  disjoint := by decide
  groups := by decide

theorem exCurveSpread_time : CaseFixesTime (exSpread "SSVAR_RMSE") exRunKey := by
  unfold CaseFixesTime
  decide +kernel

example : ∃ out, bootRun (spreadPrepared (exSpread "SSVAR_RMSE")) (fun _ _ => .none) ⟨1 / 2, .perc, true⟩ threeDraws threeDraws
    (exSpread "SSVAR_RMSE") (exCurveParams "SSVAR_RMSE") = .ok out ∧ out ≠ [] ∧
    ShowsCurves (exSpread "SSVAR_RMSE") (exCurveParams "SSVAR_RMSE") [("model", ["A", "B"])] (fun v => [v]) [] "TMP" exRunKey 3
      ⟨1 / 2, .perc, true⟩ (fun s rows v => SpreadScore s (rows.flatMap exSpreadPoints) v) out := by
  have R := exCurve_input (exSpread_input "SSVAR_RMSE" (by decide))
  obtain ⟨out, h⟩ := C262_spread_curves (fun _ _ => .none) ⟨1 / 2, .perc, true⟩ (by norm_num) threeDraws threeDraws 3 (by decide)
    threeDraws_ok R exRunKey (exLines_key _ _ _) (exCurve_indy (exSpread_input "SSVAR_RMSE" (by decide))) exCurveSpread_time exSl_read
    (exCurve_plain exCurveSpread_curve (by decide) (by decide +kernel)) (exCurve_once (by decide +kernel)) exSpreadPoints (exSpread_lines "SSVAR_RMSE" (by decide)) (by decide +kernel)
  have hne := boot_nonempty _ _ _ _ _ 3 threeDraws_ok _ R
    (fun st hst _ z1 z2 => exists_not_keyError (spread_exists (exSpread_lines "SSVAR_RMSE" (by decide)) z1 z2 (by
      rw [List.mem_singleton.mp hst]; decide +kernel))) h _ rfl rfl (by decide +kernel) (by decide +kernel)
    ["A", "6", "SSVAR_RMSE"] (.cons (by decide) (.cons (by decide) (.cons (by decide) .nil)))
  exact ⟨out, h, hne, C261_spread _ _ _ _ 3 threeDraws_ok (by simp) out R exRunKey (exLines_key _ _ _)
    (exCurve_indy (exSpread_input "SSVAR_RMSE" (by decide))) exCurveSpread_time exSl_read exSpreadPoints (exSpread_lines "SSVAR_RMSE" (by decide)) (by decide +kernel) h hne⟩

theorem exCurveDir_curve : CurveRequest ((exCurveParams "VCNT_FDIR").config (exCurveParams "VCNT_FDIR").axis₁) [] [] ["TMP"] "A" "B"
    "VCNT_FDIR" ("A TMP " ++ "VCNT_FDIR") ("B TMP " ++ "VCNT_FDIR") "DIFF" (exCurveName "VCNT_FDIR") where
  operation := Or.inl rfl
  requested := by decide
  named := by decide +kernel
  only := by decide +kernel
  first := by unfold SeriesText; decide +kernel
  second := by unfold SeriesText; decide +kernel
  differs := ⟨[], "model", ["A", "B"], [], rfl, .nil, .nil, by decide, by decide, Or.inr rfl⟩
  disjoint := by decide
  groups := by decide

theorem exCurveDir_time : CaseFixesTime exDirLines exRunKey := by
  unfold CaseFixesTime
  decide +kernel

example : ∃ out, bootRun (directionPrepared exDirLines) (fun _ _ => .none) ⟨1 / 2, .perc, true⟩ threeDraws threeDraws
    exDirLines (exCurveParams "VCNT_FDIR") = .ok out ∧ out ≠ [] ∧
    ShowsCurves exDirLines (exCurveParams "VCNT_FDIR") [("model", ["A", "B"])] (fun v => [v]) [] "TMP" exRunKey 3
      ⟨1 / 2, .perc, true⟩ (fun s rows v => DirectionScore s (rows.flatMap exDirWinds) v) out := by
  have R := exCurve_input exDirLines_input
  obtain ⟨out, h⟩ := C262_directions_curves (fun _ _ => .none) ⟨1 / 2, .perc, true⟩ (by norm_num) threeDraws threeDraws 3 (by decide)
    threeDraws_ok R exRunKey (exLines_key _ _ _) (exCurve_indy exDirLines_input) exCurveDir_time exSl_read
    (exCurve_plain exCurveDir_curve (by decide) (by decide +kernel)) (exCurve_once (by decide +kernel)) _ exDirLines_lines (by decide +kernel) (by decide +kernel)
  have hne := boot_nonempty _ _ _ _ _ 3 threeDraws_ok _ R
    (fun st hst _ z1 z2 => exists_not_keyError (direction_exists exDirLines_lines z1 z2 (by
      rw [List.mem_singleton.mp hst]; decide +kernel))) h _ rfl rfl (by decide +kernel) (by decide +kernel)
    ["A", "6", "VCNT_FDIR"] (.cons (by decide) (.cons (by decide) (.cons (by decide) .nil)))
  exact ⟨out, h, hne, C261_directions _ _ _ _ 3 threeDraws_ok (by simp) out R exRunKey (exLines_key _ _ _)
    (exCurve_indy exDirLines_input) exCurveDir_time exSl_read exDirWinds exDirLines_lines (by decide +kernel) h hne⟩

theorem exCurveCrps_curve : CurveRequest ((exCurveParams "ECNT_CRPS").config (exCurveParams "ECNT_CRPS").axis₁) [] [] ["TMP"] "A" "B"
    "ECNT_CRPS" ("A TMP " ++ "ECNT_CRPS") ("B TMP " ++ "ECNT_CRPS") "DIFF" (exCurveName "ECNT_CRPS") where
  operation := Or.inl rfl
  requested := by decide
  named := by decide +kernel
  only := by decide +kernel
  first := by unfold SeriesText; decide +kernel
  second := by unfold SeriesText; decide +kernel
  differs := ⟨[], "model", ["A", "B"], [], rfl, .nil, .nil, by decide, by decide, Or.inr rfl⟩
  disjoint := by decide
  groups := by decide

theorem exCurveCrps_time : CaseFixesTime exBootEcnt exRunKey := by
  unfold CaseFixesTime
  decide +kernel

theorem exCurveCrps_input : OneAxisRun exBootEcnt (exLinesParams "ECNT_CRPS") [] ("model", ["A", "B"]) (fun v => [v]) [] "TMP" ["ECNT_CRPS"] [] :=
  exLines_input (by unfold FrameWF; decide +kernel) (by decide)
    ⟨by decide, by decide, plainText_of (by decide) (by decide) (by decide)⟩ (by decide +kernel)

example : ∃ out, bootRun (ensemblePrepared .ecnt exBootEcnt) (fun _ _ => .none) ⟨1 / 2, .perc, false⟩ threeDraws threeDraws
    exBootEcnt (exCurveParams "ECNT_CRPS") = .ok out ∧ out ≠ [] ∧
    ShowsCurves exBootEcnt (exCurveParams "ECNT_CRPS") [("model", ["A", "B"])] (fun v => [v]) [] "TMP" exRunKey 3
      ⟨1 / 2, .perc, false⟩ (EcntScore (exNum 5) exEcntField) out := by
  obtain ⟨out, h, hne⟩ := of_points (a := ["A", "6", "ECNT_CRPS"]) (l := [["B", "6", "ECNT_CRPS"], [exCurveName "ECNT_CRPS", "6", "ECNT_CRPS"]])
    (show (bootRun (ensemblePrepared .ecnt exBootEcnt) (fun _ _ => .none) ⟨1 / 2, .perc, false⟩ threeDraws threeDraws
      exBootEcnt (exCurveParams "ECNT_CRPS")).map (List.map BootOut.point) = _ by decide +kernel)
  exact ⟨out, h, hne, C261_ecnt _ _ _ _ 3 threeDraws_ok (by simp) out (exCurve_input exCurveCrps_input) exRunKey (exLines_key _ _ _)
    (exCurve_indy exCurveCrps_input) exCurveCrps_time exSl_read _ _ exBootEcnt_lines (fun st hst => ⟨"crps", by simp, by rw [List.mem_singleton.mp hst]; decide +kernel⟩) h hne⟩

example := C262_ecnt_curves (fun _ _ => .none) ⟨1 / 2, .pivotal, true⟩ (by norm_num) threeDraws threeDraws 3 (by decide)
    threeDraws_ok (exCurve_input exCurveCrps_input) exRunKey (exLines_key _ _ _) (exCurve_indy exCurveCrps_input) exCurveCrps_time exSl_read
    (exCurve_plain exCurveCrps_curve (by decide) (by decide +kernel)) (exCurve_once (by decide +kernel)) _ _ exBootEcnt_lines (fun st hst => ⟨"crps", by simp, by rw [List.mem_singleton.mp hst]; decide +kernel⟩)

theorem exCurveNbr_curve : CurveRequest ((exCurveParams "NBR_FBS").config (exCurveParams "NBR_FBS").axis₁) [] [] ["TMP"] "A" "B"
    "NBR_FBS" ("A TMP " ++ "NBR_FBS") ("B TMP " ++ "NBR_FBS") "DIFF" (exCurveName "NBR_FBS") where
  operation := Or.inl rfl
  requested := by decide
  named := by decide +kernel
  only := by decide +kernel
  first := by unfold SeriesText; decide +kernel
  second := by unfold SeriesText; decide +kernel
  differs := ⟨[], "model", ["A", "B"], [], rfl, .nil, .nil, by decide, by decide, Or.inr rfl⟩
  disjoint := by decide
  groups := by decide

theorem exCurveNbr_time : CaseFixesTime exBootNbr exRunKey := by
  unfold CaseFixesTime
  decide +kernel

theorem exCurveNbr_input : OneAxisRun exBootNbr (exLinesParams "NBR_FBS") [] ("model", ["A", "B"]) (fun v => [v]) [] "TMP" ["NBR_FBS"] [] :=
  exLines_input (by unfold FrameWF; decide +kernel) (by decide)
    ⟨by decide, by decide, plainText_of (by decide) (by decide) (by decide)⟩ (by decide +kernel)

example : ∃ out, bootRun (ensemblePrepared .nbrCnt exBootNbr) (fun _ _ => .none) ⟨1 / 2, .perc, false⟩ threeDraws threeDraws
    exBootNbr (exCurveParams "NBR_FBS") = .ok out ∧ out ≠ [] ∧
    ShowsCurves exBootNbr (exCurveParams "NBR_FBS") [("model", ["A", "B"])] (fun v => [v]) [] "TMP" exRunKey 3
      ⟨1 / 2, .perc, false⟩ (NbrCntScore (exNum 5) (exNum 6) (fun r => exNum 6 r / (1 - exNum 7 r)) (exNum 8)) out := by
  obtain ⟨out, h, hne⟩ := of_points (a := ["A", "6", "NBR_FBS"]) (l := [["B", "6", "NBR_FBS"], [exCurveName "NBR_FBS", "6", "NBR_FBS"]])
    (show (bootRun (ensemblePrepared .nbrCnt exBootNbr) (fun _ _ => .none) ⟨1 / 2, .perc, false⟩ threeDraws threeDraws
      exBootNbr (exCurveParams "NBR_FBS")).map (List.map BootOut.point) = _ by decide +kernel)
  exact ⟨out, h, hne, C261_nbrcnt _ _ _ _ 3 threeDraws_ok (by simp) out (exCurve_input exCurveNbr_input) exRunKey (exLines_key _ _ _)
    (exCurve_indy exCurveNbr_input) exCurveNbr_time exSl_read _ _ _ _ _ exBootNbr_lines (by decide +kernel) h hne⟩

example := C262_nbrcnt_curves (fun _ _ => .none) ⟨1 / 2, .pivotal, true⟩ (by norm_num) threeDraws threeDraws 3 (by decide)
    threeDraws_ok (exCurve_input exCurveNbr_input) exRunKey (exLines_key _ _ _) (exCurve_indy exCurveNbr_input) exCurveNbr_time exSl_read
    (exCurve_plain exCurveNbr_curve (by decide) (by decide +kernel)) (exCurve_once (by decide +kernel)) _ _ _ _ _ exBootNbr_lines (by decide +kernel)

theorem exCurveRps_curve : CurveRequest ((exCurveParams "RPS").config (exCurveParams "RPS").axis₁) [] [] ["TMP"] "A" "B"
    "RPS" ("A TMP " ++ "RPS") ("B TMP " ++ "RPS") "DIFF" (exCurveName "RPS") where
  operation := Or.inl rfl
  requested := by decide
  named := by decide +kernel
  only := by decide +kernel
  first := by unfold SeriesText; decide +kernel
  second := by unfold SeriesText; decide +kernel
  differs := ⟨[], "model", ["A", "B"], [], rfl, .nil, .nil, by decide, by decide, Or.inr rfl⟩
  disjoint := by decide
  groups := by decide

theorem exCurveRps_time : CaseFixesTime exBootRps exRunKey := by
  unfold CaseFixesTime
  decide +kernel

theorem exCurveRps_input : OneAxisRun exBootRps (exLinesParams "RPS") [] ("model", ["A", "B"]) (fun v => [v]) [] "TMP" ["RPS"] [] :=
  exLines_input (by unfold FrameWF; decide +kernel) (by decide)
    ⟨by decide, by decide, plainText_of (by decide) (by decide) (by decide)⟩ (by decide +kernel)

example : ∃ out, bootRun (ensemblePrepared .rps exBootRps) (fun _ _ => .none) ⟨1 / 2, .perc, false⟩ threeDraws threeDraws
    exBootRps (exCurveParams "RPS") = .ok out ∧ out ≠ [] ∧
    ShowsCurves exBootRps (exCurveParams "RPS") [("model", ["A", "B"])] (fun v => [v]) [] "TMP" exRunKey 3
      ⟨1 / 2, .perc, false⟩ (RpsScore (exNum 5) (exNum 6) (fun r => exNum 6 r / (1 - exNum 7 r)) (exNum 8)) out := by
  obtain ⟨out, h, hne⟩ := of_points (a := ["A", "6", "RPS"]) (l := [["B", "6", "RPS"], [exCurveName "RPS", "6", "RPS"]])
    (show (bootRun (ensemblePrepared .rps exBootRps) (fun _ _ => .none) ⟨1 / 2, .perc, false⟩ threeDraws threeDraws
      exBootRps (exCurveParams "RPS")).map (List.map BootOut.point) = _ by decide +kernel)
  exact ⟨out, h, hne, C261_rps _ _ _ _ 3 threeDraws_ok (by simp) out (exCurve_input exCurveRps_input) exRunKey (exLines_key _ _ _)
    (exCurve_indy exCurveRps_input) exCurveRps_time exSl_read _ _ _ _ exBootRps_lines (by decide +kernel) h hne⟩

example := C262_rps_curves (fun _ _ => .none) ⟨1 / 2, .pivotal, true⟩ (by norm_num) threeDraws threeDraws 3 (by decide)
    threeDraws_ok (exCurve_input exCurveRps_input) exRunKey (exLines_key _ _ _) (exCurve_indy exCurveRps_input) exCurveRps_time exSl_read
    (exCurve_plain exCurveRps_curve (by decide) (by decide +kernel)) (exCurve_once (by decide +kernel)) _ _ _ _ exBootRps_lines (by decide +kernel)

theorem exCurveGrad_curve : CurveRequest ((exCurveParams "EGBAR").config (exCurveParams "EGBAR").axis₁) [] [] ["TMP"] "A" "B"
    "EGBAR" ("A TMP " ++ "EGBAR") ("B TMP " ++ "EGBAR") "DIFF" (exCurveName "EGBAR") where
  operation := Or.inl rfl
  requested := by decide
  named := by decide +kernel
  only := by decide +kernel
  first := by unfold SeriesText; decide +kernel
  second := by unfold SeriesText; decide +kernel
  differs := ⟨[], "model", ["A", "B"], [], rfl, .nil, .nil, by decide, by decide, Or.inr rfl⟩
  disjoint := by decide
  groups := by decide

theorem exCurveGrad_time : CaseFixesTime exBootGrad exRunKey := by
  unfold CaseFixesTime
  decide +kernel

theorem exCurveGrad_input : OneAxisRun exBootGrad (exLinesParams "EGBAR") [] ("model", ["A", "B"]) (fun v => [v]) [] "TMP" ["EGBAR"] [] :=
  exLines_input (by unfold FrameWF; decide +kernel) (by decide)
    ⟨by decide, by decide, plainText_of (by decide) (by decide) (by decide)⟩ (by decide +kernel)

example : ∃ out, bootRun (ensemblePrepared .grad exBootGrad) (fun _ _ => .none) ⟨1 / 2, .perc, false⟩ threeDraws threeDraws
    exBootGrad (exCurveParams "EGBAR") = .ok out ∧ out ≠ [] ∧
    ShowsCurves exBootGrad (exCurveParams "EGBAR") [("model", ["A", "B"])] (fun v => [v]) [] "TMP" exRunKey 3
      ⟨1 / 2, .perc, false⟩ (fun s rows v => GradScore s (rows.flatMap exGradPairs) v) out := by
  obtain ⟨out, h, hne⟩ := of_points (a := ["A", "6", "EGBAR"]) (l := [["B", "6", "EGBAR"], [exCurveName "EGBAR", "6", "EGBAR"]])
    (show (bootRun (ensemblePrepared .grad exBootGrad) (fun _ _ => .none) ⟨1 / 2, .perc, false⟩ threeDraws threeDraws
      exBootGrad (exCurveParams "EGBAR")).map (List.map BootOut.point) = _ by decide +kernel)
  exact ⟨out, h, hne, C261_grad _ _ _ _ 3 threeDraws_ok (by simp) out (exCurve_input exCurveGrad_input) exRunKey (exLines_key _ _ _)
    (exCurve_indy exCurveGrad_input) exCurveGrad_time exSl_read _ exBootGrad_lines (by decide +kernel) h hne⟩

example := C262_grad_curves (fun _ _ => .none) ⟨1 / 2, .pivotal, true⟩ (by norm_num) threeDraws threeDraws 3 (by decide)
    threeDraws_ok (exCurve_input exCurveGrad_input) exRunKey (exLines_key _ _ _) (exCurve_indy exCurveGrad_input) exCurveGrad_time exSl_read
    (exCurve_plain exCurveGrad_curve (by decide) (by decide +kernel)) (exCurve_once (by decide +kernel)) _ exBootGrad_lines (by decide +kernel)

theorem exCurveMctc_curve : CurveRequest ((exCurveParams "MCTS_HSS_EC").config (exCurveParams "MCTS_HSS_EC").axis₁) [] [] ["TMP"] "A" "B"
    "MCTS_HSS_EC" ("A TMP " ++ "MCTS_HSS_EC") ("B TMP " ++ "MCTS_HSS_EC") "DIFF" (exCurveName "MCTS_HSS_EC") where
  operation := Or.inl rfl
  requested := by decide
  named := by decide +kernel
  only := by decide +kernel
  first := by unfold SeriesText; decide +kernel
  second := by unfold SeriesText; decide +kernel
  differs := ⟨[], "model", ["A", "B"], [], rfl, .nil, .nil, by decide, by decide, Or.inr rfl⟩
  disjoint := by decide
  groups := by decide

theorem exCurveMctc_time : CaseFixesTime (exMctc (1/2)) exRunKey := by
  unfold CaseFixesTime
  decide +kernel

example : ∃ out, bootRun (tallyPrepared .mctc (exMctc (1/2))) (fun _ _ => .none) ⟨1 / 2, .perc, false⟩ threeDraws threeDraws
    (exMctc (1/2)) (exCurveParams "MCTS_HSS_EC") = .ok out ∧ out ≠ [] ∧
    ShowsCurves (exMctc (1/2)) (exCurveParams "MCTS_HSS_EC") [("model", ["A", "B"])] (fun v => [v]) [] "TMP" exRunKey 3
      ⟨1 / 2, .perc, false⟩ (SkillEc exMctcCats (exNum 6)) out := by
  obtain ⟨out, h, hne⟩ := of_points (a := ["A", "6", "MCTS_HSS_EC"]) (l := [["B", "6", "MCTS_HSS_EC"], [exCurveName "MCTS_HSS_EC", "6", "MCTS_HSS_EC"]])
    (show (bootRun (tallyPrepared .mctc (exMctc (1/2))) (fun _ _ => .none) ⟨1 / 2, .perc, false⟩ threeDraws threeDraws
      (exMctc (1/2)) (exCurveParams "MCTS_HSS_EC")).map (List.map BootOut.point) = _ by decide +kernel)
  exact ⟨out, h, hne, C261_mctc _ _ _ _ 3 threeDraws_ok (by simp) out (exCurve_input exMctc_input) exRunKey (exLines_key _ _ _)
    (exCurve_indy exMctc_input) exCurveMctc_time exSl_read _ _ _ exMctc_lines (by decide +kernel) h hne⟩

theorem exCurveNbrCtc_curve : CurveRequest ((exCurveParams "NBR_CSI").config (exCurveParams "NBR_CSI").axis₁) [] [] ["TMP"] "A" "B"
    "NBR_CSI" ("A TMP " ++ "NBR_CSI") ("B TMP " ++ "NBR_CSI") "DIFF" (exCurveName "NBR_CSI") where
  operation := Or.inl rfl
  requested := by decide
  named := by decide +kernel
  only := by decide +kernel
  first := by unfold SeriesText; decide +kernel
  second := by unfold SeriesText; decide +kernel
  differs := ⟨[], "model", ["A", "B"], [], rfl, .nil, .nil, by decide, by decide, Or.inr rfl⟩
  disjoint := by decide
  groups := by decide

theorem exCurveNbrCtc_time : CaseFixesTime exNbrCtc exRunKey := by
  unfold CaseFixesTime
  decide +kernel

example : ∃ out, bootRun (tallyPrepared .nbrCtc exNbrCtc) (fun _ _ => .none) ⟨1 / 2, .perc, false⟩ threeDraws threeDraws
    exNbrCtc (exCurveParams "NBR_CSI") = .ok out ∧ out ≠ [] ∧
    ShowsCurves exNbrCtc (exCurveParams "NBR_CSI") [("model", ["A", "B"])] (fun v => [v]) [] "TMP" exRunKey 3
      ⟨1 / 2, .perc, false⟩ (fun st rows v => ∀ s, st = "nbr_" ++ s → CountScore s (pooledCounts (rows.map exCounts)) v) out := by
  obtain ⟨out, h, hne⟩ := of_points (a := ["A", "6", "NBR_CSI"]) (l := [["B", "6", "NBR_CSI"], [exCurveName "NBR_CSI", "6", "NBR_CSI"]])
    (show (bootRun (tallyPrepared .nbrCtc exNbrCtc) (fun _ _ => .none) ⟨1 / 2, .perc, false⟩ threeDraws threeDraws
      exNbrCtc (exCurveParams "NBR_CSI")).map (List.map BootOut.point) = _ by decide +kernel)
  exact ⟨out, h, hne, C261_nbrctc _ _ _ _ 3 threeDraws_ok (by simp) out (exCurve_input exNbrCtc_input) exRunKey (exLines_key _ _ _)
    (exCurve_indy exNbrCtc_input) exCurveNbrCtc_time exSl_read _ exNbrCtc_lines (by decide +kernel) h hne⟩

end Metcalcpy.Props
