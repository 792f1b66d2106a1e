/-
C261 on all other line types: limits of derived curves of RMSE, correlations, wind, ensemble, neighborhood, gradient and
     multi-category statistics.
-/
import Verif.Props.C261_CtcCurves
import Verif.Props.C258_EnsembleLimits
import Verif.Props.C264_AggDirections

namespace Metcalcpy.Props

open Metcalcpy Spec

/-! ### Specification -/

/-- What a table shows for each derived curve `[a, b, op]` with point `pre ++ name :: post ++ [i, st]`.  `score s rows v`:
`v` is the statistic `s` of the lines `rows`.  If no case of a series occurs twice, the lines of the two series (those of
the cases common to all series) can be listed in pairs of the same time and lead.  The value is computed from the
statistics of both sides (missing if one of them is), each of the `k` replicates from those of as many pairs drawn with
repetition; the limits are those of the replicates. -/
def ShowsCurves (f : Frame) (p : AggParams) (series : List (String × List String)) (parts : String → List String)
    (fix : List (String × List String)) (fv : String) (key : List Val → String) (k : ℕ) (s : BootSettings)
    (score : String → List (List Val) → PyNum → Prop) (out : List BootOut) : Prop :=
  ∀ (pre post extra : List String) (x y st a b op name : String),
    CurveRequest (p.config p.axis₁) pre post extra x y st a b op name → ∀ i ∈ p.indyVals, ∀ rows₁ rows₂,
      rows₁ = comparedRows f series parts fix fv p.indyVar key (pre ++ x :: post) i st →
      rows₂ = comparedRows f series parts fix fv p.indyVar key (pre ++ y :: post) i st →
      (rows₁.map key).Nodup → (rows₂.map key).Nodup →
      ∀ o ∈ out, o.point = pre ++ name :: post ++ [i, st] → rows₁ ≠ [] →
      ∀ curve : List (List Val × List Val) → Option ℚ → Prop,
      (curve = fun ps v => ∃ u₁ u₂, score (lower st) (ps.map Prod.fst) u₁ ∧ score (lower st) (ps.map Prod.snd) u₂ ∧
        CurveOf op u₁ u₂ v) →
      ∃ ps : List (List Val × List Val), (ps.map Prod.fst).Perm rows₁ ∧ (ps.map Prod.snd).Perm rows₂ ∧
        (∀ z ∈ ps, caseOf f z.1 = caseOf f z.2) ∧ curve ps o.value.cell ∧
        ∃ (sims : List (List (List Val × List Val))) (dist : List (Option ℚ)), sims.length = k ∧
          (∀ zs ∈ sims, zs.length = ps.length ∧ ∀ z ∈ zs, z ∈ ps) ∧ List.Forall₂ curve sims dist ∧
          confidenceInterval dist o.value.cell s.alpha s.method = .ok ⟨o.lower, o.value.cell, o.upper⟩

/-! ### Any statistic -/

section
variable {f : Frame} {p : AggParams} {init : List (String × List String)} {sv : String × List String}
  {parts : String → List String} {fix : List (String × List String)} {fv : String} {sts : List String}
  {rest : List (String × List String)}

/-- A statistic whose value is described by `score`. -/
theorem shows_curves (statOf : String → List (List Val) → Except PyErr PyNum) (score : String → List (List Val) → PyNum → Prop)
    (etb : List PyNum → List PyNum → PyNum) (s : BootSettings) (draws₁ draws₂ : ℕ → ℕ → List (List ℕ)) (k : ℕ)
    (hdraw : ∀ i n, IndexMatrix n k (draws₁ i n)) (hm : s.method ≠ .other) (out : List BootOut)
    (R : OneAxisRun f p init sv parts fix fv sts rest) (key : List Val → String)
    (hkey : ∀ r ∈ f.rows, IsCaseKey f p.indyVar true r (key r)) (hindy : CaseFixesIndependent f p.indyVar key)
    (htime : CaseFixesTime f key) (hread : ∀ x ∈ init ++ [sv], ∀ v ∈ x.2, ∀ w ∈ parts v, ReadAlike w)
    (hval : ∀ st ∈ p.axis₁.stats, ∀ rows data v, data.Perm rows → rows ≠ [] → (∀ r ∈ rows, r ∈ f.rows) →
      statOf (lower st) data = .ok v → score (lower st) rows v)
    (hk : ∀ st ∈ p.axis₁.stats, ∀ zs, zs ≠ [] → (∀ r ∈ zs, r ∈ f.rows) → statOf (lower st) zs ≠ .error .keyError)
    (h : bootRun statOf etb s draws₁ draws₂ f p = .ok out) (hne : out ≠ []) :
    ShowsCurves f p (init ++ [sv]) parts fix fv key k s score out :=
  fun pre post extra x y st a b op name C i hi rows₁ rows₂ hr₁ hr₂ hn₁ hn₂ o ho hpt hr curve hc =>
    curve_scores statOf score etb s hm draws₁ draws₂ k hdraw out R key hkey hindy htime hread
      (fun st hst zs v z1 z2 hv => hval st hst zs zs v (List.Perm.refl _) z1 z2 hv) hk
      pre post extra x y st a b op name C h hne i hi rows₁ rows₂ hr₁ hr₂ ⟨hn₁, hn₂⟩ o ho hpt hr curve hc

/-! ### The statistics -/

/-- C261, SL1L2 lines: RMSE, standard deviations, correlation and MSESS (`RootScore`) of the pooled matched pairs, with
the limits of replicates that are the same scores of lines drawn with repetition. -/
theorem C261_roots (etb : List PyNum → List PyNum → PyNum) (s : BootSettings) (draws₁ draws₂ : ℕ → ℕ → List (List ℕ)) (k : ℕ)
    (hdraw : ∀ i n, IndexMatrix n k (draws₁ i n)) (hm : s.method ≠ .other) (out : List BootOut)
    (R : OneAxisRun f p init sv parts fix fv sts rest) (key : List Val → String)
    (hkey : ∀ r ∈ f.rows, IsCaseKey f p.indyVar true r (key r)) (hindy : CaseFixesIndependent f p.indyVar key)
    (htime : CaseFixesTime f key) (hread : ∀ x ∈ init ++ [sv], ∀ v ∈ x.2, ∀ w ∈ parts v, ReadAlike w)
    (pairs : List Val → List Pair) (L : Sl1l2Lines f pairs)
    (hs : ∀ st ∈ p.axis₁.stats, lower st ∈ ["rmse", "fstdev", "ostdev", "pr_corr", "msess"])
    (h : bootRun (rootPrepared .fields f) etb s draws₁ draws₂ f p = .ok out) (hne : out ≠ []) :
    ShowsCurves f p (init ++ [sv]) parts fix fv key k s
      (fun s rows v => RootScore s (rows.flatMap pairs) v) out :=
  shows_curves _ _ etb s draws₁ draws₂ k hdraw hm out R key hkey hindy htime hread
    (fun _ _ _ _ _ hp h1 h2 h3 => sl_root_value L hp h1 h2 h3)
    (fun st hst _ z1 z2 => exists_not_keyError (sl_root_exists L z1 z2 (hs st hst))) h hne

/-- C261, SAL1L2 lines: anomaly correlations and root mean square anomalies (`AnomalyScore`). -/
theorem C261_anomalies (etb : List PyNum → List PyNum → PyNum) (s : BootSettings) (draws₁ draws₂ : ℕ → ℕ → List (List ℕ))
    (k : ℕ) (hdraw : ∀ i n, IndexMatrix n k (draws₁ i n)) (hm : s.method ≠ .other) (out : List BootOut)
    (R : OneAxisRun f p init sv parts fix fv sts rest) (key : List Val → String)
    (hkey : ∀ r ∈ f.rows, IsCaseKey f p.indyVar true r (key r)) (hindy : CaseFixesIndependent f p.indyVar key)
    (htime : CaseFixesTime f key) (hread : ∀ x ∈ init ++ [sv], ∀ v ∈ x.2, ∀ w ∈ parts v, ReadAlike w)
    (pairs : List Val → List Pair) (L : Sal1l2Lines f pairs)
    (hs : ∀ st ∈ p.axis₁.stats, lower st ∈ ["anom_corr", "anom_corr_raw", "rmsfa", "rmsoa"])
    (h : bootRun (rootPrepared .fields f) etb s draws₁ draws₂ f p = .ok out) (hne : out ≠ []) :
    ShowsCurves f p (init ++ [sv]) parts fix fv key k s
      (fun s rows v => AnomalyScore s (rows.flatMap pairs) v) out :=
  shows_curves _ _ etb s draws₁ draws₂ k hdraw hm out R key hkey hindy htime hread
    (fun _ _ _ _ _ hp h1 h2 h3 => sal_root_value L hp h1 h2 h3)
    (fun st hst _ z1 z2 => exists_not_keyError (sal_root_exists L z1 z2 (hs st hst))) h hne

/-- C261, VL1L2 and VCNT lines: wind statistics (`WindScore`). -/
theorem C261_winds (etb : List PyNum → List PyNum → PyNum) (s : BootSettings) (draws₁ draws₂ : ℕ → ℕ → List (List ℕ)) (k : ℕ)
    (hdraw : ∀ i n, IndexMatrix n k (draws₁ i n)) (hm : s.method ≠ .other) (out : List BootOut)
    (R : OneAxisRun f p init sv parts fix fv sts rest) (key : List Val → String)
    (hkey : ∀ r ∈ f.rows, IsCaseKey f p.indyVar true r (key r)) (hindy : CaseFixesIndependent f p.indyVar key)
    (htime : CaseFixesTime f key) (hread : ∀ x ∈ init ++ [sv], ∀ v ∈ x.2, ∀ w ∈ parts v, ReadAlike w)
    (pairs : List Val → List WindPair)
    (L : WindLines vl1l2Columns f pairs)
    (hs : ∀ st ∈ p.axis₁.stats, lower st ∈ ["vl1l2_msve", "vl1l2_rmsve", "vl1l2_bias", "vl1l2_speed_err", "vcnt_msve",
      "vcnt_rmsve", "vcnt_fbar", "vcnt_obar", "vcnt_fs_rms", "vcnt_os_rms", "vcnt_fbar_speed", "vcnt_obar_speed",
      "vcnt_vdiff_speed", "vcnt_speed_err", "vcnt_speed_abserr"])
    (h : bootRun (rootPrepared .fields f) etb s draws₁ draws₂ f p = .ok out) (hne : out ≠ []) :
    ShowsCurves f p (init ++ [sv]) parts fix fv key k s
      (fun s rows v => WindScore s (rows.flatMap pairs) v) out :=
  shows_curves _ _ etb s draws₁ draws₂ k hdraw hm out R key hkey hindy htime hread
    (fun _ _ _ _ _ hp h1 h2 h3 => wind_root_value L hp h1 h2 h3)
    (fun st hst _ z1 z2 => exists_not_keyError (wind_root_exists L z1 z2 (hs st hst))) h hne

/-- C261, ECNT lines: RMSE and spread (`EcntRootScore`). -/
theorem C261_ensembles (etb : List PyNum → List PyNum → PyNum) (s : BootSettings) (draws₁ draws₂ : ℕ → ℕ → List (List ℕ))
    (k : ℕ) (hdraw : ∀ i n, IndexMatrix n k (draws₁ i n)) (hm : s.method ≠ .other) (out : List BootOut)
    (R : OneAxisRun f p init sv parts fix fv sts rest) (key : List Val → String)
    (hkey : ∀ r ∈ f.rows, IsCaseKey f p.indyVar true r (key r)) (hindy : CaseFixesIndependent f p.indyVar key)
    (htime : CaseFixesTime f key) (hread : ∀ x ∈ init ++ [sv], ∀ v ∈ x.2, ∀ w ∈ parts v, ReadAlike w)
    (n : List Val → ℚ) (x : String → List Val → ℚ)
    (L : EcntLines f n x)
    (hs : ∀ st ∈ p.axis₁.stats, lower st ∈ ["ecnt_rmse", "ecnt_rmse_oerr", "ecnt_spread", "ecnt_spread_oerr"])
    (h : bootRun (rootPrepared .ecnt f) etb s draws₁ draws₂ f p = .ok out) (hne : out ≠ []) :
    ShowsCurves f p (init ++ [sv]) parts fix fv key k s (EcntRootScore n x) out :=
  shows_curves _ _ etb s draws₁ draws₂ k hdraw hm out R key hkey hindy htime hread
    (fun _ _ _ _ _ hp h1 h2 h3 => ecnt_root_value R.input.wf L hp h1 h2 h3)
    (fun st hst zs z1 z2 => by
      obtain ⟨c, hc, e⟩ : ∃ c ∈ ["rmse", "rmse_oerr", "spread", "spread_oerr"], lower st = "ecnt_" ++ c := by
        have := hs st hst
        generalize lower st = s' at this
        simp only [List.mem_cons, List.not_mem_nil, or_false] at this
        rcases this with rfl | rfl | rfl | rfl
        exacts [⟨"rmse", by simp, rfl⟩, ⟨"rmse_oerr", by simp, rfl⟩, ⟨"spread", by simp, rfl⟩, ⟨"spread_oerr", by simp, rfl⟩]
      rw [e]
      exact exists_not_keyError ⟨_, ecnt_roots R.input.wf L (List.Perm.refl _) z1 z2 hc⟩) h hne

/-- C261, SSVAR lines: spread/skill statistics (`SpreadScore`). -/
theorem C261_spread (etb : List PyNum → List PyNum → PyNum) (s : BootSettings) (draws₁ draws₂ : ℕ → ℕ → List (List ℕ)) (k : ℕ)
    (hdraw : ∀ i n, IndexMatrix n k (draws₁ i n)) (hm : s.method ≠ .other) (out : List BootOut)
    (R : OneAxisRun f p init sv parts fix fv sts rest) (key : List Val → String)
    (hkey : ∀ r ∈ f.rows, IsCaseKey f p.indyVar true r (key r)) (hindy : CaseFixesIndependent f p.indyVar key)
    (htime : CaseFixesTime f key) (hread : ∀ x ∈ init ++ [sv], ∀ v ∈ x.2, ∀ w ∈ parts v, ReadAlike w)
    (points : List Val → List (Pair × ℚ))
    (L : SsvarLines f points)
    (hs : ∀ st ∈ p.axis₁.stats, lower st ∈ ["ssvar_fbar", "ssvar_obar", "ssvar_me", "ssvar_me2", "ssvar_mse", "ssvar_rmse",
      "ssvar_bcmse", "ssvar_fstdev", "ssvar_ostdev", "ssvar_pr_corr", "ssvar_msess", "ssvar_spread"])
    (h : bootRun (spreadPrepared f) etb s draws₁ draws₂ f p = .ok out) (hne : out ≠ []) :
    ShowsCurves f p (init ++ [sv]) parts fix fv key k s
      (fun s rows v => SpreadScore s (rows.flatMap points) v) out :=
  shows_curves _ _ etb s draws₁ draws₂ k hdraw hm out R key hkey hindy htime hread
    (fun _ _ _ _ _ hp h1 h2 h3 => spread_value L hp h1 h2 h3)
    (fun st hst _ z1 z2 => exists_not_keyError (spread_exists L z1 z2 (hs st hst))) h hne

/-- C261, ECNT lines: means and counts (`EcntScore`). -/
theorem C261_ecnt (etb : List PyNum → List PyNum → PyNum) (s : BootSettings) (draws₁ draws₂ : ℕ → ℕ → List (List ℕ)) (k : ℕ)
    (hdraw : ∀ i n, IndexMatrix n k (draws₁ i n)) (hm : s.method ≠ .other) (out : List BootOut)
    (R : OneAxisRun f p init sv parts fix fv sts rest) (key : List Val → String)
    (hkey : ∀ r ∈ f.rows, IsCaseKey f p.indyVar true r (key r)) (hindy : CaseFixesIndependent f p.indyVar key)
    (htime : CaseFixesTime f key) (hread : ∀ x ∈ init ++ [sv], ∀ v ∈ x.2, ∀ w ∈ parts v, ReadAlike w)
    (n : List Val → ℚ) (x : String → List Val → ℚ)
    (L : EcntLines f n x)
    (hs : ∀ st ∈ p.axis₁.stats, ∃ c ∈ ["crps", "ign", "me", "me_oerr", "crpscl", "crps_emp", "crpscl_emp",
      "crps_emp_fair", "spread_md", "mae", "mae_oerr", "n_ge_obs", "n_lt_obs"], lower st = "ecnt_" ++ c)
    (h : bootRun (ensemblePrepared .ecnt f) etb s draws₁ draws₂ f p = .ok out) (hne : out ≠ []) :
    ShowsCurves f p (init ++ [sv]) parts fix fv key k s
      (EcntScore n x) out :=
  shows_curves _ _ etb s draws₁ draws₂ k hdraw hm out R key hkey hindy htime hread
    (fun _ _ _ _ _ hp h1 h2 h3 => ecnt_value R.input.wf L hp h1 h2 h3)
    (fun st hst _ z1 z2 => by
      obtain ⟨c, hc, e⟩ := hs st hst
      obtain ⟨q, hq⟩ := ecnt_number R.input.wf L z1 z2 hc
      exact exists_not_keyError ⟨_, e ▸ hq⟩) h hne

/-- C261, NBRCNT lines: FBS, FSS and the forecast rate (`NbrCntScore`). -/
theorem C261_nbrcnt (etb : List PyNum → List PyNum → PyNum) (s : BootSettings) (draws₁ draws₂ : ℕ → ℕ → List (List ℕ)) (k : ℕ)
    (hdraw : ∀ i n, IndexMatrix n k (draws₁ i n)) (hm : s.method ≠ .other) (out : List BootOut)
    (R : OneAxisRun f p init sv parts fix fv sts rest) (key : List Val → String)
    (hkey : ∀ r ∈ f.rows, IsCaseKey f p.indyVar true r (key r)) (hindy : CaseFixesIndependent f p.indyVar key)
    (htime : CaseFixesTime f key) (hread : ∀ x ∈ init ++ [sv], ∀ v ∈ x.2, ∀ w ∈ parts v, ReadAlike w)
    (n b d fr o : List Val → ℚ)
    (L : NbrCntLines f n b d fr o)
    (hs : ∀ st ∈ p.axis₁.stats, lower st ∈ ["nbr_fbs", "nbr_f_rate", "nbr_fss"])
    (h : bootRun (ensemblePrepared .nbrCnt f) etb s draws₁ draws₂ f p = .ok out) (hne : out ≠ []) :
    ShowsCurves f p (init ++ [sv]) parts fix fv key k s
      (NbrCntScore n b d fr) out :=
  shows_curves _ _ etb s draws₁ draws₂ k hdraw hm out R key hkey hindy htime hread
    (fun _ _ _ _ _ hp h1 h2 h3 => nbrcnt_value R.input.wf L hp h1 h2 h3)
    (fun st hst _ z1 z2 => exists_not_keyError (nbrcnt_exists R.input.wf L z1 z2 (hs st hst))) h hne

/-- C261, RPS lines: ranked probability score, complement and skill score (`RpsScore`). -/
theorem C261_rps (etb : List PyNum → List PyNum → PyNum) (s : BootSettings) (draws₁ draws₂ : ℕ → ℕ → List (List ℕ)) (k : ℕ)
    (hdraw : ∀ i n, IndexMatrix n k (draws₁ i n)) (hm : s.method ≠ .other) (out : List BootOut)
    (R : OneAxisRun f p init sv parts fix fv sts rest) (key : List Val → String)
    (hkey : ∀ r ∈ f.rows, IsCaseKey f p.indyVar true r (key r)) (hindy : CaseFixesIndependent f p.indyVar key)
    (htime : CaseFixesTime f key) (hread : ∀ x ∈ init ++ [sv], ∀ v ∈ x.2, ∀ w ∈ parts v, ReadAlike w)
    (n x c m : List Val → ℚ)
    (L : RpsLines f n x c m)
    (hs : ∀ st ∈ p.axis₁.stats, lower st ∈ ["rps", "rps_comp", "rpss"])
    (h : bootRun (ensemblePrepared .rps f) etb s draws₁ draws₂ f p = .ok out) (hne : out ≠ []) :
    ShowsCurves f p (init ++ [sv]) parts fix fv key k s
      (RpsScore n x c m) out :=
  shows_curves _ _ etb s draws₁ draws₂ k hdraw hm out R key hkey hindy htime hread
    (fun _ _ _ _ _ hp h1 h2 h3 => rps_value R.input.wf L hp h1 h2 h3)
    (fun st hst _ z1 z2 => exists_not_keyError (rps_exists R.input.wf L z1 z2 (hs st hst))) h hne

/-- C261, GRAD lines: gradient scores (`GradScore`). -/
theorem C261_grad (etb : List PyNum → List PyNum → PyNum) (s : BootSettings) (draws₁ draws₂ : ℕ → ℕ → List (List ℕ)) (k : ℕ)
    (hdraw : ∀ i n, IndexMatrix n k (draws₁ i n)) (hm : s.method ≠ .other) (out : List BootOut)
    (R : OneAxisRun f p init sv parts fix fv sts rest) (key : List Val → String)
    (hkey : ∀ r ∈ f.rows, IsCaseKey f p.indyVar true r (key r)) (hindy : CaseFixesIndependent f p.indyVar key)
    (htime : CaseFixesTime f key) (hread : ∀ x ∈ init ++ [sv], ∀ v ∈ x.2, ∀ w ∈ parts v, ReadAlike w)
    (pairs : List Val → List Pair)
    (L : GradLines f pairs)
    (hs : ∀ st ∈ p.axis₁.stats, lower st ∈ ["fgbar", "ogbar", "mgbar", "egbar", "s1", "s1_og", "fgog_ratio"])
    (h : bootRun (ensemblePrepared .grad f) etb s draws₁ draws₂ f p = .ok out) (hne : out ≠ []) :
    ShowsCurves f p (init ++ [sv]) parts fix fv key k s
      (fun s rows v => GradScore s (rows.flatMap pairs) v) out :=
  shows_curves _ _ etb s draws₁ draws₂ k hdraw hm out R key hkey hindy htime hread
    (fun _ _ _ _ _ hp h1 h2 h3 => grad_value L hp h1 h2 h3)
    (fun st hst _ z1 z2 => exists_not_keyError (grad_exists L z1 z2 (hs st hst))) h hne

/-- C261, MCTC lines: the skill score of the summed counts (`SkillEc`); the lines of a point share the expected-correct value. -/
theorem C261_mctc (etb : List PyNum → List PyNum → PyNum) (s : BootSettings) (draws₁ draws₂ : ℕ → ℕ → List (List ℕ)) (k : ℕ)
    (hdraw : ∀ i n, IndexMatrix n k (draws₁ i n)) (hm : s.method ≠ .other) (out : List BootOut)
    (R : OneAxisRun f p init sv parts fix fv sts rest) (key : List Val → String)
    (hkey : ∀ r ∈ f.rows, IsCaseKey f p.indyVar true r (key r)) (hindy : CaseFixesIndependent f p.indyVar key)
    (htime : CaseFixesTime f key) (hread : ∀ x ∈ init ++ [sv], ∀ v ∈ x.2, ∀ w ∈ parts v, ReadAlike w)
    (n : ℕ) (ec : List Val → ℚ)
    (cats : List CatColumn) (L : MctcLines f n ec cats)
    (hs : ∀ st ∈ p.axis₁.stats, lower st = "mcts_hss_ec")
    (h : bootRun (tallyPrepared .mctc f) etb s draws₁ draws₂ f p = .ok out) (hne : out ≠ []) :
    ShowsCurves f p (init ++ [sv]) parts fix fv key k s
      (SkillEc cats ec) out :=
  shows_curves _ _ etb s draws₁ draws₂ k hdraw hm out R key hkey hindy htime hread
    (fun _ _ _ _ _ hp h1 h2 h3 => mctc_value L hp h1 h2 h3)
    (fun st hst _ z1 z2 => by rw [hs st hst]; exact mctc_not_keyError L z1 z2) h hne

/-- C261, NBR_CTC lines: scores of the summed counts (`CountScore`). -/
theorem C261_nbrctc (etb : List PyNum → List PyNum → PyNum) (s : BootSettings) (draws₁ draws₂ : ℕ → ℕ → List (List ℕ)) (k : ℕ)
    (hdraw : ∀ i n, IndexMatrix n k (draws₁ i n)) (hm : s.method ≠ .other) (out : List BootOut)
    (R : OneAxisRun f p init sv parts fix fv sts rest) (key : List Val → String)
    (hkey : ∀ r ∈ f.rows, IsCaseKey f p.indyVar true r (key r)) (hindy : CaseFixesIndependent f p.indyVar key)
    (htime : CaseFixesTime f key) (hread : ∀ x ∈ init ++ [sv], ∀ v ∈ x.2, ∀ w ∈ parts v, ReadAlike w)
    (counts : List Val → Ctc)
    (L : CtcLines f counts)
    (hs : ∀ st ∈ p.axis₁.stats, lower st ∈ ["nbr_baser", "nbr_acc", "nbr_fbias", "nbr_fmean", "nbr_pody", "nbr_pofd",
      "nbr_podn", "nbr_far", "nbr_csi", "nbr_gss", "nbr_hss"])
    (h : bootRun (tallyPrepared .nbrCtc f) etb s draws₁ draws₂ f p = .ok out) (hne : out ≠ []) :
    ShowsCurves f p (init ++ [sv]) parts fix fv key k s
      (fun st rows v => ∀ s, st = "nbr_" ++ s → CountScore s (pooledCounts (rows.map counts)) v) out :=
  shows_curves _ _ etb s draws₁ draws₂ k hdraw hm out R key hkey hindy htime hread
    (fun _ _ _ _ _ hp h1 h2 h3 => nbr_value L hp h1 h2 h3)
    (fun st hst _ z1 z2 => exists_not_keyError (nbrctc_exists L z1 z2 (hs st hst))) h hne

/-- C261, VCNT lines: directions (`DirectionScore`). -/
theorem C261_directions (etb : List PyNum → List PyNum → PyNum) (s : BootSettings) (draws₁ draws₂ : ℕ → ℕ → List (List ℕ))
    (k : ℕ) (hdraw : ∀ i n, IndexMatrix n k (draws₁ i n)) (hm : s.method ≠ .other) (out : List BootOut)
    (R : OneAxisRun f p init sv parts fix fv sts rest) (key : List Val → String)
    (hkey : ∀ r ∈ f.rows, IsCaseKey f p.indyVar true r (key r)) (hindy : CaseFixesIndependent f p.indyVar key)
    (htime : CaseFixesTime f key) (hread : ∀ x ∈ init ++ [sv], ∀ v ∈ x.2, ∀ w ∈ parts v, ReadAlike w)
    (pairs : List Val → List WindPair)
    (L : WindLines vl1l2Columns f pairs)
    (hs : ∀ st ∈ p.axis₁.stats, lower st ∈ ["vcnt_fdir", "vcnt_odir", "vcnt_vdiff_dir", "vcnt_dir_err", "vcnt_dir_abser"])
    (h : bootRun (directionPrepared f) etb s draws₁ draws₂ f p = .ok out) (hne : out ≠ []) :
    ShowsCurves f p (init ++ [sv]) parts fix fv key k s
      (fun s rows v => DirectionScore s (rows.flatMap pairs) v) out :=
  shows_curves _ _ etb s draws₁ draws₂ k hdraw hm out R key hkey hindy htime hread
    (fun _ _ _ _ _ hp h1 h2 h3 => direction_value L hp h1 h2 h3)
    (fun st hst _ z1 z2 => exists_not_keyError (direction_exists L z1 z2 (hs st hst))) h hne

end

end Metcalcpy.Props
