/-
C258 Bootstrap limits in aggregation tables: RMSE, correlations, standard deviations, wind statistics, root mean squares of
     ensembles, and spread/skill statistics.
C262 Such a run completes if the statistics have a number for every set of lines.
-/
import Verif.Props.C262_BootCompletes
import Verif.Props.C263_SpreadRun

namespace Metcalcpy.Props
open Metcalcpy Spec

/-! ### Specification -/

/-- The table `out` of a run has one row for each requested point.  `score s rows v`: `v` is the statistic `s` of the lines
`rows`.  The value of a row is the statistic of the lines of the cases common to all series; its limits are determined by
`k` replicates, each the statistic of as many lines drawn with repetition from these. -/
def ShowsScores (f : Frame) (p : AggParams) (series : List (String × List String)) (parts : String → List String)
    (fix : List (String × List String)) (fv : String) (key : List Val → String) (k : ℕ) (method : CiMethod)
    (score : String → List (List Val) → PyNum → Prop) (out : List BootOut) : Prop :=
  ∃ plain derived, out = plain ++ derived ∧
    (∀ pt, pt ∈ plain.map BootOut.point ↔
      ∃ as, List.Forall₂ (fun x q => x ∈ q.2) as series ∧ ∃ i ∈ p.indyVals, ∃ st ∈ p.axis₁.stats, pt = as ++ [i, st]) ∧
    ∀ o ∈ plain, ∀ as i st, o.point = as ++ [i, st] →
      ∀ rows, rows = comparedRows f series parts fix fv p.indyVar key as i st →
        o.nstats = rows.length ∧ (rows = [] → o.value = .none ∧ o.lower = none ∧ o.upper = none) ∧
        (rows ≠ [] → score (lower st) rows o.value ∧
          ∃ (sims : List (List (List Val))) (dist : List PyNum), sims.length = k ∧
            (∀ zs ∈ sims, zs.length = rows.length ∧ ∀ r ∈ zs, r ∈ rows) ∧
            List.Forall₂ (fun zs z => score (lower st) zs z) sims dist ∧
            confidenceInterval (dist.map PyNum.cell) o.value.cell (1 / 20) method = .ok ⟨o.lower, o.value.cell, o.upper⟩)

/-! ### Any statistic -/

section
variable {f : Frame} {p : AggParams} {init : List (String × List String)} {sv : String × List String}
  {parts : String → List String} {fix : List (String × List String)} {fv : String} {sts : List String}
  {rest : List (String × List String)}

/-- A statistic whose value for lines in any order is described by `score`. -/
theorem shows_scores (statOf : String → List (List Val) → Except PyErr PyNum) (score : String → List (List Val) → PyNum → Prop)
    (etb : List PyNum → List PyNum → PyNum) (s : BootSettings) (draws₁ draws₂ : ℕ → ℕ → List (List ℕ)) (k : ℕ)
    (hdraw : ∀ i n, IndexMatrix n k (draws₁ i n)) (hm : s.method ≠ .other) (out : List BootOut)
    (R : OneAxisRun f p init sv parts fix fv sts rest) (key : List Val → String)
    (hkey : ∀ r ∈ f.rows, IsCaseKey f p.indyVar true r (key r)) (hnan : ∀ s l, statOf s l ≠ .ok .nan)
    (hval : ∀ st ∈ p.axis₁.stats, ∀ rows data v, data.Perm rows → rows ≠ [] → (∀ r ∈ rows, r ∈ f.rows) →
      statOf (lower st) data = .ok v → score (lower st) rows v)
    (hk : ∀ st ∈ p.axis₁.stats, ∀ zs, zs ≠ [] → (∀ r ∈ zs, r ∈ f.rows) → statOf (lower st) zs ≠ .error .keyError)
    (h : bootRun statOf etb s draws₁ draws₂ f p = .ok out) (hne : out ≠ []) :
    ShowsScores f p (init ++ [sv]) parts fix fv key k s.method score out := by
  obtain ⟨plain, derived, e, hpts, hrows⟩ := boot_scores statOf
    (fun s rows v => ∃ data, data.Perm rows ∧ statOf s data = .ok v)
    etb s draws₁ draws₂ k hdraw hm out R key hkey
    (fun s l l' v hp ⟨data, h1, h2⟩ => ⟨data, h1.trans hp, h2⟩) hnan
    (fun st _ zs v _ _ hv => ⟨zs, List.Perm.refl _, hv⟩) hk h hne
  refine ⟨plain, derived, e, hpts, ?_⟩
  intro o ho as i st hpt rows hr
  obtain ⟨n, hn⟩ := List.mem_iff_getElem?.mp ho
  obtain ⟨h1, h2, h3⟩ := hrows n o hn as i st hpt rows hr
  refine ⟨h1, h2, fun hrne => ?_⟩
  have hst : st ∈ p.axis₁.stats := by
    obtain ⟨as', -, i', -, st', hst, e'⟩ := (hpts o.point).mp (List.mem_map_of_mem ho)
    rw [hpt] at e'
    obtain ⟨-, e4⟩ := List.append_inj' e' (by simp)
    simp only [List.cons.injEq, and_true] at e4
    rw [e4.2]; exact hst
  have hsr : ∀ r ∈ rows, r ∈ f.rows := by rw [hr]; exact comparedRows_sub
  obtain ⟨⟨d, hd1, hd2⟩, sims, dist, g1, g2, g3, g4⟩ := h3 hrne
  refine ⟨hval st hst rows d _ hd1 hrne hsr hd2, sims, dist, g1, g2, ?_, g4⟩
  clear g1 g4
  induction g3 with
  | nil => exact .nil
  | @cons zs z _ _ a _ ih =>
    obtain ⟨d, e1, e2⟩ := a
    obtain ⟨l1, l2⟩ := g2 zs (by simp)
    refine .cons (hval st hst zs d z e1 ?_ (fun r hr => hsr r (l2 r hr)) e2) (ih (fun x hx => g2 x (by simp [hx])))
    rintro rfl
    exact hrne (List.length_eq_zero_iff.mp l1.symm)

/-- The table of a completed run has rows if any line is left by event equalization. -/
theorem boot_nonempty (statOf : String → List (List Val) → Except PyErr PyNum)
    (etb : List PyNum → List PyNum → PyNum) (s : BootSettings) (draws₁ draws₂ : ℕ → ℕ → List (List ℕ)) (k : ℕ)
    (hdraw : ∀ i n, IndexMatrix n k (draws₁ i n)) (out : List BootOut)
    (R : OneAxisRun f p init sv parts fix fv sts rest)
    (hk : ∀ st ∈ p.axis₁.stats, ∀ zs, zs ≠ [] → (∀ r ∈ zs, r ∈ f.rows) → statOf (lower st) zs ≠ .error .keyError)
    (h : bootRun statOf etb s draws₁ draws₂ f p = .ok out)
    (g : Frame) (hg : p.equalize f = .ok g) (hc : g.cols = f.cols) (hsub : ∀ r ∈ g.rows, r ∈ f.rows) (hne : g.rows ≠ [])
    (pt : List String) (hpt : List.Forall₂ (fun x q => x ∈ q.2) pt (requestedValues (p.config p.axis₁))) : out ≠ [] := by
  unfold bootRun at h
  rw [R.on, R.second] at h
  have ht : truthy (parseBool "True") = true := rfl
  rw [ht, if_pos rfl, hg] at h
  simp only [bind, Except.bind, List.isEmpty_nil, if_true] at h
  obtain ⟨o₁, ho, e⟩ : ∃ o₁, bootAxis statOf etb s draws₁ g (p.config p.axis₁) = .ok o₁ ∧ o₁ = out := by
    split at h
    · simp at h
    · next o₁ ho => exact ⟨o₁, ho, by simpa using h⟩
  subst e
  obtain ⟨cols, rows⟩ := g
  simp only at hc hsub hne
  subst hc
  obtain ⟨hreq, hpl⟩ := run_request R hsub
  obtain ⟨plain, derived, e, hpts, -⟩ := C258_rows_partial hreq _ etb s draws₁ k
    ⟨hne, List.ne_nil_of_mem R.forecast⟩ (fun st hst zs z1 z2 => hk st hst zs z1 (fun r hr => hsub r (z2 r hr))) hdraw hpl o₁ ho
  rintro rfl
  have := (hpts pt).mpr hpt
  rw [(List.append_eq_nil_iff.mp e.symm).1] at this
  simp at this

theorem rootPrepared_not_nan (l : RootLine) (f : Frame) (s : String) (zs : List (List Val)) :
    rootPrepared l f s zs ≠ .ok .nan := by
  intro h
  unfold rootPrepared at h
  simp only [bind, Except.bind] at h
  split at h
  · cases h
  · split at h
    · cases h
    · next c _ =>
      revert h
      cases c _ with
      | error e => intro h; cases h
      | ok x => cases x <;> intro h <;> simp [Except.map, realNum] at h

theorem spreadPrepared_not_nan (f : Frame) (s : String) (zs : List (List Val)) : spreadPrepared f s zs ≠ .ok .nan := by
  intro h
  unfold spreadPrepared at h
  simp only [bind, Except.bind] at h
  split at h
  · cases h
  · split at h
    · cases h
    · next c _ =>
      revert h
      cases c _ with
      | error e => intro h; cases h
      | ok x => cases x <;> intro h <;> simp [Except.map, realNum] at h

theorem exists_not_keyError {x : Except PyErr PyNum} (h : ∃ v, x = .ok v) : x ≠ .error .keyError := by
  obtain ⟨v, rfl⟩ := h
  simp

/-! ### The statistics -/

/-- C258, SL1L2 lines: RMSE, standard deviations, correlation and MSESS (`RootScore`) of the pooled matched pairs, with
the limits of replicates that are the same scores of lines drawn with repetition. -/
theorem C258_roots (etb : List PyNum → List PyNum → PyNum) (s : BootSettings) (draws₁ draws₂ : ℕ → ℕ → List (List ℕ)) (k : ℕ)
    (hdraw : ∀ i n, IndexMatrix n k (draws₁ i n)) (hm : s.method ≠ .other) (out : List BootOut)
    (R : OneAxisRun f p init sv parts fix fv sts rest) (key : List Val → String)
    (hkey : ∀ r ∈ f.rows, IsCaseKey f p.indyVar true r (key r)) (pairs : List Val → List Pair) (L : Sl1l2Lines f pairs)
    (hs : ∀ st ∈ p.axis₁.stats, lower st ∈ ["rmse", "fstdev", "ostdev", "pr_corr", "msess"])
    (h : bootRun (rootPrepared .fields f) etb s draws₁ draws₂ f p = .ok out) (hne : out ≠ []) :
    ShowsScores f p (init ++ [sv]) parts fix fv key k s.method
      (fun s rows v => RootScore s (rows.flatMap pairs) v) out :=
  shows_scores _ _ etb s draws₁ draws₂ k hdraw hm out R key hkey (rootPrepared_not_nan _ _)
    (fun _ _ _ _ _ hp h1 h2 h3 => sl_root_value L hp h1 h2 h3)
    (fun st hst _ z1 z2 => exists_not_keyError (sl_root_exists L z1 z2 (hs st hst))) h hne

/-- C258, SAL1L2 lines: anomaly correlations and root mean square anomalies (`AnomalyScore`). -/
theorem C258_anomalies (etb : List PyNum → List PyNum → PyNum) (s : BootSettings) (draws₁ draws₂ : ℕ → ℕ → List (List ℕ))
    (k : ℕ) (hdraw : ∀ i n, IndexMatrix n k (draws₁ i n)) (hm : s.method ≠ .other) (out : List BootOut)
    (R : OneAxisRun f p init sv parts fix fv sts rest) (key : List Val → String)
    (hkey : ∀ r ∈ f.rows, IsCaseKey f p.indyVar true r (key r)) (pairs : List Val → List Pair) (L : Sal1l2Lines f pairs)
    (hs : ∀ st ∈ p.axis₁.stats, lower st ∈ ["anom_corr", "anom_corr_raw", "rmsfa", "rmsoa"])
    (h : bootRun (rootPrepared .fields f) etb s draws₁ draws₂ f p = .ok out) (hne : out ≠ []) :
    ShowsScores f p (init ++ [sv]) parts fix fv key k s.method
      (fun s rows v => AnomalyScore s (rows.flatMap pairs) v) out :=
  shows_scores _ _ etb s draws₁ draws₂ k hdraw hm out R key hkey (rootPrepared_not_nan _ _)
    (fun _ _ _ _ _ hp h1 h2 h3 => sal_root_value L hp h1 h2 h3)
    (fun st hst _ z1 z2 => exists_not_keyError (sal_root_exists L z1 z2 (hs st hst))) h hne

/-- C258, VL1L2 and VCNT lines: wind statistics (`WindScore`). -/
theorem C258_winds (etb : List PyNum → List PyNum → PyNum) (s : BootSettings) (draws₁ draws₂ : ℕ → ℕ → List (List ℕ)) (k : ℕ)
    (hdraw : ∀ i n, IndexMatrix n k (draws₁ i n)) (hm : s.method ≠ .other) (out : List BootOut)
    (R : OneAxisRun f p init sv parts fix fv sts rest) (key : List Val → String)
    (hkey : ∀ r ∈ f.rows, IsCaseKey f p.indyVar true r (key r)) (pairs : List Val → List WindPair)
    (L : WindLines vl1l2Columns f pairs)
    (hs : ∀ st ∈ p.axis₁.stats, lower st ∈ ["vl1l2_msve", "vl1l2_rmsve", "vl1l2_bias", "vl1l2_speed_err", "vcnt_msve",
      "vcnt_rmsve", "vcnt_fbar", "vcnt_obar", "vcnt_fs_rms", "vcnt_os_rms", "vcnt_fbar_speed", "vcnt_obar_speed",
      "vcnt_vdiff_speed", "vcnt_speed_err", "vcnt_speed_abserr"])
    (h : bootRun (rootPrepared .fields f) etb s draws₁ draws₂ f p = .ok out) (hne : out ≠ []) :
    ShowsScores f p (init ++ [sv]) parts fix fv key k s.method
      (fun s rows v => WindScore s (rows.flatMap pairs) v) out :=
  shows_scores _ _ etb s draws₁ draws₂ k hdraw hm out R key hkey (rootPrepared_not_nan _ _)
    (fun _ _ _ _ _ hp h1 h2 h3 => wind_root_value L hp h1 h2 h3)
    (fun st hst _ z1 z2 => exists_not_keyError (wind_root_exists L z1 z2 (hs st hst))) h hne

/-- C258, ECNT lines: RMSE and spread (`EcntRootScore`). -/
theorem C258_ensembles (etb : List PyNum → List PyNum → PyNum) (s : BootSettings) (draws₁ draws₂ : ℕ → ℕ → List (List ℕ))
    (k : ℕ) (hdraw : ∀ i n, IndexMatrix n k (draws₁ i n)) (hm : s.method ≠ .other) (out : List BootOut)
    (R : OneAxisRun f p init sv parts fix fv sts rest) (key : List Val → String)
    (hkey : ∀ r ∈ f.rows, IsCaseKey f p.indyVar true r (key r)) (n : List Val → ℚ) (x : String → List Val → ℚ)
    (L : EcntLines f n x)
    (hs : ∀ st ∈ p.axis₁.stats, lower st ∈ ["ecnt_rmse", "ecnt_rmse_oerr", "ecnt_spread", "ecnt_spread_oerr"])
    (h : bootRun (rootPrepared .ecnt f) etb s draws₁ draws₂ f p = .ok out) (hne : out ≠ []) :
    ShowsScores f p (init ++ [sv]) parts fix fv key k s.method (EcntRootScore n x) out :=
  shows_scores _ _ etb s draws₁ draws₂ k hdraw hm out R key hkey (rootPrepared_not_nan _ _)
    (fun _ _ _ _ _ hp h1 h2 h3 => ecnt_root_value R.input.wf L hp h1 h2 h3)
    (fun st hst zs z1 z2 => by
      obtain ⟨c, hc, e⟩ : ∃ c ∈ ["rmse", "rmse_oerr", "spread", "spread_oerr"], lower st = "ecnt_" ++ c := by
        have := hs st hst
        generalize lower st = s' at this
        simp only [List.mem_cons, List.not_mem_nil, or_false] at this
        rcases this with rfl | rfl | rfl | rfl
        exacts [⟨"rmse", by simp, rfl⟩, ⟨"rmse_oerr", by simp, rfl⟩, ⟨"spread", by simp, rfl⟩, ⟨"spread_oerr", by simp, rfl⟩]
      rw [e]
      exact exists_not_keyError ⟨_, ecnt_roots R.input.wf L (List.Perm.refl _) z1 z2 hc⟩) h hne

/-- C258, SSVAR lines: spread/skill statistics (`SpreadScore`). -/
theorem C258_spread (etb : List PyNum → List PyNum → PyNum) (s : BootSettings) (draws₁ draws₂ : ℕ → ℕ → List (List ℕ)) (k : ℕ)
    (hdraw : ∀ i n, IndexMatrix n k (draws₁ i n)) (hm : s.method ≠ .other) (out : List BootOut)
    (R : OneAxisRun f p init sv parts fix fv sts rest) (key : List Val → String)
    (hkey : ∀ r ∈ f.rows, IsCaseKey f p.indyVar true r (key r)) (points : List Val → List (Pair × ℚ))
    (L : SsvarLines f points)
    (hs : ∀ st ∈ p.axis₁.stats, lower st ∈ ["ssvar_fbar", "ssvar_obar", "ssvar_me", "ssvar_me2", "ssvar_mse", "ssvar_rmse",
      "ssvar_bcmse", "ssvar_fstdev", "ssvar_ostdev", "ssvar_pr_corr", "ssvar_msess", "ssvar_spread"])
    (h : bootRun (spreadPrepared f) etb s draws₁ draws₂ f p = .ok out) (hne : out ≠ []) :
    ShowsScores f p (init ++ [sv]) parts fix fv key k s.method
      (fun s rows v => SpreadScore s (rows.flatMap points) v) out :=
  shows_scores _ _ etb s draws₁ draws₂ k hdraw hm out R key hkey (spreadPrepared_not_nan _)
    (fun _ _ _ _ _ hp h1 h2 h3 => spread_value L hp h1 h2 h3)
    (fun st hst _ z1 z2 => exists_not_keyError (spread_exists L z1 z2 (hs st hst))) h hne

/-! ### Completion -/

/-- C262: RMSE of SL1L2 lines. -/
theorem C262_rmse (etb : List PyNum → List PyNum → PyNum) (s : BootSettings) (draws₁ draws₂ : ℕ → ℕ → List (List ℕ)) (k : ℕ)
    (hk : 0 < k) (hdraw : ∀ i n, IndexMatrix n k (draws₁ i n)) (R : OneAxisRun f p init sv parts fix fv sts rest)
    (hnd : p.axis₁.derived = []) (pairs : List Val → List Pair) (L : Sl1l2Lines f pairs)
    (hs : ∀ st ∈ p.axis₁.stats, lower st = "rmse") :
    ∃ out, bootRun (rootPrepared .fields f) etb s draws₁ draws₂ f p = .ok out :=
  C262_completes_partial _ etb s draws₁ draws₂ k hk hdraw R hnd (fun st hst zs z1 z2 => by
    rw [hs st hst]
    exact ⟨_, root_except rfl (rmse_value (sl_table L z1 z2))⟩)

/-- C262: root mean square anomalies of SAL1L2 lines. -/
theorem C262_anomalies (etb : List PyNum → List PyNum → PyNum) (s : BootSettings) (draws₁ draws₂ : ℕ → ℕ → List (List ℕ))
    (k : ℕ) (hk : 0 < k) (hdraw : ∀ i n, IndexMatrix n k (draws₁ i n)) (R : OneAxisRun f p init sv parts fix fv sts rest)
    (hnd : p.axis₁.derived = []) (pairs : List Val → List Pair) (L : Sal1l2Lines f pairs)
    (hs : ∀ st ∈ p.axis₁.stats, lower st ∈ ["rmsfa", "rmsoa"]) :
    ∃ out, bootRun (rootPrepared .fields f) etb s draws₁ draws₂ f p = .ok out :=
  C262_completes_partial _ etb s draws₁ draws₂ k hk hdraw R hnd (fun st hst zs z1 z2 => by
    have h := hs st hst
    generalize lower st = s' at h
    simp only [List.mem_cons, List.not_mem_nil, or_false] at h
    have D := sal_table L z1 z2
    rcases h with rfl | rfl
    · exact ⟨_, root_real rfl (C96_rms _ _ D).1⟩
    · exact ⟨_, root_real rfl (C96_rms _ _ D).2⟩)

/-- C262: wind statistics of VL1L2 and VCNT lines. -/
theorem C262_winds (etb : List PyNum → List PyNum → PyNum) (s : BootSettings) (draws₁ draws₂ : ℕ → ℕ → List (List ℕ)) (k : ℕ)
    (hk : 0 < k) (hdraw : ∀ i n, IndexMatrix n k (draws₁ i n)) (R : OneAxisRun f p init sv parts fix fv sts rest)
    (hnd : p.axis₁.derived = []) (pairs : List Val → List WindPair) (L : WindLines vl1l2Columns f pairs)
    (hs : ∀ st ∈ p.axis₁.stats, lower st ∈ ["vl1l2_msve", "vl1l2_rmsve", "vl1l2_bias", "vl1l2_speed_err", "vcnt_msve",
      "vcnt_rmsve", "vcnt_fbar", "vcnt_obar", "vcnt_fs_rms", "vcnt_os_rms", "vcnt_fbar_speed", "vcnt_obar_speed",
      "vcnt_vdiff_speed", "vcnt_speed_err", "vcnt_speed_abserr"]) :
    ∃ out, bootRun (rootPrepared .fields f) etb s draws₁ draws₂ f p = .ok out :=
  C262_completes_partial _ etb s draws₁ draws₂ k hk hdraw R hnd (fun st hst zs z1 z2 => by
    have D := wind_table L z1 z2
    obtain ⟨a1, a2⟩ := C68_msve_partial _ _ D "vl1l2" (.inl rfl)
    obtain ⟨a3, a4⟩ := C68_msve_partial _ _ D "vcnt" (.inr rfl)
    obtain ⟨b1, b2, b3, b4, b5⟩ := C68_speeds_partial _ _ D
    obtain ⟨m1, m2, m3, m4⟩ := C68_mean_vectors_partial _ _ D
    have se := C68_speed_err_partial _ _ D
    have h := hs st hst
    generalize lower st = s' at h
    simp only [List.mem_cons, List.not_mem_nil, or_false] at h
    rcases h with rfl | rfl | rfl | rfl | rfl | rfl | rfl | rfl | rfl | rfl | rfl | rfl | rfl | rfl | rfl
    · exact ⟨_, root_rat rfl a1⟩
    · exact ⟨_, root_real rfl a2⟩
    · exact ⟨_, root_real rfl b5⟩
    · exact ⟨_, root_real rfl (se _ (.inl rfl))⟩
    · exact ⟨_, root_rat rfl a3⟩
    · exact ⟨_, root_real rfl a4⟩
    · exact ⟨_, root_rat rfl b1⟩
    · exact ⟨_, root_rat rfl b2⟩
    · exact ⟨_, root_real rfl b3⟩
    · exact ⟨_, root_real rfl b4⟩
    · exact ⟨_, root_real rfl m1⟩
    · exact ⟨_, root_real rfl m2⟩
    · exact ⟨_, root_real rfl m3⟩
    · exact ⟨_, root_real rfl (se _ (.inr rfl))⟩
    · exact ⟨_, root_real rfl m4⟩)

/-- C262: RMSE and spread of ECNT lines. -/
theorem C262_ensembles (etb : List PyNum → List PyNum → PyNum) (s : BootSettings) (draws₁ draws₂ : ℕ → ℕ → List (List ℕ))
    (k : ℕ) (hk : 0 < k) (hdraw : ∀ i n, IndexMatrix n k (draws₁ i n)) (R : OneAxisRun f p init sv parts fix fv sts rest)
    (hnd : p.axis₁.derived = []) (n : List Val → ℚ) (x : String → List Val → ℚ) (L : EcntLines f n x)
    (hs : ∀ st ∈ p.axis₁.stats, lower st ∈ ["ecnt_rmse", "ecnt_rmse_oerr", "ecnt_spread", "ecnt_spread_oerr"]) :
    ∃ out, bootRun (rootPrepared .ecnt f) etb s draws₁ draws₂ f p = .ok out :=
  C262_completes_partial _ etb s draws₁ draws₂ k hk hdraw R hnd (fun st hst zs z1 z2 => by
    obtain ⟨c, hc, e⟩ : ∃ c ∈ ["rmse", "rmse_oerr", "spread", "spread_oerr"], lower st = "ecnt_" ++ c := by
      have := hs st hst
      generalize lower st = s' at this
      simp only [List.mem_cons, List.not_mem_nil, or_false] at this
      rcases this with rfl | rfl | rfl | rfl
      exacts [⟨"rmse", by simp, rfl⟩, ⟨"rmse_oerr", by simp, rfl⟩, ⟨"spread", by simp, rfl⟩, ⟨"spread_oerr", by simp, rfl⟩]
    rw [e]
    exact ⟨_, ecnt_roots R.input.wf L (List.Perm.refl _) z1 z2 hc⟩)

/-- C262: means, errors and spread of SSVAR lines. -/
theorem C262_spread (etb : List PyNum → List PyNum → PyNum) (s : BootSettings) (draws₁ draws₂ : ℕ → ℕ → List (List ℕ)) (k : ℕ)
    (hk : 0 < k) (hdraw : ∀ i n, IndexMatrix n k (draws₁ i n)) (R : OneAxisRun f p init sv parts fix fv sts rest)
    (hnd : p.axis₁.derived = []) (points : List Val → List (Pair × ℚ)) (L : SsvarLines f points)
    (hs : ∀ st ∈ p.axis₁.stats, lower st ∈ ["ssvar_fbar", "ssvar_obar", "ssvar_me", "ssvar_me2", "ssvar_mse", "ssvar_rmse",
      "ssvar_bcmse", "ssvar_spread"]) :
    ∃ out, bootRun (spreadPrepared f) etb s draws₁ draws₂ f p = .ok out :=
  C262_completes_partial _ etb s draws₁ draws₂ k hk hdraw R hnd (fun st hst zs z1 z2 => by
    have h := hs st hst
    generalize lower st = s' at h
    have h' : s' ∈ ["ssvar_fbar", "ssvar_obar", "ssvar_me", "ssvar_me2", "ssvar_mse", "ssvar_rmse", "ssvar_bcmse",
        "ssvar_fstdev", "ssvar_ostdev", "ssvar_pr_corr", "ssvar_msess", "ssvar_spread"] := by
      simp only [List.mem_cons, List.not_mem_nil, or_false] at h ⊢
      tauto
    obtain ⟨v, hv⟩ := spread_exists L z1 z2 h'
    have S := spread_value L (List.Perm.refl zs) z1 z2 hv
    rw [hv]
    simp only [List.mem_cons, List.not_mem_nil, or_false] at h
    rcases h with rfl | rfl | rfl | rfl | rfl | rfl | rfl | rfl
    · exact ⟨_, by rw [S.fbar rfl]⟩
    · exact ⟨_, by rw [S.obar rfl]⟩
    · exact ⟨_, by rw [S.me rfl]⟩
    · exact ⟨_, by rw [S.me2 rfl]⟩
    · exact ⟨_, by rw [S.mse rfl]⟩
    · obtain ⟨q, e, -⟩ := (S.rmse rfl).value
      exact ⟨q, by rw [e]⟩
    · obtain ⟨q, e, -⟩ := S.bcmse rfl
      exact ⟨q, by rw [e]⟩
    · obtain ⟨q, e, -⟩ := S.spread rfl
      exact ⟨q, by rw [e]⟩)

end

/-! ### Examples -/

example : ∃ out, bootRun (rootPrepared .fields (exRootSl "RMSE")) (fun _ _ => .none) ⟨1 / 2, .perc, true⟩ threeDraws threeDraws
    (exRootSl "RMSE") (exLinesParams "RMSE") = .ok out ∧ out ≠ [] ∧
    ShowsScores (exRootSl "RMSE") (exLinesParams "RMSE") [("model", ["A", "B"])] (fun v => [v]) [] "TMP" exRunKey 3 .perc
      (fun s rows v => RootScore s (rows.flatMap exRootPairs) v) out := by
  obtain ⟨out, h⟩ := C262_rmse (fun _ _ => .none) ⟨1 / 2, .perc, true⟩ threeDraws threeDraws 3 (by decide) threeDraws_ok
    exRootSl_input rfl exRootPairs exRootSl_lines (by decide +kernel)
  have hne := boot_nonempty _ _ _ _ _ 3 threeDraws_ok _ exRootSl_input
    (fun st hst _ z1 z2 => exists_not_keyError (sl_root_exists exRootSl_lines z1 z2 (by
      rw [List.mem_singleton.mp hst]; decide +kernel))) h _ rfl rfl (by decide +kernel) (by decide +kernel)
    ["A", "6", "RMSE"] (.cons (by decide) (.cons (by decide) (.cons (by decide) .nil)))
  exact ⟨out, h, hne, C258_roots _ _ _ _ 3 threeDraws_ok (by simp) out exRootSl_input exRunKey (exLines_key _ _ _) exRootPairs exRootSl_lines
    (by decide +kernel) h hne⟩

/-- SAL1L2 lines. -/
def exBootSal : Frame := exLines ["total", "fabar", "oabar", "foabar", "ffabar", "ooabar"] "RMSFA"
  [("t1", "A", [2, 3, 2, 7, 10, 5]), ("t2", "A", [1, 9, 1, 9, 81, 1]), ("t1", "B", [2, 2, 2, 5, 5, 5]),
   ("t3", "A", [1, 3, 2, 6, 9, 4]), ("t3", "B", [1, 8, 2, 16, 64, 4])]

theorem exBootSal_lines : Sal1l2Lines exBootSal exRootPairs where
  batch := by decide +kernel
  total := exLines_number 5 rfl (by decide +kernel) (by decide +kernel)
  fabar := exLines_number 6 rfl (by decide +kernel) (by decide +kernel)
  oabar := exLines_number 7 rfl (by decide +kernel) (by decide +kernel)
  foabar := exLines_number 8 rfl (by decide +kernel) (by decide +kernel)
  ffabar := exLines_number 9 rfl (by decide +kernel) (by decide +kernel)
  ooabar := exLines_number 10 rfl (by decide +kernel) (by decide +kernel)

theorem exBootSal_input : OneAxisRun exBootSal (exLinesParams "RMSFA") [] ("model", ["A", "B"]) (fun v => [v]) [] "TMP"
    ["RMSFA"] [] :=
  exLines_input (by unfold FrameWF; decide +kernel) (by decide)
    ⟨by decide, by decide, plainText_of (by decide) (by decide) (by decide)⟩ (by decide +kernel)

example : ∃ out, bootRun (rootPrepared .fields exBootSal) (fun _ _ => .none) ⟨1 / 2, .pivotal, false⟩ threeDraws threeDraws
    exBootSal (exLinesParams "RMSFA") = .ok out ∧ out ≠ [] ∧
    ShowsScores exBootSal (exLinesParams "RMSFA") [("model", ["A", "B"])] (fun v => [v]) [] "TMP" exRunKey 3 .pivotal
      (fun s rows v => AnomalyScore s (rows.flatMap exRootPairs) v) out := by
  obtain ⟨out, h⟩ := C262_anomalies (fun _ _ => .none) ⟨1 / 2, .pivotal, false⟩ threeDraws threeDraws 3 (by decide) threeDraws_ok
    exBootSal_input rfl exRootPairs exBootSal_lines (by decide +kernel)
  have hne := boot_nonempty _ _ _ _ _ 3 threeDraws_ok _ exBootSal_input
    (fun st hst _ z1 z2 => exists_not_keyError (sal_root_exists exBootSal_lines z1 z2 (by
      rw [List.mem_singleton.mp hst]; decide +kernel))) h _ rfl rfl (by decide +kernel) (by decide +kernel)
    ["A", "6", "RMSFA"] (.cons (by decide) (.cons (by decide) (.cons (by decide) .nil)))
  exact ⟨out, h, hne, C258_anomalies _ _ _ _ 3 threeDraws_ok (by simp) out exBootSal_input exRunKey (exLines_key _ _ _)
    exRootPairs exBootSal_lines (by decide +kernel) h hne⟩

example : ∃ out, bootRun (rootPrepared .fields exRootVl) (fun _ _ => .none) ⟨1 / 2, .perc, false⟩ threeDraws threeDraws
    exRootVl (exLinesParams "VL1L2_RMSVE") = .ok out ∧ out ≠ [] ∧
    ShowsScores exRootVl (exLinesParams "VL1L2_RMSVE") [("model", ["A", "B"])] (fun v => [v]) [] "TMP" exRunKey 3 .perc
      (fun s rows v => WindScore s (rows.flatMap exRootWinds) v) out := by
  obtain ⟨out, h⟩ := C262_winds (fun _ _ => .none) ⟨1 / 2, .perc, false⟩ threeDraws threeDraws 3 (by decide) threeDraws_ok
    exRootVl_input rfl exRootWinds exRootVl_lines (by decide +kernel)
  have hne := boot_nonempty _ _ _ _ _ 3 threeDraws_ok _ exRootVl_input
    (fun st hst _ z1 z2 => exists_not_keyError (wind_root_exists exRootVl_lines z1 z2 (by
      rw [List.mem_singleton.mp hst]; decide +kernel))) h _ rfl rfl (by decide +kernel) (by decide +kernel)
    ["A", "6", "VL1L2_RMSVE"] (.cons (by decide) (.cons (by decide) (.cons (by decide) .nil)))
  exact ⟨out, h, hne, C258_winds _ _ _ _ 3 threeDraws_ok (by simp) out exRootVl_input exRunKey (exLines_key _ _ _)
    exRootWinds exRootVl_lines (by decide +kernel) h hne⟩

example : ∃ out, bootRun (rootPrepared .ecnt exRootEcnt) (fun _ _ => .none) ⟨1 / 2, .perc, false⟩ threeDraws threeDraws
    exRootEcnt (exLinesParams "ECNT_RMSE") = .ok out ∧ out ≠ [] ∧
    ShowsScores exRootEcnt (exLinesParams "ECNT_RMSE") [("model", ["A", "B"])] (fun v => [v]) [] "TMP" exRunKey 3 .perc
      (EcntRootScore (exNum 5) exEcntField) out := by
  obtain ⟨out, h⟩ := C262_ensembles (fun _ _ => .none) ⟨1 / 2, .perc, false⟩ threeDraws threeDraws 3 (by decide) threeDraws_ok
    exRootEcnt_input rfl _ _ exRootEcnt_lines (by decide +kernel)
  have hne := boot_nonempty _ _ _ _ _ 3 threeDraws_ok _ exRootEcnt_input
    (fun st hst _ z1 z2 => exists_not_keyError (by
      rw [List.mem_singleton.mp hst]
      exact ⟨_, ecnt_roots exRootEcnt_input.input.wf exRootEcnt_lines (List.Perm.refl _) z1 z2 (c := "rmse") (by simp)⟩))
    h _ rfl rfl (by decide +kernel) (by decide +kernel)
    ["A", "6", "ECNT_RMSE"] (.cons (by decide) (.cons (by decide) (.cons (by decide) .nil)))
  exact ⟨out, h, hne, C258_ensembles _ _ _ _ 3 threeDraws_ok (by simp) out exRootEcnt_input exRunKey (exLines_key _ _ _)
    _ _ exRootEcnt_lines (by decide +kernel) h hne⟩

example : ∃ out, bootRun (spreadPrepared (exSpread "SSVAR_RMSE")) (fun _ _ => .none) ⟨1 / 2, .perc, false⟩ threeDraws threeDraws
    (exSpread "SSVAR_RMSE") (exLinesParams "SSVAR_RMSE") = .ok out ∧ out ≠ [] ∧
    ShowsScores (exSpread "SSVAR_RMSE") (exLinesParams "SSVAR_RMSE") [("model", ["A", "B"])] (fun v => [v]) [] "TMP" exRunKey 3
      .perc (fun s rows v => SpreadScore s (rows.flatMap exSpreadPoints) v) out := by
  have R := exSpread_input "SSVAR_RMSE" (by decide)
  have L := exSpread_lines "SSVAR_RMSE" (by decide)
  obtain ⟨out, h⟩ := C262_spread (fun _ _ => .none) ⟨1 / 2, .perc, false⟩ threeDraws threeDraws 3 (by decide) threeDraws_ok
    R rfl exSpreadPoints L (by decide +kernel)
  have hne := boot_nonempty _ _ _ _ _ 3 threeDraws_ok _ R
    (fun st hst _ z1 z2 => exists_not_keyError (spread_exists L z1 z2 (by
      rw [List.mem_singleton.mp hst]; decide +kernel))) h _ rfl rfl (by decide +kernel) (by decide +kernel)
    ["A", "6", "SSVAR_RMSE"] (.cons (by decide) (.cons (by decide) (.cons (by decide) .nil)))
  exact ⟨out, h, hne, C258_spread _ _ _ _ 3 threeDraws_ok (by simp) out R exRunKey (exLines_key _ _ _)
    exSpreadPoints L (by decide +kernel) h hne⟩

end Metcalcpy.Props
