/-
C258 Bootstrap limits in aggregation tables: ensemble means and counts (ECNT), neighborhood scores (NBRCNT), ranked
     probability scores (RPS), gradient scores (GRAD), multi-category skill (MCTC) and neighborhood contingency scores.
C262 Such a run completes if the statistics have a number for every set of lines.
-/
import Verif.Props.C258_RootLimits
import Verif.Props.C252_AggCounts

namespace Metcalcpy.Props
open Metcalcpy Spec

/-! ### Existence of the statistics -/

theorem ensemblePrepared_not_nan (l : EnsembleLine) (f : Frame) (s : String) (zs : List (List Val)) :
    ensemblePrepared l f s zs ≠ .ok .nan := by
  intro h
  unfold ensemblePrepared at h
  simp only [bind, Except.bind] at h
  split at h
  · cases h
  · split at h
    · cases h
    · next c _ =>
      revert h
      cases c _ true <;> intro h <;> simp [toPyNum] at h

theorem tallyPrepared_not_nan (l : CountLine) (f : Frame) (s : String) (zs : List (List Val)) :
    tallyPrepared l f s zs ≠ .ok .nan := by
  intro h
  unfold tallyPrepared at h
  simp only [bind, Except.bind] at h
  split at h
  · cases h
  · split at h
    · cases h
    · next c _ =>
      revert h
      cases c _ with
      | error e => intro h; cases h
      | ok x => cases x <;> intro h <;> simp [Except.map, toPyNum] at h

theorem ensemble_exists {l : EnsembleLine} {f : Frame} {s : String} {data : List (List Val)} {t : Table}
    (hl : (ensembleFunctions.lookup s).isSome) (hp : prepareEnsemble l s (numericTable f.cols data) = .ok t) :
    ∃ v, ensemblePrepared l f s data = .ok v := by
  obtain ⟨c, hc⟩ := Option.isSome_iff_exists.mp hl
  unfold ensemblePrepared
  simp only [bind, Except.bind, hp, hc]
  exact ⟨_, rfl⟩

/-- Means and counts of ECNT lines are numbers. -/
theorem ecnt_number {f : Frame} (hwf : FrameWF f) {n : List Val → ℚ} {x : String → List Val → ℚ} (L : EcntLines f n x)
    {data : List (List Val)} (hne : data ≠ []) (hsub : ∀ r ∈ data, r ∈ f.rows) {c : String}
    (hc : c ∈ ["crps", "ign", "me", "me_oerr", "crpscl", "crps_emp", "crpscl_emp", "crps_emp_fair", "spread_md", "mae",
      "mae_oerr", "n_ge_obs", "n_lt_obs"]) : ∃ q, ensemblePrepared .ecnt f ("ecnt_" ++ c) data = .ok (.num q) := by
  have D := ecnt_table hwf L hne hsub
  have hcol : c ∈ ecntColumns := by
    simp only [List.mem_cons, List.not_mem_nil, or_false] at hc
    rcases hc with rfl | rfl | rfl | rfl | rfl | rfl | rfl | rfl | rfl | rfl | rfl | rfl | rfl <;> simp [ecntColumns]
  have col : CompleteColumn (numericTable f.cols data) c (data.map (x c)) :=
    completeColumn_numeric hne (fun r hr => L.field c hcol r (hsub r hr))
  by_cases hm : c ∈ ["crps", "ign", "me", "me_oerr", "crpscl", "crps_emp", "crpscl_emp", "crps_emp_fair", "spread_md",
      "mae", "mae_oerr"]
  · have ha := C21_means_partial _ _ _ _ _ _ _ D c _ col hm
    have hl : ensembleFunctions.lookup ("ecnt_" ++ c) = some (weightedAverage c) := by
      simp only [List.mem_cons, List.not_mem_nil, or_false] at hm
      rcases hm with rfl | rfl | rfl | rfl | rfl | rfl | rfl | rfl | rfl | rfl | rfl <;> rfl
    exact ⟨_, ensemblePrepared_of (l := .ecnt) hl ha⟩
  · have hm' : c = "n_ge_obs" ∨ c = "n_lt_obs" := by
      simp only [List.mem_cons, List.not_mem_nil, or_false] at hc hm
      tauto
    have ha := C97_counts _ _ _ _ _ _ _ D c hm' _ col
    have hl : ensembleFunctions.lookup ("ecnt_" ++ c) = some (ecntCount c) := by rcases hm' with rfl | rfl <;> rfl
    exact ⟨_, ensemblePrepared_of (l := .ecnt) hl ha⟩

theorem nbrcnt_exists {f : Frame} (hwf : FrameWF f) {n b d fr o : List Val → ℚ} (L : NbrCntLines f n b d fr o)
    {data : List (List Val)} (hne : data ≠ []) (hsub : ∀ r ∈ data, r ∈ f.rows) {s : String}
    (hs : s ∈ ["nbr_fbs", "nbr_f_rate", "nbr_fss"]) : ∃ v, ensemblePrepared .nbrCnt f s data = .ok v := by
  have D := nbrcnt_table hwf L hne hsub
  obtain ⟨t', h, -⟩ := nbr_prepared D.toWeightedRows D.fbs D.fss D.f_rate D.o_rate
  refine ensemble_exists (t := t') ?_ h
  simp only [List.mem_cons, List.not_mem_nil, or_false] at hs
  rcases hs with rfl | rfl | rfl <;> rfl

theorem rps_exists {f : Frame} (hwf : FrameWF f) {n x c k : List Val → ℚ} (L : RpsLines f n x c k)
    {data : List (List Val)} (hne : data ≠ []) (hsub : ∀ r ∈ data, r ∈ f.rows) {s : String}
    (hs : s ∈ ["rps", "rps_comp", "rpss"]) : ∃ v, ensemblePrepared .rps f s data = .ok v := by
  have D := rps_table hwf L hne hsub
  obtain ⟨t', h, -⟩ := rps_prepared D.toWeightedRows D.rps D.rpss D.rps_comp
  refine ensemble_exists (t := t') ?_ h
  simp only [List.mem_cons, List.not_mem_nil, or_false] at hs
  rcases hs with rfl | rfl | rfl <;> rfl

theorem grad_exists {f : Frame} {pairs : List Val → List Pair} (L : GradLines f pairs)
    {data : List (List Val)} (hne : data ≠ []) (hsub : ∀ r ∈ data, r ∈ f.rows) {s : String}
    (hs : s ∈ ["fgbar", "ogbar", "mgbar", "egbar", "s1", "s1_og", "fgog_ratio"]) :
    ∃ v, ensemblePrepared .grad f s data = .ok v := by
  have D := grad_table L hne hsub
  have key : ∃ fields, fieldsOf s = some fields ∧ fields.Nodup ∧ "total" ∉ fields ∧
      ∀ c ∈ fields, c ∈ ["fgbar", "ogbar", "mgbar", "egbar"] := by
    simp only [List.mem_cons, List.not_mem_nil, or_false] at hs
    rcases hs with rfl | rfl | rfl | rfl | rfl | rfl | rfl <;> exact ⟨_, rfl, by decide, by decide, by decide⟩
  obtain ⟨fields, k1, k2, k3, k4⟩ := key
  obtain ⟨t', h, -⟩ := batch_prepared D s fields k1 k2 k3 k4
  refine ensemble_exists (t := t') ?_ h
  simp only [List.mem_cons, List.not_mem_nil, or_false] at hs
  rcases hs with rfl | rfl | rfl | rfl | rfl | rfl | rfl <;> rfl

theorem mctc_not_keyError {f : Frame} {n : ℕ} {ec : List Val → ℚ} {cats : List CatColumn} (L : MctcLines f n ec cats)
    {data : List (List Val)} (hne : data ≠ []) (hsub : ∀ r ∈ data, r ∈ f.rows) :
    tallyPrepared .mctc f "mcts_hss_ec" data ≠ .error .keyError := by
  cases hc : ecCheck (numericTable f.cols data) with
  | ok u =>
    obtain ⟨e, he⟩ := (mctc_check L hne hsub).mp hc
    rw [tallyPrepared_of (l := .mctc) rfl (by unfold prepareCounts; rw [hc]; rfl),
      C60_hss_ec _ n e _ (mctc_table L hne hsub he)]
    simp [Except.map]
  | error e =>
    have hcol : columnData (numericTable f.cols data) "ec_value" = some ((data.map ec).map some) :=
      columnData_of_isColumn (completeColumn_numeric hne (fun r hr => L.ec_value r (hsub r hr)))
    have : e ≠ .keyError := by
      rintro rfl
      unfold ecCheck at hc
      rw [hcol] at hc
      cases data with
      | nil => exact hne rfl
      | cons r data =>
        simp only [List.map_cons] at hc
        split at hc <;> simp at hc
    intro h
    unfold tallyPrepared prepareCounts at h
    simp only [bind, Except.bind, hc, Except.error.injEq] at h
    exact this h

theorem nbrctc_exists {f : Frame} {counts : List Val → Ctc} (L : CtcLines f counts)
    {data : List (List Val)} (hne : data ≠ []) (hsub : ∀ r ∈ data, r ∈ f.rows) {s : String}
    (hs : s ∈ ["nbr_baser", "nbr_acc", "nbr_fbias", "nbr_fmean", "nbr_pody", "nbr_pofd", "nbr_podn", "nbr_far", "nbr_csi",
      "nbr_gss", "nbr_hss"]) : ∃ v, tallyPrepared .nbrCtc f s data = .ok v := by
  have D := ctc_table L hne hsub
  obtain ⟨r1, r2, r3, r4, r5, r6, r7, r8, r9, -⟩ := C183_nbr_scores D
  obtain ⟨r10, r11⟩ := C183_nbr_skill D
  simp only [List.mem_cons, List.not_mem_nil, or_false] at hs
  rcases hs with rfl | rfl | rfl | rfl | rfl | rfl | rfl | rfl | rfl | rfl | rfl <;> rw [tallyPrepared_of (l := .nbrCtc) rfl rfl]
  · rw [r1]; exact ⟨_, rfl⟩
  · rw [r2]; exact ⟨_, rfl⟩
  · rw [r3]; exact ⟨_, rfl⟩
  · rw [r4]; exact ⟨_, rfl⟩
  · rw [r5]; exact ⟨_, rfl⟩
  · rw [r6]; exact ⟨_, rfl⟩
  · rw [r7]; exact ⟨_, rfl⟩
  · rw [r8]; exact ⟨_, rfl⟩
  · rw [r9]; exact ⟨_, rfl⟩
  · by_cases h0 : (data.map fun r => (counts r).total).sum = 0
    · rw [(r10 h0).1]; exact ⟨_, rfl⟩
    · rw [(r11 h0).1]; exact ⟨_, rfl⟩
  · by_cases h0 : (data.map fun r => (counts r).total).sum = 0
    · rw [(r10 h0).2]; exact ⟨_, rfl⟩
    · rw [(r11 h0).2]; exact ⟨_, rfl⟩

/-! ### The runs -/

section
variable {f : Frame} {p : AggParams} {init : List (String × List String)} {sv : String × List String}
  {parts : String → List String} {fix : List (String × List String)} {fv : String} {sts : List String}
  {rest : List (String × List String)}

/-- C258, ECNT lines: means and counts (`EcntScore`). -/
theorem C258_ecnt (etb : List PyNum → List PyNum → PyNum) (s : BootSettings) (draws₁ draws₂ : ℕ → ℕ → List (List ℕ)) (k : ℕ)
    (hdraw : ∀ i n, IndexMatrix n k (draws₁ i n)) (hm : s.method ≠ .other) (out : List BootOut)
    (R : OneAxisRun f p init sv parts fix fv sts rest) (key : List Val → String)
    (hkey : ∀ r ∈ f.rows, IsCaseKey f p.indyVar true r (key r)) (n : List Val → ℚ) (x : String → List Val → ℚ)
    (L : EcntLines f n x)
    (hs : ∀ st ∈ p.axis₁.stats, ∃ c ∈ ["crps", "ign", "me", "me_oerr", "crpscl", "crps_emp", "crpscl_emp",
      "crps_emp_fair", "spread_md", "mae", "mae_oerr", "n_ge_obs", "n_lt_obs"], lower st = "ecnt_" ++ c)
    (h : bootRun (ensemblePrepared .ecnt f) etb s draws₁ draws₂ f p = .ok out) (hne : out ≠ []) :
    ShowsScores f p (init ++ [sv]) parts fix fv key k s.method
      (EcntScore n x) out :=
  shows_scores _ _ etb s draws₁ draws₂ k hdraw hm out R key hkey (ensemblePrepared_not_nan _ _)
    (fun _ _ _ _ _ hp h1 h2 h3 => ecnt_value R.input.wf L hp h1 h2 h3)
    (fun st hst _ z1 z2 => by
      obtain ⟨c, hc, e⟩ := hs st hst
      obtain ⟨q, hq⟩ := ecnt_number R.input.wf L z1 z2 hc
      exact exists_not_keyError ⟨_, e ▸ hq⟩) h hne

/-- C258, NBRCNT lines: FBS, FSS and the forecast rate (`NbrCntScore`). -/
theorem C258_nbrcnt (etb : List PyNum → List PyNum → PyNum) (s : BootSettings) (draws₁ draws₂ : ℕ → ℕ → List (List ℕ)) (k : ℕ)
    (hdraw : ∀ i n, IndexMatrix n k (draws₁ i n)) (hm : s.method ≠ .other) (out : List BootOut)
    (R : OneAxisRun f p init sv parts fix fv sts rest) (key : List Val → String)
    (hkey : ∀ r ∈ f.rows, IsCaseKey f p.indyVar true r (key r)) (n b d fr o : List Val → ℚ)
    (L : NbrCntLines f n b d fr o)
    (hs : ∀ st ∈ p.axis₁.stats, lower st ∈ ["nbr_fbs", "nbr_f_rate", "nbr_fss"])
    (h : bootRun (ensemblePrepared .nbrCnt f) etb s draws₁ draws₂ f p = .ok out) (hne : out ≠ []) :
    ShowsScores f p (init ++ [sv]) parts fix fv key k s.method
      (NbrCntScore n b d fr) out :=
  shows_scores _ _ etb s draws₁ draws₂ k hdraw hm out R key hkey (ensemblePrepared_not_nan _ _)
    (fun _ _ _ _ _ hp h1 h2 h3 => nbrcnt_value R.input.wf L hp h1 h2 h3)
    (fun st hst _ z1 z2 => exists_not_keyError (nbrcnt_exists R.input.wf L z1 z2 (hs st hst))) h hne

/-- C258, RPS lines: ranked probability score, complement and skill score (`RpsScore`). -/
theorem C258_rps (etb : List PyNum → List PyNum → PyNum) (s : BootSettings) (draws₁ draws₂ : ℕ → ℕ → List (List ℕ)) (k : ℕ)
    (hdraw : ∀ i n, IndexMatrix n k (draws₁ i n)) (hm : s.method ≠ .other) (out : List BootOut)
    (R : OneAxisRun f p init sv parts fix fv sts rest) (key : List Val → String)
    (hkey : ∀ r ∈ f.rows, IsCaseKey f p.indyVar true r (key r)) (n x c m : List Val → ℚ)
    (L : RpsLines f n x c m)
    (hs : ∀ st ∈ p.axis₁.stats, lower st ∈ ["rps", "rps_comp", "rpss"])
    (h : bootRun (ensemblePrepared .rps f) etb s draws₁ draws₂ f p = .ok out) (hne : out ≠ []) :
    ShowsScores f p (init ++ [sv]) parts fix fv key k s.method
      (RpsScore n x c m) out :=
  shows_scores _ _ etb s draws₁ draws₂ k hdraw hm out R key hkey (ensemblePrepared_not_nan _ _)
    (fun _ _ _ _ _ hp h1 h2 h3 => rps_value R.input.wf L hp h1 h2 h3)
    (fun st hst _ z1 z2 => exists_not_keyError (rps_exists R.input.wf L z1 z2 (hs st hst))) h hne

/-- C258, GRAD lines: gradient scores (`GradScore`). -/
theorem C258_grad (etb : List PyNum → List PyNum → PyNum) (s : BootSettings) (draws₁ draws₂ : ℕ → ℕ → List (List ℕ)) (k : ℕ)
    (hdraw : ∀ i n, IndexMatrix n k (draws₁ i n)) (hm : s.method ≠ .other) (out : List BootOut)
    (R : OneAxisRun f p init sv parts fix fv sts rest) (key : List Val → String)
    (hkey : ∀ r ∈ f.rows, IsCaseKey f p.indyVar true r (key r)) (pairs : List Val → List Pair)
    (L : GradLines f pairs)
    (hs : ∀ st ∈ p.axis₁.stats, lower st ∈ ["fgbar", "ogbar", "mgbar", "egbar", "s1", "s1_og", "fgog_ratio"])
    (h : bootRun (ensemblePrepared .grad f) etb s draws₁ draws₂ f p = .ok out) (hne : out ≠ []) :
    ShowsScores f p (init ++ [sv]) parts fix fv key k s.method
      (fun s rows v => GradScore s (rows.flatMap pairs) v) out :=
  shows_scores _ _ etb s draws₁ draws₂ k hdraw hm out R key hkey (ensemblePrepared_not_nan _ _)
    (fun _ _ _ _ _ hp h1 h2 h3 => grad_value L hp h1 h2 h3)
    (fun st hst _ z1 z2 => exists_not_keyError (grad_exists L z1 z2 (hs st hst))) h hne

/-- C258, MCTC lines: the skill score of the summed counts (`SkillEc`); the lines of a point share the expected-correct value. -/
theorem C258_mctc (etb : List PyNum → List PyNum → PyNum) (s : BootSettings) (draws₁ draws₂ : ℕ → ℕ → List (List ℕ)) (k : ℕ)
    (hdraw : ∀ i n, IndexMatrix n k (draws₁ i n)) (hm : s.method ≠ .other) (out : List BootOut)
    (R : OneAxisRun f p init sv parts fix fv sts rest) (key : List Val → String)
    (hkey : ∀ r ∈ f.rows, IsCaseKey f p.indyVar true r (key r)) (n : ℕ) (ec : List Val → ℚ)
    (cats : List CatColumn) (L : MctcLines f n ec cats)
    (hs : ∀ st ∈ p.axis₁.stats, lower st = "mcts_hss_ec")
    (h : bootRun (tallyPrepared .mctc f) etb s draws₁ draws₂ f p = .ok out) (hne : out ≠ []) :
    ShowsScores f p (init ++ [sv]) parts fix fv key k s.method
      (SkillEc cats ec) out :=
  shows_scores _ _ etb s draws₁ draws₂ k hdraw hm out R key hkey (tallyPrepared_not_nan _ _)
    (fun _ _ _ _ _ hp h1 h2 h3 => mctc_value L hp h1 h2 h3)
    (fun st hst _ z1 z2 => by rw [hs st hst]; exact mctc_not_keyError L z1 z2) h hne

/-- C258, NBR_CTC lines: scores of the summed counts (`CountScore`). -/
theorem C258_nbrctc (etb : List PyNum → List PyNum → PyNum) (s : BootSettings) (draws₁ draws₂ : ℕ → ℕ → List (List ℕ)) (k : ℕ)
    (hdraw : ∀ i n, IndexMatrix n k (draws₁ i n)) (hm : s.method ≠ .other) (out : List BootOut)
    (R : OneAxisRun f p init sv parts fix fv sts rest) (key : List Val → String)
    (hkey : ∀ r ∈ f.rows, IsCaseKey f p.indyVar true r (key r)) (counts : List Val → Ctc)
    (L : CtcLines f counts)
    (hs : ∀ st ∈ p.axis₁.stats, lower st ∈ ["nbr_baser", "nbr_acc", "nbr_fbias", "nbr_fmean", "nbr_pody", "nbr_pofd",
      "nbr_podn", "nbr_far", "nbr_csi", "nbr_gss", "nbr_hss"])
    (h : bootRun (tallyPrepared .nbrCtc f) etb s draws₁ draws₂ f p = .ok out) (hne : out ≠ []) :
    ShowsScores f p (init ++ [sv]) parts fix fv key k s.method
      (fun st rows v => ∀ s, st = "nbr_" ++ s → CountScore s (pooledCounts (rows.map counts)) v) out :=
  shows_scores _ _ etb s draws₁ draws₂ k hdraw hm out R key hkey (tallyPrepared_not_nan _ _)
    (fun _ _ _ _ _ hp h1 h2 h3 => nbr_value L hp h1 h2 h3)
    (fun st hst _ z1 z2 => exists_not_keyError (nbrctc_exists L z1 z2 (hs st hst))) h hne

/-- C262: means and counts of ECNT lines. -/
theorem C262_ecnt (etb : List PyNum → List PyNum → PyNum) (s : BootSettings) (draws₁ draws₂ : ℕ → ℕ → List (List ℕ))
    (k : ℕ) (hk : 0 < k) (hdraw : ∀ i n, IndexMatrix n k (draws₁ i n)) (R : OneAxisRun f p init sv parts fix fv sts rest)
    (hnd : p.axis₁.derived = []) (n : List Val → ℚ) (x : String → List Val → ℚ) (L : EcntLines f n x)
    (hs : ∀ st ∈ p.axis₁.stats, ∃ c ∈ ["crps", "ign", "me", "me_oerr", "crpscl", "crps_emp", "crpscl_emp",
      "crps_emp_fair", "spread_md", "mae", "mae_oerr", "n_ge_obs", "n_lt_obs"], lower st = "ecnt_" ++ c) :
    ∃ out, bootRun (ensemblePrepared .ecnt f) etb s draws₁ draws₂ f p = .ok out :=
  C262_completes_partial _ etb s draws₁ draws₂ k hk hdraw R hnd (fun st hst zs z1 z2 => by
    obtain ⟨c, hc, e⟩ := hs st hst
    rw [e]
    exact ecnt_number R.input.wf L z1 z2 hc)

/-- C262: FBS and the forecast rate of NBRCNT lines. -/
theorem C262_nbrcnt (etb : List PyNum → List PyNum → PyNum) (s : BootSettings) (draws₁ draws₂ : ℕ → ℕ → List (List ℕ))
    (k : ℕ) (hk : 0 < k) (hdraw : ∀ i n, IndexMatrix n k (draws₁ i n)) (R : OneAxisRun f p init sv parts fix fv sts rest)
    (hnd : p.axis₁.derived = []) (n b d fr o : List Val → ℚ) (L : NbrCntLines f n b d fr o)
    (hs : ∀ st ∈ p.axis₁.stats, lower st = "nbr_fbs" ∨ lower st = "nbr_f_rate") :
    ∃ out, bootRun (ensemblePrepared .nbrCnt f) etb s draws₁ draws₂ f p = .ok out :=
  C262_completes_partial _ etb s draws₁ draws₂ k hk hdraw R hnd (fun st hst zs z1 z2 => by
    obtain ⟨h1, h2⟩ := C20_fbs_f_rate_partial _ _ _ _ _ _ (nbrcnt_table R.input.wf L z1 z2)
    rcases hs st hst with e | e <;> rw [e]
    · exact ⟨_, ensemblePrepared_of (l := .nbrCnt) rfl h1⟩
    · exact ⟨_, ensemblePrepared_of (l := .nbrCnt) rfl h2⟩)

/-- C262: RPS and its complement of RPS lines. -/
theorem C262_rps (etb : List PyNum → List PyNum → PyNum) (s : BootSettings) (draws₁ draws₂ : ℕ → ℕ → List (List ℕ))
    (k : ℕ) (hk : 0 < k) (hdraw : ∀ i n, IndexMatrix n k (draws₁ i n)) (R : OneAxisRun f p init sv parts fix fv sts rest)
    (hnd : p.axis₁.derived = []) (n x c m : List Val → ℚ) (L : RpsLines f n x c m)
    (hs : ∀ st ∈ p.axis₁.stats, lower st = "rps" ∨ lower st = "rps_comp") :
    ∃ out, bootRun (ensemblePrepared .rps f) etb s draws₁ draws₂ f p = .ok out :=
  C262_completes_partial _ etb s draws₁ draws₂ k hk hdraw R hnd (fun st hst zs z1 z2 => by
    obtain ⟨h1, h2, -⟩ := C66_rps_partial _ _ _ _ _ (rps_table R.input.wf L z1 z2)
    rcases hs st hst with e | e <;> rw [e]
    · exact ⟨_, ensemblePrepared_of (l := .rps) rfl h1⟩
    · exact ⟨_, ensemblePrepared_of (l := .rps) rfl h2⟩)

/-- C262: mean gradients of GRAD lines. -/
theorem C262_grad (etb : List PyNum → List PyNum → PyNum) (s : BootSettings) (draws₁ draws₂ : ℕ → ℕ → List (List ℕ))
    (k : ℕ) (hk : 0 < k) (hdraw : ∀ i n, IndexMatrix n k (draws₁ i n)) (R : OneAxisRun f p init sv parts fix fv sts rest)
    (hnd : p.axis₁.derived = []) (pairs : List Val → List Pair) (L : GradLines f pairs)
    (hs : ∀ st ∈ p.axis₁.stats, lower st ∈ ["fgbar", "ogbar", "mgbar", "egbar"]) :
    ∃ out, bootRun (ensemblePrepared .grad f) etb s draws₁ draws₂ f p = .ok out :=
  C262_completes_partial _ etb s draws₁ draws₂ k hk hdraw R hnd (fun st hst zs z1 z2 => by
    have h := hs st hst
    generalize lower st = s' at h
    have ha := grad_means (grad_table L z1 z2) s' h
    refine ⟨_, ensemblePrepared_of (l := .grad) (calculate := weightedAverage s') ?_ ha⟩
    simp only [List.mem_cons, List.not_mem_nil, or_false] at h
    rcases h with rfl | rfl | rfl | rfl <;> rfl)

end

/-! ### Examples -/

theorem of_points {r : Except PyErr (List BootOut)} {a : List String} {l : List (List String)}
    (h : r.map (List.map BootOut.point) = .ok (a :: l)) : ∃ out, r = .ok out ∧ out ≠ [] := by
  cases r with
  | error e => cases h
  | ok out =>
    refine ⟨out, rfl, ?_⟩
    rintro rfl
    cases h

/-- ECNT lines. -/
def exBootEcnt : Frame := exLines ("total" :: ecntColumns) "ECNT_CRPS"
  [("t1", "A", [1, 2, 1, 1, 1, 3, 1, 4, 2, 4, 1, 1, 1, 1, 1, 1, 1, 1, 2, 1, -3]),
   ("t1", "B", [1, 3, 1, 1, 1, 3, 2, 4, 2, 4, 1, 1, 1, 1, 1, 1, 1, 1, 2, 1, -3]),
   ("t3", "B", [3, 1, 1, 1, 1, 3, 4, 8, 2, 8, 1, 1, 1, 1, 1, 1, 1, 3, 2, 2, -4]),
   ("t3", "A", [3, 4, 1, 1, 1, 3, 3, 8, 2, 8, 1, 1, 1, 1, 1, 1, 1, 3, 2, 2, -4])]

theorem exBootEcnt_lines : EcntLines exBootEcnt (exNum 5) exEcntField where
  pos := by decide +kernel
  total := exLines_number 5 rfl (by decide +kernel) (by decide +kernel)
  field := by
    intro c hc
    have h : ∀ c ∈ ecntColumns, exBootEcnt.cols[6 + ecntColumns.idxOf c]? = some c ∧
        (∀ j < 6 + ecntColumns.idxOf c, exBootEcnt.cols[j]? ≠ some c) ∧
        ∀ r ∈ exBootEcnt.rows, numberOf (cellAt r (6 + ecntColumns.idxOf c)) = some (exEcntField c r) := by decide +kernel
    obtain ⟨h1, h2, h3⟩ := h c hc
    exact exLines_number _ h1 h2 h3

example : ∃ out, bootRun (ensemblePrepared .ecnt exBootEcnt) (fun _ _ => .none) ⟨1 / 2, .perc, false⟩ threeDraws threeDraws
    exBootEcnt (exLinesParams "ECNT_CRPS") = .ok out ∧ out ≠ [] ∧
    ShowsScores exBootEcnt (exLinesParams "ECNT_CRPS") [("model", ["A", "B"])] (fun v => [v]) [] "TMP" exRunKey 3 .perc
      (EcntScore (exNum 5) exEcntField) out := by
  obtain ⟨out, h, hne⟩ := of_points (a := ["A", "6", "ECNT_CRPS"]) (l := [["B", "6", "ECNT_CRPS"]])
    (show (bootRun (ensemblePrepared .ecnt exBootEcnt) (fun _ _ => .none) ⟨1 / 2, .perc, false⟩ threeDraws threeDraws
      exBootEcnt (exLinesParams "ECNT_CRPS")).map (List.map BootOut.point) = _ by decide +kernel)
  exact ⟨out, h, hne, C258_ecnt _ _ _ _ 3 threeDraws_ok (by simp) out (exLines_input (by unfold FrameWF; decide +kernel) (by decide)
      ⟨by decide, by decide, plainText_of (by decide) (by decide) (by decide)⟩ (by decide +kernel)) exRunKey (exLines_key _ _ _)
    _ _ exBootEcnt_lines (fun st hst => ⟨"crps", by simp, by rw [List.mem_singleton.mp hst]; decide +kernel⟩) h hne⟩

example := C262_ecnt (f := exBootEcnt) (fun _ _ => .none) ⟨1 / 2, .pivotal, true⟩ threeDraws threeDraws 3 (by decide) threeDraws_ok
  (exLines_input (by unfold FrameWF; decide +kernel) (by decide)
      ⟨by decide, by decide, plainText_of (by decide) (by decide) (by decide)⟩ (by decide +kernel)) rfl _ _ exBootEcnt_lines
  (fun st hst => ⟨"crps", by simp, by rw [List.mem_singleton.mp hst]; decide +kernel⟩)

example : ∃ out, bootRun (ensemblePrepared .nbrCnt exNbr) (fun _ _ => .none) ⟨1 / 2, .perc, false⟩ threeDraws threeDraws
    exNbr (exLinesParams "NBR_FSS") = .ok out ∧ out ≠ [] ∧
    ShowsScores exNbr (exLinesParams "NBR_FSS") [("model", ["A", "B"])] (fun v => [v]) [] "TMP" exRunKey 3 .perc
      (NbrCntScore (exNum 5) (exNum 6) (fun r => exNum 6 r / (1 - exNum 7 r)) (exNum 8)) out := by
  obtain ⟨out, h, hne⟩ := of_points (a := ["A", "6", "NBR_FSS"]) (l := [["B", "6", "NBR_FSS"]])
    (show (bootRun (ensemblePrepared .nbrCnt exNbr) (fun _ _ => .none) ⟨1 / 2, .perc, false⟩ threeDraws threeDraws
      exNbr (exLinesParams "NBR_FSS")).map (List.map BootOut.point) = _ by decide +kernel)
  exact ⟨out, h, hne, C258_nbrcnt _ _ _ _ 3 threeDraws_ok (by simp) out (exLines_input (by unfold FrameWF; decide +kernel) (by decide)
      ⟨by decide, by decide, plainText_of (by decide) (by decide) (by decide)⟩ (by decide +kernel)) exRunKey (exLines_key _ _ _)
    _ _ _ _ _ exNbr_lines (by decide +kernel) h hne⟩

example : ∃ out, bootRun (ensemblePrepared .rps exRpsRun) (fun _ _ => .none) ⟨1 / 2, .perc, false⟩ threeDraws threeDraws
    exRpsRun (exLinesParams "RPSS") = .ok out ∧ out ≠ [] ∧
    ShowsScores exRpsRun (exLinesParams "RPSS") [("model", ["A", "B"])] (fun v => [v]) [] "TMP" exRunKey 3 .perc
      (RpsScore (exNum 5) (exNum 6) (fun r => exNum 6 r / (1 - exNum 7 r)) (exNum 8)) out := by
  obtain ⟨out, h, hne⟩ := of_points (a := ["A", "6", "RPSS"]) (l := [["B", "6", "RPSS"]])
    (show (bootRun (ensemblePrepared .rps exRpsRun) (fun _ _ => .none) ⟨1 / 2, .perc, false⟩ threeDraws threeDraws
      exRpsRun (exLinesParams "RPSS")).map (List.map BootOut.point) = _ by decide +kernel)
  exact ⟨out, h, hne, C258_rps _ _ _ _ 3 threeDraws_ok (by simp) out (exLines_input (by unfold FrameWF; decide +kernel) (by decide)
      ⟨by decide, by decide, plainText_of (by decide) (by decide) (by decide)⟩ (by decide +kernel)) exRunKey (exLines_key _ _ _)
    _ _ _ _ exRps_lines (by decide +kernel) h hne⟩

example : ∃ out, bootRun (ensemblePrepared .grad exGradRun) (fun _ _ => .none) ⟨1 / 2, .perc, false⟩ threeDraws threeDraws
    exGradRun (exLinesParams "S1") = .ok out ∧ out ≠ [] ∧
    ShowsScores exGradRun (exLinesParams "S1") [("model", ["A", "B"])] (fun v => [v]) [] "TMP" exRunKey 3 .perc
      (fun s rows v => GradScore s (rows.flatMap exGradPairs) v) out := by
  obtain ⟨out, h, hne⟩ := of_points (a := ["A", "6", "S1"]) (l := [["B", "6", "S1"]])
    (show (bootRun (ensemblePrepared .grad exGradRun) (fun _ _ => .none) ⟨1 / 2, .perc, false⟩ threeDraws threeDraws
      exGradRun (exLinesParams "S1")).map (List.map BootOut.point) = _ by decide +kernel)
  exact ⟨out, h, hne, C258_grad _ _ _ _ 3 threeDraws_ok (by simp) out (exLines_input (by unfold FrameWF; decide +kernel) (by decide)
      ⟨by decide, by decide, plainText_of (by decide) (by decide) (by decide)⟩ (by decide +kernel)) exRunKey (exLines_key _ _ _)
    _ exGrad_lines (by decide +kernel) h hne⟩

example : ∃ out, bootRun (tallyPrepared .mctc (exMctc (1/2))) (fun _ _ => .none) ⟨1 / 2, .perc, false⟩ threeDraws threeDraws
    (exMctc (1/2)) (exLinesParams "MCTS_HSS_EC") = .ok out ∧ out ≠ [] ∧
    ShowsScores (exMctc (1/2)) (exLinesParams "MCTS_HSS_EC") [("model", ["A", "B"])] (fun v => [v]) [] "TMP" exRunKey 3 .perc
      (SkillEc exMctcCats (exNum 6)) out := by
  obtain ⟨out, h, hne⟩ := of_points (a := ["A", "6", "MCTS_HSS_EC"]) (l := [["B", "6", "MCTS_HSS_EC"]])
    (show (bootRun (tallyPrepared .mctc (exMctc (1/2))) (fun _ _ => .none) ⟨1 / 2, .perc, false⟩ threeDraws threeDraws
      (exMctc (1/2)) (exLinesParams "MCTS_HSS_EC")).map (List.map BootOut.point) = _ by decide +kernel)
  exact ⟨out, h, hne, C258_mctc _ _ _ _ 3 threeDraws_ok (by simp) out exMctc_input exRunKey (exLines_key _ _ _)
    _ _ _ exMctc_lines (by decide +kernel) h hne⟩

example : ∃ out, bootRun (tallyPrepared .nbrCtc exNbrCtc) (fun _ _ => .none) ⟨1 / 2, .perc, false⟩ threeDraws threeDraws
    exNbrCtc (exLinesParams "NBR_CSI") = .ok out ∧ out ≠ [] ∧
    ShowsScores exNbrCtc (exLinesParams "NBR_CSI") [("model", ["A", "B"])] (fun v => [v]) [] "TMP" exRunKey 3 .perc
      (fun st rows v => ∀ s, st = "nbr_" ++ s → CountScore s (pooledCounts (rows.map exCounts)) v) out := by
  obtain ⟨out, h, hne⟩ := of_points (a := ["A", "6", "NBR_CSI"]) (l := [["B", "6", "NBR_CSI"]])
    (show (bootRun (tallyPrepared .nbrCtc exNbrCtc) (fun _ _ => .none) ⟨1 / 2, .perc, false⟩ threeDraws threeDraws
      exNbrCtc (exLinesParams "NBR_CSI")).map (List.map BootOut.point) = _ by decide +kernel)
  exact ⟨out, h, hne, C258_nbrctc _ _ _ _ 3 threeDraws_ok (by simp) out exNbrCtc_input exRunKey (exLines_key _ _ _)
    _ exNbrCtc_lines (by decide +kernel) h hne⟩

/-- NBRCNT, RPS and GRAD lines. -/
def exBootNbr : Frame := exLines ["total", "fbs", "fss", "f_rate", "o_rate"] "NBR_FBS"
  [("t1", "A", [1, 1/10, 1/2, 1/2, 1/2]), ("t1", "B", [1, 1/20, 1/2, 1/2, 1/2]), ("t3", "B", [3, 1/10, 1/2, 1/4, 1/4]),
   ("t3", "A", [3, 1/5, 3/4, 1/4, 1/4])]

theorem exBootNbr_lines :
    NbrCntLines exBootNbr (exNum 5) (exNum 6) (fun r => exNum 6 r / (1 - exNum 7 r)) (exNum 8) (exNum 9) where
  pos := by decide +kernel
  total := exLines_number 5 rfl (by decide +kernel) (by decide +kernel)
  fbs := exLines_number 6 rfl (by decide +kernel) (by decide +kernel)
  fss := exLines_number 7 rfl (by decide +kernel) (by decide +kernel)
  f_rate := exLines_number 8 rfl (by decide +kernel) (by decide +kernel)
  o_rate := exLines_number 9 rfl (by decide +kernel) (by decide +kernel)

example := C262_nbrcnt (f := exBootNbr) (fun _ _ => .none) ⟨1 / 2, .pivotal, true⟩ threeDraws threeDraws 3 (by decide) threeDraws_ok
  (exLines_input (by unfold FrameWF; decide +kernel) (by decide)
      ⟨by decide, by decide, plainText_of (by decide) (by decide) (by decide)⟩ (by decide +kernel)) rfl _ _ _ _ _ exBootNbr_lines (by decide +kernel)

def exBootRps : Frame := exLines ["total", "rps", "rpss", "rps_comp"] "RPS"
  [("t1", "A", [1, 1/10, 1/2, 9/10]), ("t1", "B", [1, 1/20, 1/2, 19/20]), ("t3", "B", [3, 1/10, 1/2, 9/10]),
   ("t3", "A", [3, 1/5, 3/4, 4/5])]

theorem exBootRps_lines : RpsLines exBootRps (exNum 5) (exNum 6) (fun r => exNum 6 r / (1 - exNum 7 r)) (exNum 8) where
  pos := by decide +kernel
  total := exLines_number 5 rfl (by decide +kernel) (by decide +kernel)
  rps := exLines_number 6 rfl (by decide +kernel) (by decide +kernel)
  rpss := exLines_number 7 rfl (by decide +kernel) (by decide +kernel)
  rps_comp := exLines_number 8 rfl (by decide +kernel) (by decide +kernel)

example := C262_rps (f := exBootRps) (fun _ _ => .none) ⟨1 / 2, .pivotal, true⟩ threeDraws threeDraws 3 (by decide) threeDraws_ok
  (exLines_input (by unfold FrameWF; decide +kernel) (by decide)
      ⟨by decide, by decide, plainText_of (by decide) (by decide) (by decide)⟩ (by decide +kernel)) rfl _ _ _ _ exBootRps_lines (by decide +kernel)

def exBootGrad : Frame := exLines ["total", "fgbar", "ogbar", "mgbar", "egbar"] "EGBAR"
  [("t1", "A", [1, 1, 3, 3, 4]), ("t1", "B", [1, 3, 3, 3, 0]), ("t3", "B", [2, 2, 2, 2, 4]), ("t3", "A", [2, 2, 2, 2, 0])]

theorem exBootGrad_lines : GradLines exBootGrad exGradPairs where
  batch := by decide +kernel
  total := exLines_number 5 rfl (by decide +kernel) (by decide +kernel)
  fgbar := exLines_number 6 rfl (by decide +kernel) (by decide +kernel)
  ogbar := exLines_number 7 rfl (by decide +kernel) (by decide +kernel)
  mgbar := exLines_number 8 rfl (by decide +kernel) (by decide +kernel)
  egbar := exLines_number 9 rfl (by decide +kernel) (by decide +kernel)

example := C262_grad (f := exBootGrad) (fun _ _ => .none) ⟨1 / 2, .pivotal, true⟩ threeDraws threeDraws 3 (by decide) threeDraws_ok
  (exLines_input (by unfold FrameWF; decide +kernel) (by decide)
      ⟨by decide, by decide, plainText_of (by decide) (by decide) (by decide)⟩ (by decide +kernel)) rfl _ exBootGrad_lines (by decide +kernel)

end Metcalcpy.Props
