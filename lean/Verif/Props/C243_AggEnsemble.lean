/-
C243 With event equalization, the ensemble scores of an aggregation table (ECNT lines) are the means over the common cases
     weighted with the number of pairs, the skill scores are those of the weighted means.
C244 The same for the neighborhood scores (NBRCNT lines).
C245 The same for ranked probability scores (RPS lines).
C246 The gradient scores (GRAD lines) are those of all gradients behind the common cases, pooled.
-/
import Verif.Model.AggEnsemble
import Verif.Props.C205_AggValues
import Verif.Props.C97_EnsembleSkill
import Verif.Props.C69_VectorCorr

namespace Metcalcpy.Props
open Metcalcpy Spec

/-! ### Specification -/

/-- The mean of `x` over the lines with weights `w`. -/
def caseMean (w x : List Val → ℚ) (rows : List (List Val)) : ℚ :=
  (rows.map fun r => w r * x r).sum / (rows.map w).sum

/-- The columns of an ECNT line used below. -/
def ecntColumns : List String :=
  ["rmse", "rmse_oerr", "spread", "spread_oerr", "spread_plus_oerr", "crps", "crpscl", "crps_emp", "crpscl_emp",
    "crps_emp_fair", "spread_md", "ign", "me", "mae", "me_oerr", "mae_oerr", "n_ge_obs", "n_lt_obs", "me_ge_obs",
    "me_lt_obs"]

/-- Every row of `f` is an ECNT line of `n r` pairs with the number `x c r` in column `c`. -/
structure EcntLines (f : Frame) (n : List Val → ℚ) (x : String → List Val → ℚ) : Prop where
  pos : ∀ r ∈ f.rows, 0 < n r
  total : ∀ r ∈ f.rows, HasNumber f r "total" (n r)
  field : ∀ c ∈ ecntColumns, ∀ r ∈ f.rows, HasNumber f r c (x c r)

/-- `v` is the ensemble score called `s` of the lines, rounded to seven decimals. -/
structure EcntScore (n : List Val → ℚ) (x : String → List Val → ℚ) (s : String) (rows : List (List Val))
    (v : PyNum) : Prop where
  mean : ∀ c ∈ ["crps", "ign", "me", "me_oerr", "crpscl", "crps_emp", "crpscl_emp", "crps_emp_fair", "spread_md", "mae",
      "mae_oerr"], s = "ecnt_" ++ c → v = .num (roundHalfUp (caseMean n (x c) rows) 7)
  skill : ∀ e ∈ ["", "_emp"], s = "ecnt_crpss" ++ e → caseMean n (x ("crpscl" ++ e)) rows ≠ 0 →
    v = .num (roundHalfUp (1 - caseMean n (x ("crps" ++ e)) rows / caseMean n (x ("crpscl" ++ e)) rows) 7)
  count : ∀ c ∈ ["n_ge_obs", "n_lt_obs"], s = "ecnt_" ++ c → v = .num (roundHalfUp (rows.map (x c)).sum 7)
  side : ∀ c ∈ ["ge", "lt"], s = "ecnt_me_" ++ c ++ "_obs" → 0 < (rows.map (x ("n_" ++ c ++ "_obs"))).sum →
    v = .num (roundHalfUp (caseMean (x ("n_" ++ c ++ "_obs")) (x ("me_" ++ c ++ "_obs")) rows) 7)

/-- Every row of `f` is an NBRCNT line of `n r` pairs with fractions Brier score `b r`, reference value `d r`, skill
score `1 - b r / d r`, forecast rate `fr r` and observed rate `o r`. -/
structure NbrCntLines (f : Frame) (n b d fr o : List Val → ℚ) : Prop where
  pos : ∀ r ∈ f.rows, 0 < n r
  total : ∀ r ∈ f.rows, HasNumber f r "total" (n r)
  fbs : ∀ r ∈ f.rows, HasNumber f r "fbs" (b r)
  fss : ∀ r ∈ f.rows, HasNumber f r "fss" (1 - b r / d r)
  f_rate : ∀ r ∈ f.rows, HasNumber f r "f_rate" (fr r)
  o_rate : ∀ r ∈ f.rows, HasNumber f r "o_rate" (o r)

/-- `v` is the neighborhood score called `s` of the lines. -/
structure NbrCntScore (n b d fr : List Val → ℚ) (s : String) (rows : List (List Val)) (v : PyNum) : Prop where
  fbs : s = "nbr_fbs" → v = .num (roundHalfUp (caseMean n b rows) 7)
  f_rate : s = "nbr_f_rate" → v = .num (roundHalfUp (caseMean n fr rows) 7)
  fss : s = "nbr_fss" → (∀ r ∈ rows, b r ≠ 0 ∧ d r ≠ 0) → caseMean n d rows ≠ 0 →
    v = .num (roundHalfUp (1 - caseMean n b rows / caseMean n d rows) 7)

/-- Every row of `f` is an RPS line of `n r` pairs with score `x r`, climatological score `c r`, skill score
`1 - x r / c r` and complement `k r`. -/
structure RpsLines (f : Frame) (n x c k : List Val → ℚ) : Prop where
  pos : ∀ r ∈ f.rows, 0 < n r
  total : ∀ r ∈ f.rows, HasNumber f r "total" (n r)
  rps : ∀ r ∈ f.rows, HasNumber f r "rps" (x r)
  rpss : ∀ r ∈ f.rows, HasNumber f r "rpss" (1 - x r / c r)
  rps_comp : ∀ r ∈ f.rows, HasNumber f r "rps_comp" (k r)

/-- `v` is the ranked probability score called `s` of the lines. -/
structure RpsScore (n x c k : List Val → ℚ) (s : String) (rows : List (List Val)) (v : PyNum) : Prop where
  rps : s = "rps" → v = .num (roundHalfUp (caseMean n x rows) 7)
  rps_comp : s = "rps_comp" → v = .num (roundHalfUp (caseMean n k rows) 7)
  rpss : s = "rpss" → (∀ r ∈ rows, x r ≠ 0 ∧ c r ≠ 0) → caseMean n c rows ≠ 0 →
    v = .num (roundHalfUp (1 - caseMean n x rows / caseMean n c rows) 7)

/-- Every row of `f` is the GRAD line of the non-empty batch `pairs r` of gradients (forecast, observed). -/
structure GradLines (f : Frame) (pairs : List Val → List Pair) : Prop where
  batch : ∀ r ∈ f.rows, pairs r ≠ []
  total : ∀ r ∈ f.rows, HasNumber f r "total" (pairs r).length
  fgbar : ∀ r ∈ f.rows, HasNumber f r "fgbar" (avg (fun p => |p.1|) (pairs r))
  ogbar : ∀ r ∈ f.rows, HasNumber f r "ogbar" (avg (fun p => |p.2|) (pairs r))
  mgbar : ∀ r ∈ f.rows, HasNumber f r "mgbar" (avg (fun p => max |p.1| |p.2|) (pairs r))
  egbar : ∀ r ∈ f.rows, HasNumber f r "egbar" (avg (fun p => |p.1 - p.2|) (pairs r))

/-- `v` is the gradient score called `s` of the pool. -/
structure GradScore (s : String) (pool : List Pair) (v : PyNum) : Prop where
  fgbar : s = "fgbar" → v = .num (roundHalfUp (avg (fun p => |p.1|) pool) 7)
  ogbar : s = "ogbar" → v = .num (roundHalfUp (avg (fun p => |p.2|) pool) 7)
  mgbar : s = "mgbar" → v = .num (roundHalfUp (avg (fun p => max |p.1| |p.2|) pool) 7)
  egbar : s = "egbar" → v = .num (roundHalfUp (avg (fun p => |p.1 - p.2|) pool) 7)
  s1 : s = "s1" → 0 < avg (fun p => max |p.1| |p.2|) pool → v = .num (roundHalfUp
    (100 * avg (fun p => |p.1 - p.2|) pool / avg (fun p => max |p.1| |p.2|) pool) 7)
  s1_og : s = "s1_og" → 0 < avg (fun p : Pair => |p.2|) pool → v = .num (roundHalfUp
    (100 * avg (fun p => |p.1 - p.2|) pool / avg (fun p => |p.2|) pool) 7)
  fgog_ratio : s = "fgog_ratio" → 0 < avg (fun p : Pair => |p.2|) pool → v = .num (roundHalfUp
    (100 * avg (fun p => |p.1|) pool / avg (fun p => |p.2|) pool) 7)
  s1_range : s = "s1" → ∀ q, v = .num q → 0 ≤ q ∧ q ≤ 200

/-! ### Lemmas -/

theorem wmean_rows (w x : List Val → ℚ) (rows : List (List Val)) :
    wmean (rows.map w) (rows.map x) = caseMean w x rows := by
  unfold wmean caseMean
  rw [List.zipWith_map, List.zipWith_self]

theorem perm_caseMean (w x : List Val → ℚ) {a b : List (List Val)} (h : a.Perm b) :
    caseMean w x a = caseMean w x b := by
  unfold caseMean
  rw [(h.map _).sum_eq, (h.map w).sum_eq]

theorem ensemble_table {f : Frame} (hwf : FrameWF f) {n : List Val → ℚ} (pos : ∀ r ∈ f.rows, 0 < n r)
    (total : ∀ r ∈ f.rows, HasNumber f r "total" (n r)) {rows : List (List Val)} (hne : rows ≠ [])
    (hsub : ∀ r ∈ rows, r ∈ f.rows) : WeightedRows (numericTable f.cols rows) (rows.map n) where
  rows_ne := by simpa [numericTable] using hne
  rect := by
    intro r hr
    obtain ⟨r', hr', rfl⟩ := List.mem_map.mp hr
    simpa [numericTable] using hwf r' (hsub r' hr')
  total := completeColumn_numeric hne (fun r hr => total r (hsub r hr))
  total_pos := List.sum_pos _ (fun a ha => by
    obtain ⟨r, hr, rfl⟩ := List.mem_map.mp ha
    exact pos r (hsub r hr)) (by simpa using hne)

theorem ensemblePrepared_of {l : EnsembleLine} {f : Frame} {s : String} {data : List (List Val)}
    {calculate : Table → Bool → Option ℚ} {x : Option ℚ} (hl : ensembleFunctions.lookup s = some calculate)
    (ha : (do return calculate (← prepareEnsemble l s (numericTable f.cols data)) true) = (.ok x : Except PyErr _)) :
    ensemblePrepared l f s data = .ok (toPyNum x) := by
  unfold ensemblePrepared
  simp only [bind, Except.bind, hl]
  simp only [bind, Except.bind, pure, Except.pure] at ha
  cases hp : prepareEnsemble l s (numericTable f.cols data) with
  | error e => rw [hp] at ha; cases ha
  | ok t =>
    rw [hp] at ha
    simp only [Except.ok.injEq] at ha
    simp only [ha]

theorem ensembleStat_sorted {l : EnsembleLine} {f : Frame} {s : String} {rows data : List (List Val)}
    (hs : sortData f rows = .ok data) : ensembleStat l f s rows = ensemblePrepared l f s data := by
  unfold ensembleStat
  rw [hs]
  rfl

/-- The statistic of the rows of a point is that of the same rows in some order. -/
theorem ensembleStat_inv {l : EnsembleLine} {f : Frame} {s : String} {rows : List (List Val)} {v : PyNum}
    (h : ensembleStat l f s rows = .ok v) : ∃ data, data.Perm rows ∧ ensemblePrepared l f s data = .ok v := by
  cases hs : sortData f rows with
  | error e => unfold ensembleStat at h; rw [hs] at h; cases h
  | ok data => exact ⟨data, (sortData_spec hs).1, ensembleStat_sorted hs ▸ h⟩

theorem perm_ne {rows data : List (List Val)} (hs : data.Perm rows) (hne : rows ≠ []) : data ≠ [] := by
  rintro rfl
  exact hne (List.nil_perm.mp hs)

theorem sorted_ne {f : Frame} {rows data : List (List Val)} (hs : sortData f rows = .ok data) (hne : rows ≠ []) :
    data ≠ [] := by
  obtain ⟨hperm, -⟩ := sortData_spec hs
  intro e
  rw [e] at hperm
  exact hne (List.nil_perm.mp hperm)

/-- What the table says about every point of a run, for a statistic characterized by `P`. -/
theorem run_scores {f : Frame} {p : AggParams} {init : List (String × List String)} {sv : String × List String}
    {parts : String → List String} {fix : List (String × List String)} {fv : String} {sts : List String}
    {rest : List (String × List String)} (stat : String → List (List Val) → Except PyErr PyNum)
    (P : String → List (List Val) → PyNum → Prop) (etb : List PyNum → List PyNum → PyNum) (out : List AggOut)
    (R : OneAxisRun f p init sv parts fix fv sts rest) (key : List Val → String)
    (hkey : ∀ r ∈ f.rows, IsCaseKey f p.indyVar true r (key r))
    (hP : ∀ s rows v, rows ≠ [] → (∀ r ∈ rows, r ∈ f.rows) → stat s rows = .ok v → P s rows v)
    (h : aggRun stat etb f p = .ok out) (hne : out ≠ []) :
    ∃ plain derived, out = plain ++ derived ∧
      (∀ pt, pt ∈ plain.map AggOut.point ↔
        ∃ as, List.Forall₂ (fun x q => x ∈ q.2) as (init ++ [sv]) ∧ ∃ i ∈ p.indyVals, ∃ st ∈ p.axis₁.stats,
          pt = as ++ [i, st]) ∧
      ∀ o ∈ plain, ∀ as i st, o.point = as ++ [i, st] →
        ∀ rows, rows = comparedRows f (init ++ [sv]) parts fix fv p.indyVar key as i st →
          (rows = [] → o.value = .none) ∧ (rows ≠ [] → P (lower st) rows o.value) := by
  rcases C201_values_partial _ etb out R key hkey h with ⟨h0, -⟩ | ⟨plain, derived, e, hpts, hval⟩
  · exact absurd h0 hne
  · refine ⟨plain, derived, e, hpts, ?_⟩
    rintro o ho as i st hpt rows rfl
    obtain ⟨-, h2, h3⟩ := hval o ho as i st hpt _ rfl
    exact ⟨h2, fun hr => hP _ _ _ hr comparedRows_sub (h3 hr)⟩

/-- A run completes if the statistic has a value for every non-empty set of lines and no derived curves are requested. -/
theorem run_completes {f : Frame} {p : AggParams} {init : List (String × List String)} {sv : String × List String}
    {parts : String → List String} {fix : List (String × List String)} {fv : String} {sts : List String}
    {rest : List (String × List String)} (stat : String → List (List Val) → Except PyErr PyNum)
    (etb : List PyNum → List PyNum → PyNum) (R : OneAxisRun f p init sv parts fix fv sts rest)
    (hd : p.axis₁.derived = [])
    (hs : ∀ s ∈ p.axis₁.stats, ∀ rows, rows ≠ [] → (∀ r ∈ rows, r ∈ f.rows) → ∃ v, stat (lower s) rows = .ok v) :
    ∃ out, aggRun stat etb f p = .ok out := by
  obtain ⟨key, hk⟩ := C01_case_key_exists R.input
  have hkey : ∀ r ∈ f.rows, IsCaseKey f p.indyVar true r (key r) := fun r hr => (hk r hr _).mpr rfl
  have hg := equalize_ok R key hkey
  have hfd := config_fields R
  have hrv := requested_eq R
  generalize hG : (p.axis₁.fcstVarVal.flatMap (fun q => q.2.map (fun s => (q.1, s)))).flatMap
      (keptRows f sv ((init ++ [sv]).map (fun x => (x.1, x.2.flatMap parts)) ++ fix) key) = G at hg
  have hsub : ∀ r ∈ G, r ∈ f.rows := by
    intro r hr
    rw [← hG] at hr
    unfold keptRows at hr
    simp only [List.mem_flatMap, List.mem_filter] at hr
    obtain ⟨_, _, h3⟩ := hr
    exact h3.1.1
  obtain ⟨out, ho⟩ := C99_completes stat etb ⟨f.cols, G⟩ (p.config p.axis₁) hfd R.statistic hd (by
      rw [hrv]
      intro q hq v hv
      rcases List.mem_append.mp hq with hq | hq
      · rcases List.mem_append.mp hq with hq | hq
        · exact R.plain.1 q hq v hv
        · simp only [List.mem_singleton] at hq
          subst hq
          exact R.plain.2.1 v hv
      · simp only [List.mem_singleton] at hq
        subst hq
        exact R.plain.2.2 v hv)
    (fun s hsm rows hne hsb => hs s hsm rows hne (fun r hr => hsub r (hsb.subset hr)))
  refine ⟨out, ?_⟩
  unfold aggRun
  rw [R.on, R.second]
  have ht : truthy (parseBool "True") = true := rfl
  rw [ht, if_pos rfl, hg]
  simp only [bind, Except.bind, List.isEmpty_nil, if_true]
  rw [ho]

theorem ecnt_table {f : Frame} (hwf : FrameWF f) {n : List Val → ℚ} {x : String → List Val → ℚ} (L : EcntLines f n x)
    {rows : List (List Val)} (hne : rows ≠ []) (hsub : ∀ r ∈ rows, r ∈ f.rows) :
    EcntData (numericTable f.cols rows) (rows.map n) (rows.map (x "rmse")) (rows.map (x "rmse_oerr"))
      (rows.map (x "spread")) (rows.map (x "spread_oerr")) (rows.map (x "spread_plus_oerr")) where
  toWeightedRows := ensemble_table hwf L.pos L.total hne hsub
  rmse := completeColumn_numeric hne (fun r hr => L.field _ (by simp [ecntColumns]) r (hsub r hr))
  rmse_oerr := completeColumn_numeric hne (fun r hr => L.field _ (by simp [ecntColumns]) r (hsub r hr))
  spread := completeColumn_numeric hne (fun r hr => L.field _ (by simp [ecntColumns]) r (hsub r hr))
  spread_oerr := completeColumn_numeric hne (fun r hr => L.field _ (by simp [ecntColumns]) r (hsub r hr))
  spread_plus_oerr := completeColumn_numeric hne (fun r hr => L.field _ (by simp [ecntColumns]) r (hsub r hr))

/-- The value of a set of ECNT lines. -/
theorem ecnt_value {f : Frame} (hwf : FrameWF f) {n : List Val → ℚ} {x : String → List Val → ℚ} (L : EcntLines f n x)
    {rows data : List (List Val)} (hs : data.Perm rows) (hne : rows ≠ [])
    (hsub : ∀ r ∈ rows, r ∈ f.rows) {s : String} {v : PyNum} (h : ensemblePrepared .ecnt f s data = .ok v) :
    EcntScore n x s rows v := by
  have hperm := hs
  have hne' := perm_ne hs hne
  have hsub' : ∀ r ∈ data, r ∈ f.rows := fun r hr => hsub r (hperm.mem_iff.mp hr)
  have D := ecnt_table hwf L hne' hsub'
  have col : ∀ c ∈ ecntColumns, CompleteColumn (numericTable f.cols data) c (data.map (x c)) := fun c hc =>
    completeColumn_numeric hne' (fun r hr => L.field c hc r (hsub' r hr))
  have fin : ∀ {stat : String} {calculate : Table → Bool → Option ℚ} {q : ℚ}, s = stat →
      ensembleFunctions.lookup stat = some calculate →
      aggregatedEcnt stat calculate (numericTable f.cols data) = .ok (some q) → v = .num q := by
    rintro stat calculate q rfl hl ha
    have := ensemblePrepared_of (l := .ecnt) hl ha
    rw [this] at h
    exact (Except.ok.inj h).symm
  refine ⟨?_, ?_, ?_, ?_⟩
  · intro c hc e
    have hc' : c ∈ ecntColumns := by
      simp only [List.mem_cons, List.not_mem_nil, or_false] at hc
      rcases hc with rfl | rfl | rfl | rfl | rfl | rfl | rfl | rfl | rfl | rfl | rfl <;> simp [ecntColumns]
    have ha := C21_means_partial _ _ _ _ _ _ _ D c _ (col c hc') hc
    rw [wmean_rows, perm_caseMean _ _ hperm] at ha
    have hl : ensembleFunctions.lookup ("ecnt_" ++ c) = some (weightedAverage c) := by
      simp only [List.mem_cons, List.not_mem_nil, or_false] at hc
      rcases hc with rfl | rfl | rfl | rfl | rfl | rfl | rfl | rfl | rfl | rfl | rfl <;> rfl
    exact fin e hl ha
  · intro e he es hm
    simp only [List.mem_cons, List.not_mem_nil, or_false] at he
    have h1 : ("crps" ++ e) ∈ ecntColumns := by rcases he with rfl | rfl <;> decide
    have h2 : ("crpscl" ++ e) ∈ ecntColumns := by rcases he with rfl | rfl <;> decide
    have ha := C97_skill _ _ _ _ _ _ _ D e he _ _ (col _ h1) (col _ h2) (by
      rw [wmean_rows, perm_caseMean _ _ hperm]; exact hm)
    rw [wmean_rows, wmean_rows, perm_caseMean _ _ hperm, perm_caseMean _ _ hperm] at ha
    have hl : ensembleFunctions.lookup ("ecnt_crpss" ++ e) = some (skillScore ("crps" ++ e) ("crpscl" ++ e)) := by
      rcases he with rfl | rfl <;> rfl
    exact fin es hl ha
  · intro c hc e
    simp only [List.mem_cons, List.not_mem_nil, or_false] at hc
    have h1 : c ∈ ecntColumns := by rcases hc with rfl | rfl <;> decide
    have ha := C97_counts _ _ _ _ _ _ _ D c hc _ (col _ h1)
    rw [(hperm.map (x c)).sum_eq] at ha
    have hl : ensembleFunctions.lookup ("ecnt_" ++ c) = some (ecntCount c) := by rcases hc with rfl | rfl <;> rfl
    exact fin e hl ha
  · intro c hc e hp
    simp only [List.mem_cons, List.not_mem_nil, or_false] at hc
    have h1 : ("n_" ++ c ++ "_obs") ∈ ecntColumns := by rcases hc with rfl | rfl <;> decide
    have h2 : ("me_" ++ c ++ "_obs") ∈ ecntColumns := by rcases hc with rfl | rfl <;> decide
    have ha := C67_conditional_means _ _ _ _ _ _ _ D _ _ c hc (col _ h1) (col _ h2) (by
      rw [(hperm.map (x ("n_" ++ c ++ "_obs"))).sum_eq]; exact hp)
    rw [wmean_rows, perm_caseMean _ _ hperm] at ha
    have hl : ensembleFunctions.lookup ("ecnt_me_" ++ c ++ "_obs") =
        some (ecntMeOf ("me_" ++ c ++ "_obs") ("n_" ++ c ++ "_obs")) := by rcases hc with rfl | rfl <;> rfl
    exact fin e hl ha

theorem map_zipWith_skill (b d : List Val → ℚ) (rows : List (List Val)) :
    rows.map (fun r => 1 - b r / d r) = List.zipWith (fun b d => 1 - b / d) (rows.map b) (rows.map d) := by
  rw [List.zipWith_map, List.zipWith_self]

theorem nbrcnt_table {f : Frame} (hwf : FrameWF f) {n b d fr o : List Val → ℚ} (L : NbrCntLines f n b d fr o)
    {rows : List (List Val)} (hne : rows ≠ []) (hsub : ∀ r ∈ rows, r ∈ f.rows) :
    NbrCntData (numericTable f.cols rows) (rows.map n) (rows.map b) (rows.map d) (rows.map fr) (rows.map o) where
  toWeightedRows := ensemble_table hwf L.pos L.total hne hsub
  fbs := completeColumn_numeric hne (fun r hr => L.fbs r (hsub r hr))
  fss := by
    rw [← map_zipWith_skill]
    exact completeColumn_numeric hne (fun r hr => L.fss r (hsub r hr))
  f_rate := completeColumn_numeric hne (fun r hr => L.f_rate r (hsub r hr))
  o_rate := completeColumn_numeric hne (fun r hr => L.o_rate r (hsub r hr))
  len := by simp

/-- The value of a set of NBRCNT lines. -/
theorem nbrcnt_value {f : Frame} (hwf : FrameWF f) {n b d fr o : List Val → ℚ} (L : NbrCntLines f n b d fr o)
    {rows data : List (List Val)} (hs : data.Perm rows) (hne : rows ≠ [])
    (hsub : ∀ r ∈ rows, r ∈ f.rows) {s : String} {v : PyNum} (h : ensemblePrepared .nbrCnt f s data = .ok v) :
    NbrCntScore n b d fr s rows v := by
  have hperm := hs
  have D := nbrcnt_table hwf L (perm_ne hs hne) (fun r hr => hsub r (hperm.mem_iff.mp hr))
  have fin : ∀ {stat : String} {calculate : Table → Bool → Option ℚ} {q : ℚ}, s = stat →
      ensembleFunctions.lookup stat = some calculate →
      aggregatedNbrCnt calculate (numericTable f.cols data) = .ok (some q) → v = .num q := by
    rintro stat calculate q rfl hl ha
    have := ensemblePrepared_of (l := .nbrCnt) hl ha
    rw [this] at h
    exact (Except.ok.inj h).symm
  obtain ⟨h1, h2⟩ := C20_fbs_f_rate_partial _ _ _ _ _ _ D
  rw [wmean_rows, perm_caseMean _ _ hperm] at h1 h2
  refine ⟨fun e => fin e rfl h1, fun e => fin e rfl h2, fun e hb hm => ?_⟩
  have h3 := C20_fss_partial _ _ _ _ _ _ D
    (fun a ha => by
      obtain ⟨r, hr, rfl⟩ := List.mem_map.mp ha
      exact (hb r (hperm.mem_iff.mp hr)).1)
    (fun a ha => by
      obtain ⟨r, hr, rfl⟩ := List.mem_map.mp ha
      exact (hb r (hperm.mem_iff.mp hr)).2)
    (by rw [wmean_rows, perm_caseMean _ _ hperm]; exact hm)
  rw [wmean_rows, wmean_rows, perm_caseMean _ _ hperm, perm_caseMean _ _ hperm] at h3
  exact fin e rfl h3

theorem rps_table {f : Frame} (hwf : FrameWF f) {n x c k : List Val → ℚ} (L : RpsLines f n x c k)
    {rows : List (List Val)} (hne : rows ≠ []) (hsub : ∀ r ∈ rows, r ∈ f.rows) :
    RpsData (numericTable f.cols rows) (rows.map n) (rows.map x) (rows.map c) (rows.map k) where
  toWeightedRows := ensemble_table hwf L.pos L.total hne hsub
  rps := completeColumn_numeric hne (fun r hr => L.rps r (hsub r hr))
  rpss := by
    rw [← map_zipWith_skill]
    exact completeColumn_numeric hne (fun r hr => L.rpss r (hsub r hr))
  rps_comp := completeColumn_numeric hne (fun r hr => L.rps_comp r (hsub r hr))
  len := by simp

/-- The value of a set of RPS lines. -/
theorem rps_value {f : Frame} (hwf : FrameWF f) {n x c k : List Val → ℚ} (L : RpsLines f n x c k)
    {rows data : List (List Val)} (hs : data.Perm rows) (hne : rows ≠ [])
    (hsub : ∀ r ∈ rows, r ∈ f.rows) {s : String} {v : PyNum} (h : ensemblePrepared .rps f s data = .ok v) :
    RpsScore n x c k s rows v := by
  have hperm := hs
  have D := rps_table hwf L (perm_ne hs hne) (fun r hr => hsub r (hperm.mem_iff.mp hr))
  have fin : ∀ {stat : String} {calculate : Table → Bool → Option ℚ} {q : ℚ}, s = stat →
      ensembleFunctions.lookup stat = some calculate →
      aggregatedRps calculate (numericTable f.cols data) = .ok (some q) → v = .num q := by
    rintro stat calculate q rfl hl ha
    have := ensemblePrepared_of (l := .rps) hl ha
    rw [this] at h
    exact (Except.ok.inj h).symm
  obtain ⟨h1, h2, h3⟩ := C66_rps_partial _ _ _ _ _ D
  rw [wmean_rows, perm_caseMean _ _ hperm] at h1 h2
  refine ⟨fun e => fin e rfl h1, fun e => fin e rfl h2, fun e hb hm => ?_⟩
  have h4 := h3
    (fun a ha => by
      obtain ⟨r, hr, rfl⟩ := List.mem_map.mp ha
      exact (hb r (hperm.mem_iff.mp hr)).1)
    (fun a ha => by
      obtain ⟨r, hr, rfl⟩ := List.mem_map.mp ha
      exact (hb r (hperm.mem_iff.mp hr)).2)
    (by rw [wmean_rows, perm_caseMean _ _ hperm]; exact hm)
  rw [wmean_rows, wmean_rows, perm_caseMean _ _ hperm, perm_caseMean _ _ hperm] at h4
  exact fin e rfl h4

theorem grad_table {f : Frame} {pairs : List Val → List Pair} (L : GradLines f pairs) {rows : List (List Val)}
    (hne : rows ≠ []) (hsub : ∀ r ∈ rows, r ∈ f.rows) :
    GradData (numericTable f.cols rows) (rows.map pairs) where
  rows_ne := by simpa [numericTable] using hne
  batch_ne := by
    intro b hb
    obtain ⟨r, hr, rfl⟩ := List.mem_map.mp hb
    exact L.batch r (hsub r hr)
  total := by
    rw [List.map_map]
    exact completeColumn_numeric hne (fun r hr => L.total r (hsub r hr))
  field := by
    intro c hc
    rw [List.map_map]
    refine completeColumn_numeric hne (fun r hr => ?_)
    simp only [List.mem_cons, List.not_mem_nil, or_false] at hc
    rcases hc with rfl | rfl | rfl | rfl
    · exact L.fgbar r (hsub r hr)
    · exact L.ogbar r (hsub r hr)
    · exact L.mgbar r (hsub r hr)
    · exact L.egbar r (hsub r hr)

theorem grad_means {t : Table} {bs : List (List Pair)} (D : GradData t bs) (c : String)
    (hc : c ∈ ["fgbar", "ogbar", "mgbar", "egbar"]) :
    aggregated c (weightedAverage c) t = .ok (some (roundHalfUp (avg (gradSum c) bs.flatten) 7)) := by
  have hf : fieldsOf c = some [c] ∧ "total" ≠ c := by
    simp only [List.mem_cons, List.not_mem_nil, or_false] at hc
    rcases hc with rfl | rfl | rfl | rfl <;> exact ⟨rfl, by decide⟩
  obtain ⟨t', e1, -, -, e3, -⟩ := batch_prepared D c [c] hf.1 (by simp) (by simpa using hf.2) (by simpa using hc)
  rw [aggregated_eq e1]
  simp [weightedAverage, e3 c (by simp), PRECISION]

/-- The value of a set of GRAD lines. -/
theorem grad_value {f : Frame} {pairs : List Val → List Pair} (L : GradLines f pairs)
    {rows data : List (List Val)} (hs : data.Perm rows) (hne : rows ≠ [])
    (hsub : ∀ r ∈ rows, r ∈ f.rows) {s : String} {v : PyNum} (h : ensemblePrepared .grad f s data = .ok v) :
    GradScore s (rows.flatMap pairs) v := by
  have hperm := hs
  have D := grad_table L (perm_ne hs hne) (fun r hr => hsub r (hperm.mem_iff.mp hr))
  have hpool : (data.map pairs).flatten.Perm (rows.flatMap pairs) := by
    rw [← List.flatMap_def]
    exact hperm.flatMap_right pairs
  have fin : ∀ {stat : String} {calculate : Table → Bool → Option ℚ} {q : Option ℚ}, s = stat →
      ensembleFunctions.lookup stat = some calculate →
      aggregated stat calculate (numericTable f.cols data) = .ok q → v = toPyNum q := by
    rintro stat calculate q rfl hl ha
    have := ensemblePrepared_of (l := .grad) hl ha
    rw [this] at h
    exact (Except.ok.inj h).symm
  obtain ⟨g1, g2, r, g3, g4⟩ := C72_grad _ _ D
  have m1 := grad_means D "fgbar" (by simp)
  have m2 := grad_means D "ogbar" (by simp)
  have m3 := grad_means D "mgbar" (by simp)
  have m4 := grad_means D "egbar" (by simp)
  have p1 := perm_avg (fun p : Pair => |p.1|) hpool
  have p2 := perm_avg (fun p : Pair => |p.2|) hpool
  have p3 := perm_avg (fun p : Pair => max |p.1| |p.2|) hpool
  have p4 := perm_avg (fun p : Pair => |p.1 - p.2|) hpool
  rw [p1, p2, p4] at g2
  rw [p3, p4] at g1
  refine ⟨fun e => ?_, fun e => ?_, fun e => ?_, fun e => ?_, fun e hp => fin e rfl (g1 hp),
    fun e hp => fin e rfl (g2 hp).1, fun e hp => fin e rfl (g2 hp).2, fun e q hq => ?_⟩
  · have := fin e rfl m1
    rw [this, ← p1]; rfl
  · have := fin e rfl m2
    rw [this, ← p2]; rfl
  · have := fin e rfl m3
    rw [this, ← p3]; rfl
  · have := fin e rfl m4
    rw [this, ← p4]; rfl
  · have := fin e rfl g3
    rw [hq] at this
    cases r with
    | none => cases this
    | some w =>
      simp only [toPyNum, PyNum.num.injEq] at this
      subst this
      exact g4 _ rfl

/-! ### The runs -/

section
variable {f : Frame} {p : AggParams} {init : List (String × List String)} {sv : String × List String}
  {parts : String → List String}
  {fix : List (String × List String)} {fv : String} {sts : List String} {rest : List (String × List String)}

/-- C243: in a run on ECNT lines with event equalization, every score in the table is the score of the common cases of its
point (`EcntScore`). -/
theorem C243_scores (etb : List PyNum → List PyNum → PyNum) (out : List AggOut)
    (R : OneAxisRun f p init sv parts fix fv sts rest) (key : List Val → String)
    (hkey : ∀ r ∈ f.rows, IsCaseKey f p.indyVar true r (key r)) (n : List Val → ℚ) (x : String → List Val → ℚ)
    (L : EcntLines f n x) (h : aggRun (ensembleStat .ecnt f) etb f p = .ok out) (hne : out ≠ []) :
    ∃ plain derived, out = plain ++ derived ∧
      (∀ pt, pt ∈ plain.map AggOut.point ↔
        ∃ as, List.Forall₂ (fun x q => x ∈ q.2) as (init ++ [sv]) ∧ ∃ i ∈ p.indyVals, ∃ st ∈ p.axis₁.stats,
          pt = as ++ [i, st]) ∧
      ∀ o ∈ plain, ∀ as i st, o.point = as ++ [i, st] →
        ∀ rows, rows = comparedRows f (init ++ [sv]) parts fix fv p.indyVar key as i st →
          (rows = [] → o.value = .none) ∧ (rows ≠ [] → EcntScore n x (lower st) rows o.value) :=
  run_scores _ (EcntScore n x) etb out R key hkey (fun s rows v hr hsub hv => by
    obtain ⟨data, hs, hv⟩ := ensembleStat_inv hv
    exact ecnt_value R.input.wf L hs hr hsub hv) h hne

/-- C243: such a run completes when no derived curves are requested and every statistic is one of the means or counts. -/
theorem C243_completes (etb : List PyNum → List PyNum → PyNum)
    (R : OneAxisRun f p init sv parts fix fv sts rest) (n : List Val → ℚ) (x : String → List Val → ℚ)
    (L : EcntLines f n x) (hd : p.axis₁.derived = [])
    (hs : ∀ s ∈ p.axis₁.stats, ∃ c ∈ ["crps", "ign", "me", "me_oerr", "crpscl", "crps_emp", "crpscl_emp",
      "crps_emp_fair", "spread_md", "mae", "mae_oerr", "n_ge_obs", "n_lt_obs"], lower s = "ecnt_" ++ c) :
    ∃ out, aggRun (ensembleStat .ecnt f) etb f p = .ok out := by
  refine run_completes _ etb R hd (fun s hsm rows hr hsub => ?_)
  obtain ⟨c, hc, e⟩ := hs s hsm
  rw [e]
  obtain ⟨data, hsd⟩ := sortData_exists R.input rows
  obtain ⟨hperm, -⟩ := sortData_spec hsd
  have hne' := sorted_ne hsd hr
  have hsub' : ∀ r ∈ data, r ∈ f.rows := fun r hr => hsub r (hperm.mem_iff.mp hr)
  have D := ecnt_table R.input.wf L hne' hsub'
  have hcol : c ∈ ecntColumns := by
    simp only [List.mem_cons, List.not_mem_nil, or_false] at hc
    rcases hc with rfl | rfl | rfl | rfl | rfl | rfl | rfl | rfl | rfl | rfl | rfl | rfl | rfl <;> simp [ecntColumns]
  have col : CompleteColumn (numericTable f.cols data) c (data.map (x c)) :=
    completeColumn_numeric hne' (fun r hr => L.field c hcol r (hsub' r hr))
  by_cases hm : c ∈ ["crps", "ign", "me", "me_oerr", "crpscl", "crps_emp", "crpscl_emp", "crps_emp_fair", "spread_md",
      "mae", "mae_oerr"]
  · have ha := C21_means_partial _ _ _ _ _ _ _ D c _ col hm
    have hl : ensembleFunctions.lookup ("ecnt_" ++ c) = some (weightedAverage c) := by
      simp only [List.mem_cons, List.not_mem_nil, or_false] at hm
      rcases hm with rfl | rfl | rfl | rfl | rfl | rfl | rfl | rfl | rfl | rfl | rfl <;> rfl
    exact ⟨_, (ensembleStat_sorted hsd).trans (ensemblePrepared_of (l := .ecnt) hl ha)⟩
  · have hm' : c = "n_ge_obs" ∨ c = "n_lt_obs" := by
      simp only [List.mem_cons, List.not_mem_nil, or_false] at hc hm
      tauto
    have ha := C97_counts _ _ _ _ _ _ _ D c hm' _ col
    have hl : ensembleFunctions.lookup ("ecnt_" ++ c) = some (ecntCount c) := by rcases hm' with rfl | rfl <;> rfl
    exact ⟨_, (ensembleStat_sorted hsd).trans (ensemblePrepared_of (l := .ecnt) hl ha)⟩

/-- C244: in a run on NBRCNT lines with event equalization, FBS and the forecast rate are the weighted means over the
common cases of the point, and FSS is one minus the ratio of weighted means if none of these cases is a perfect forecast. -/
theorem C244_scores (etb : List PyNum → List PyNum → PyNum) (out : List AggOut)
    (R : OneAxisRun f p init sv parts fix fv sts rest) (key : List Val → String)
    (hkey : ∀ r ∈ f.rows, IsCaseKey f p.indyVar true r (key r)) (n b d fr o : List Val → ℚ)
    (L : NbrCntLines f n b d fr o) (h : aggRun (ensembleStat .nbrCnt f) etb f p = .ok out) (hne : out ≠ []) :
    ∃ plain derived, out = plain ++ derived ∧
      (∀ pt, pt ∈ plain.map AggOut.point ↔
        ∃ as, List.Forall₂ (fun x q => x ∈ q.2) as (init ++ [sv]) ∧ ∃ i ∈ p.indyVals, ∃ st ∈ p.axis₁.stats,
          pt = as ++ [i, st]) ∧
      ∀ o ∈ plain, ∀ as i st, o.point = as ++ [i, st] →
        ∀ rows, rows = comparedRows f (init ++ [sv]) parts fix fv p.indyVar key as i st →
          (rows = [] → o.value = .none) ∧ (rows ≠ [] → NbrCntScore n b d fr (lower st) rows o.value) :=
  run_scores _ (NbrCntScore n b d fr) etb out R key hkey (fun s rows v hr hsub hv => by
    obtain ⟨data, hs, hv⟩ := ensembleStat_inv hv
    exact nbrcnt_value R.input.wf L hs hr hsub hv) h hne

/-- C245: in a run on RPS lines with event equalization, RPS and its complement are the weighted means over the common
cases of the point, and RPSS is one minus the ratio of weighted means if none of these cases has score zero. -/
theorem C245_scores (etb : List PyNum → List PyNum → PyNum) (out : List AggOut)
    (R : OneAxisRun f p init sv parts fix fv sts rest) (key : List Val → String)
    (hkey : ∀ r ∈ f.rows, IsCaseKey f p.indyVar true r (key r)) (n x c k : List Val → ℚ)
    (L : RpsLines f n x c k) (h : aggRun (ensembleStat .rps f) etb f p = .ok out) (hne : out ≠ []) :
    ∃ plain derived, out = plain ++ derived ∧
      (∀ pt, pt ∈ plain.map AggOut.point ↔
        ∃ as, List.Forall₂ (fun x q => x ∈ q.2) as (init ++ [sv]) ∧ ∃ i ∈ p.indyVals, ∃ st ∈ p.axis₁.stats,
          pt = as ++ [i, st]) ∧
      ∀ o ∈ plain, ∀ as i st, o.point = as ++ [i, st] →
        ∀ rows, rows = comparedRows f (init ++ [sv]) parts fix fv p.indyVar key as i st →
          (rows = [] → o.value = .none) ∧ (rows ≠ [] → RpsScore n x c k (lower st) rows o.value) :=
  run_scores _ (RpsScore n x c k) etb out R key hkey (fun s rows v hr hsub hv => by
    obtain ⟨data, hs, hv⟩ := ensembleStat_inv hv
    exact rps_value R.input.wf L hs hr hsub hv) h hne

/-- C246: in a run on GRAD lines with event equalization, the gradient scores are those of all gradients behind the common
cases of the point, pooled; S1 lies between 0 and 200. -/
theorem C246_scores (etb : List PyNum → List PyNum → PyNum) (out : List AggOut)
    (R : OneAxisRun f p init sv parts fix fv sts rest) (key : List Val → String)
    (hkey : ∀ r ∈ f.rows, IsCaseKey f p.indyVar true r (key r)) (pairs : List Val → List Pair)
    (L : GradLines f pairs) (h : aggRun (ensembleStat .grad f) etb f p = .ok out) (hne : out ≠ []) :
    ∃ plain derived, out = plain ++ derived ∧
      (∀ pt, pt ∈ plain.map AggOut.point ↔
        ∃ as, List.Forall₂ (fun x q => x ∈ q.2) as (init ++ [sv]) ∧ ∃ i ∈ p.indyVals, ∃ st ∈ p.axis₁.stats,
          pt = as ++ [i, st]) ∧
      ∀ o ∈ plain, ∀ as i st, o.point = as ++ [i, st] →
        ∀ rows, rows = comparedRows f (init ++ [sv]) parts fix fv p.indyVar key as i st →
          (rows = [] → o.value = .none) ∧ (rows ≠ [] → GradScore (lower st) (rows.flatMap pairs) o.value) :=
  run_scores _ (fun s rows v => GradScore s (rows.flatMap pairs) v) etb out R key hkey (fun s rows v hr hsub hv => by
    obtain ⟨data, hs, hv⟩ := ensembleStat_inv hv
    exact grad_value L hs hr hsub hv) h hne

end

/-! ### Examples -/

/-- Lines of two models at up to three times: time, model, and the numbers of the columns `cols`. -/
def exLines (cols : List String) (stat : String) (l : List (String × String × List ℚ)) : Frame :=
  { cols := ["fcst_valid_beg", "fcst_lead", "model", "fcst_var", "stat_name"] ++ cols
    rows := l.map (fun q => [.str q.1, .num 6 "6", .str q.2.1, .str "TMP", .str stat] ++ q.2.2.map (fun a => .num a "")) }

def exLinesParams (stat : String) : AggParams :=
  { exSlParams with axis₁ := ⟨[("model", ["A", "B"])], [stat], [], [("TMP", [stat])]⟩ }

theorem exLines_input {cols : List String} {stat : String} {l : List (String × String × List ℚ)}
    (hwf : FrameWF (exLines cols stat l)) (hk : "equalize" ∉ cols)
    (hs : ':' ∉ stat.toList ∧ ';' ∉ stat.toList ∧ PlainText stat) (hd : isDerivedPoint (some [stat]) = false) :
    OneAxisRun (exLines cols stat l) (exLinesParams stat) [] ("model", ["A", "B"]) (fun v => [v]) [] "TMP" [stat] [] where
  input := ⟨hwf, by simp [exLines, hk], by simp [exLines], by simp [exLines],
    by intro _ h; exact absurd (show "fcst_lead" ∈ timeColumns by decide) h⟩
  forecast := by simp [exLines]
  statistic := by simp [exLines]
  on := rfl
  series := rfl
  second := rfl
  fixed := rfl
  names := by decide
  columns := by
    intro v hv
    obtain rfl : v = ("model", ["A", "B"]) := by simpa using hv
    exact ⟨by simp [exLines], by decide, by simp⟩
  groups := exRun_input.groups
  texts := exRun_input.texts
  fcst := rfl
  pairs := by simp [exLinesParams]
  stats := by
    intro st hst
    obtain rfl : st = stat := by simpa [exLinesParams] using hst
    exact ⟨by simp, hs⟩
  indy := exRun_input.indy
  somestat := by simp
  distinct := exSl_input.distinct
  plain := by
    refine ⟨?_, ?_, ?_⟩
    · exact exSl_input.plain.1
    · exact exSl_input.plain.2.1
    · intro v hv
      obtain rfl : v = stat := by simpa [exLinesParams] using hv
      exact hd

theorem exLines_key (cols : List String) (stat : String) (l : List (String × String × List ℚ)) :
    ∀ r ∈ (exLines cols stat l).rows, IsCaseKey (exLines cols stat l) "fcst_lead" true r (exRunKey r) := by
  intro r hr
  obtain ⟨q, hq, rfl⟩ := List.mem_map.mp hr
  refine ⟨.str q.1, .num 6 "6", ⟨0, rfl, by simp, rfl⟩, ⟨1, rfl, ?_, rfl⟩, ?_⟩
  · intro j hj
    obtain rfl : j = 0 := by omega
    simp [exLines]
  · rw [if_neg (by decide)]
    rfl

/-- The numbers of the columns in the frame. -/
theorem exLines_number {cols : List String} {stat : String} {l : List (String × String × List ℚ)} (i : ℕ) {c : String}
    {g : List Val → ℚ} (h1 : (exLines cols stat l).cols[i]? = some c)
    (h2 : ∀ j < i, (exLines cols stat l).cols[j]? ≠ some c)
    (h3 : ∀ r ∈ (exLines cols stat l).rows, numberOf (cellAt r i) = some (g r)) :
    ∀ r ∈ (exLines cols stat l).rows, HasNumber (exLines cols stat l) r c (g r) := by
  intro r hr
  have := h3 r hr
  unfold cellAt at this
  cases h : r[i]? with
  | none => rw [h] at this; simp [numberOf] at this
  | some v =>
    rw [h] at this
    cases v with
    | num q t =>
      simp only [Option.getD_some, numberOf, Option.some.injEq] at this
      exact ⟨t, i, h1, h2, this ▸ h⟩
    | str s => simp [numberOf] at this
    | null => simp [numberOf] at this

/-- The number in position `i` of a line. -/
def exNum (i : ℕ) (r : List Val) : ℚ := (numberOf (cellAt r i)).getD 0

/-- ECNT lines: two cases in common (totals 1 and 3), a third one of model A only.  The numbers are those of the columns
`total` and `ecntColumns`. -/
def exEcnt : Frame := exLines ("total" :: ecntColumns) "ECNT_CRPSS"
  [("t1", "A", [1, 1, 1, 1, 1, 3, 1, 4, 2, 4, 1, 1, 1, 1, 1, 1, 1, 1, 2, 1, -3]),
   ("t2", "A", [9, 1, 1, 1, 1, 3, 9, 4, 2, 4, 1, 1, 1, 1, 1, 1, 1, 1, 2, 1, -3]),
   ("t1", "B", [1, 1, 1, 1, 1, 3, 2, 4, 2, 4, 1, 1, 1, 1, 1, 1, 1, 1, 2, 1, -3]),
   ("t3", "B", [3, 1, 1, 1, 1, 3, 4, 8, 2, 8, 1, 1, 1, 1, 1, 1, 1, 3, 2, 2, -4]),
   ("t3", "A", [3, 1, 1, 1, 1, 3, 3, 8, 2, 8, 1, 1, 1, 1, 1, 1, 1, 3, 2, 2, -4])]

def exEcntField (c : String) (r : List Val) : ℚ := exNum (6 + ecntColumns.idxOf c) r

theorem exEcnt_lines : EcntLines exEcnt (exNum 5) exEcntField where
  pos := by decide +kernel
  total := exLines_number 5 rfl (by decide +kernel) (by decide +kernel)
  field := by
    intro c hc
    have h : ∀ c ∈ ecntColumns, exEcnt.cols[6 + ecntColumns.idxOf c]? = some c ∧
        (∀ j < 6 + ecntColumns.idxOf c, exEcnt.cols[j]? ≠ some c) ∧
        ∀ r ∈ exEcnt.rows, numberOf (cellAt r (6 + ecntColumns.idxOf c)) = some (exEcntField c r) := by decide +kernel
    obtain ⟨h1, h2, h3⟩ := h c hc
    exact exLines_number _ h1 h2 h3

theorem exEcnt_input : OneAxisRun exEcnt (exLinesParams "ECNT_CRPSS") [] ("model", ["A", "B"]) (fun v => [v]) [] "TMP"
    ["ECNT_CRPSS"] [] :=
  exLines_input (by unfold FrameWF; decide +kernel) (by decide)
    ⟨by decide, by decide, plainText_of (by decide) (by decide) (by decide)⟩ (by decide +kernel)

/-- One minus 10/28 for model A (weighted scores 1 + 3·3 of 4 + 3·8), one minus 14/28 for model B. -/
theorem exEcnt_result : aggRun (ensembleStat .ecnt exEcnt) (fun _ _ => .none) exEcnt (exLinesParams "ECNT_CRPSS") =
    .ok [⟨["A", "6", "ECNT_CRPSS"], some "TMP", .num (6428571 / 10000000), 2⟩,
      ⟨["B", "6", "ECNT_CRPSS"], some "TMP", .num (1 / 2), 2⟩] := by decide +kernel

example : ∃ plain derived : List AggOut,
    [⟨["A", "6", "ECNT_CRPSS"], some "TMP", .num (6428571 / 10000000), 2⟩,
      ⟨["B", "6", "ECNT_CRPSS"], some "TMP", .num (1 / 2), 2⟩] = plain ++ derived := by
  obtain ⟨plain, derived, h, -⟩ := C243_scores (fun _ _ => .none) _ exEcnt_input exRunKey (exLines_key _ _ _) _ _
    exEcnt_lines exEcnt_result (by simp)
  exact ⟨plain, derived, h⟩

example : ∃ out, aggRun (ensembleStat .ecnt (exLines ("total" :: ecntColumns) "ECNT_ME"
    [("t1", "A", [1, 1, 1, 1, 1, 3, 1, 4, 2, 4, 1, 1, 1, 1, 1, 1, 1, 1, 2, 1, -3])])) (fun _ _ => .none)
    (exLines ("total" :: ecntColumns) "ECNT_ME"
      [("t1", "A", [1, 1, 1, 1, 1, 3, 1, 4, 2, 4, 1, 1, 1, 1, 1, 1, 1, 1, 2, 1, -3])]) (exLinesParams "ECNT_ME") =
      .ok out := by
  refine C243_completes _ (exLines_input (by unfold FrameWF; decide +kernel) (by decide)
    ⟨by decide, by decide, plainText_of (by decide) (by decide) (by decide)⟩ (by decide +kernel)) (exNum 5) exEcntField
    ⟨by decide +kernel, exLines_number 5 rfl (by decide +kernel) (by decide +kernel), ?_⟩ rfl ?_
  · intro c hc
    generalize hE : exLines ("total" :: ecntColumns) "ECNT_ME"
      [("t1", "A", [1, 1, 1, 1, 1, 3, 1, 4, 2, 4, 1, 1, 1, 1, 1, 1, 1, 1, 2, 1, -3])] = E
    have h : ∀ c ∈ ecntColumns, E.cols[6 + ecntColumns.idxOf c]? = some c ∧
        (∀ j < 6 + ecntColumns.idxOf c, E.cols[j]? ≠ some c) ∧
        ∀ r ∈ E.rows, numberOf (cellAt r (6 + ecntColumns.idxOf c)) = some (exEcntField c r) := by
      rw [← hE]; decide +kernel
    obtain ⟨h1, h2, h3⟩ := h c hc
    subst hE
    exact exLines_number _ h1 h2 h3
  · intro s hs
    obtain rfl : s = "ECNT_ME" := by simpa [exLinesParams] using hs
    exact ⟨"me", by simp, by decide +kernel⟩

/-- NBRCNT lines. -/
def exNbr : Frame := exLines ["total", "fbs", "fss", "f_rate", "o_rate"] "NBR_FSS"
  [("t1", "A", [1, 1/10, 1/2, 1/2, 1/2]), ("t2", "A", [1, 1/10, 1/3, 1/2, 1/2]), ("t1", "B", [1, 1/20, 1/2, 1/2, 1/2]),
   ("t3", "B", [3, 1/10, 1/2, 1/4, 1/4]), ("t3", "A", [3, 1/5, 3/4, 1/4, 1/4])]

theorem exNbr_lines : NbrCntLines exNbr (exNum 5) (exNum 6) (fun r => exNum 6 r / (1 - exNum 7 r)) (exNum 8) (exNum 9) where
  pos := by decide +kernel
  total := exLines_number 5 rfl (by decide +kernel) (by decide +kernel)
  fbs := exLines_number 6 rfl (by decide +kernel) (by decide +kernel)
  fss := exLines_number 7 rfl (by decide +kernel) (by decide +kernel)
  f_rate := exLines_number 8 rfl (by decide +kernel) (by decide +kernel)
  o_rate := exLines_number 9 rfl (by decide +kernel) (by decide +kernel)

/-- One minus (0.1 + 3·0.2)/(0.2 + 3·0.8) for model A, one minus (0.05 + 3·0.1)/(0.1 + 3·0.2) for model B. -/
theorem exNbr_result : aggRun (ensembleStat .nbrCnt exNbr) (fun _ _ => .none) exNbr (exLinesParams "NBR_FSS") =
    .ok [⟨["A", "6", "NBR_FSS"], some "TMP", .num (7307692 / 10000000), 2⟩,
      ⟨["B", "6", "NBR_FSS"], some "TMP", .num (1 / 2), 2⟩] := by decide +kernel

example : ∃ plain derived : List AggOut,
    [⟨["A", "6", "NBR_FSS"], some "TMP", .num (7307692 / 10000000), 2⟩,
      ⟨["B", "6", "NBR_FSS"], some "TMP", .num (1 / 2), 2⟩] = plain ++ derived := by
  obtain ⟨plain, derived, h, -⟩ := C244_scores (fun _ _ => .none) _
    (exLines_input (by unfold FrameWF; decide +kernel) (by decide)
      ⟨by decide, by decide, plainText_of (by decide) (by decide) (by decide)⟩ (by decide +kernel))
    exRunKey (exLines_key _ _ _) _ _ _ _ _ exNbr_lines exNbr_result (by simp)
  exact ⟨plain, derived, h⟩

/-- RPS lines. -/
def exRpsRun : Frame := exLines ["total", "rps", "rpss", "rps_comp"] "RPSS"
  [("t1", "A", [1, 1/10, 1/2, 9/10]), ("t2", "A", [1, 1/10, 1/3, 9/10]), ("t1", "B", [1, 1/20, 1/2, 19/20]),
   ("t3", "B", [3, 1/10, 1/2, 9/10]), ("t3", "A", [3, 1/5, 3/4, 4/5])]

theorem exRps_lines : RpsLines exRpsRun (exNum 5) (exNum 6) (fun r => exNum 6 r / (1 - exNum 7 r)) (exNum 8) where
  pos := by decide +kernel
  total := exLines_number 5 rfl (by decide +kernel) (by decide +kernel)
  rps := exLines_number 6 rfl (by decide +kernel) (by decide +kernel)
  rpss := exLines_number 7 rfl (by decide +kernel) (by decide +kernel)
  rps_comp := exLines_number 8 rfl (by decide +kernel) (by decide +kernel)

theorem exRps_result : aggRun (ensembleStat .rps exRpsRun) (fun _ _ => .none) exRpsRun (exLinesParams "RPSS") =
    .ok [⟨["A", "6", "RPSS"], some "TMP", .num (7307692 / 10000000), 2⟩,
      ⟨["B", "6", "RPSS"], some "TMP", .num (1 / 2), 2⟩] := by decide +kernel

example : ∃ plain derived : List AggOut,
    [⟨["A", "6", "RPSS"], some "TMP", .num (7307692 / 10000000), 2⟩,
      ⟨["B", "6", "RPSS"], some "TMP", .num (1 / 2), 2⟩] = plain ++ derived := by
  obtain ⟨plain, derived, h, -⟩ := C245_scores (fun _ _ => .none) _
    (exLines_input (by unfold FrameWF; decide +kernel) (by decide)
      ⟨by decide, by decide, plainText_of (by decide) (by decide) (by decide)⟩ (by decide +kernel))
    exRunKey (exLines_key _ _ _) _ _ _ _ exRps_lines exRps_result (by simp)
  exact ⟨plain, derived, h⟩

/-- GRAD lines of the gradients of `exGradPairs`. -/
def exGradRun : Frame := exLines ["total", "fgbar", "ogbar", "mgbar", "egbar"] "S1"
  [("t1", "A", [1, 1, 3, 3, 4]), ("t2", "A", [1, 9, 1, 9, 8]), ("t1", "B", [1, 3, 3, 3, 0]),
   ("t3", "B", [2, 2, 2, 2, 4]), ("t3", "A", [2, 2, 2, 2, 0])]

def exGradPairs (r : List Val) : List Pair :=
  if exNum 5 r = 1 then [(exNum 6 r, exNum 6 r - exNum 9 r)]
  else [(2, if exNum 9 r = 0 then 2 else -2), (2, if exNum 9 r = 0 then 2 else -2)]

theorem exGrad_lines : GradLines exGradRun exGradPairs where
  batch := by decide +kernel
  total := exLines_number 5 rfl (by decide +kernel) (by decide +kernel)
  fgbar := exLines_number 6 rfl (by decide +kernel) (by decide +kernel)
  ogbar := exLines_number 7 rfl (by decide +kernel) (by decide +kernel)
  mgbar := exLines_number 8 rfl (by decide +kernel) (by decide +kernel)
  egbar := exLines_number 9 rfl (by decide +kernel) (by decide +kernel)

/-- 100 · 4 / 7 for model A, 100 · 8 / 7 for model B. -/
theorem exGrad_result : aggRun (ensembleStat .grad exGradRun) (fun _ _ => .none) exGradRun (exLinesParams "S1") =
    .ok [⟨["A", "6", "S1"], some "TMP", .num (571428571 / 10000000), 2⟩,
      ⟨["B", "6", "S1"], some "TMP", .num (1142857143 / 10000000), 2⟩] := by decide +kernel

example : ∃ plain derived : List AggOut,
    [⟨["A", "6", "S1"], some "TMP", .num (571428571 / 10000000), 2⟩,
      ⟨["B", "6", "S1"], some "TMP", .num (1142857143 / 10000000), 2⟩] = plain ++ derived := by
  obtain ⟨plain, derived, h, -⟩ := C246_scores (fun _ _ => .none) _
    (exLines_input (by unfold FrameWF; decide +kernel) (by decide)
      ⟨by decide, by decide, plainText_of (by decide) (by decide) (by decide)⟩ (by decide +kernel))
    exRunKey (exLines_key _ _ _) _ exGrad_lines exGrad_result (by simp)
  exact ⟨plain, derived, h⟩

end Metcalcpy.Props
