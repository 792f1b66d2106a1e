/-
C252 With event equalization, the scores of probability forecasts (PCT lines) in an aggregation table are those of the
     bins pooled over the common cases (not the Brier score, its skill score and the resolution: the run fails).
C253 A reliability curve has a point for every threshold of the common cases, with the observed frequency and the number of
     forecasts there.
C254 The scores of multi-category and neighborhood contingency tables (MCTC, NBR_CTC lines) are those of the pooled counts.
-/
import Verif.Model.AggCounts
import Verif.Props.C174_MctcAggregate
import Verif.Props.C243_AggEnsemble
import Verif.Props.C14_Pstd
import Verif.Props.C183_Images

namespace Metcalcpy.Props
open Metcalcpy Spec

/-! ### Specification -/

/-- The columns of one probability bin in PCT lines: their names, the probability, and the counts of events and
non-events of a line. -/
structure BinColumns where
  thName : String
  oyName : String
  onName : String
  th : ℚ
  oy : List Val → ℚ
  on : List Val → ℚ

/-- Every row of `f` is a PCT line with the given bins. -/
structure PctLines (f : Frame) (bins : List BinColumns) : Prop where
  oy_cols : f.cols.filter (fun c => strIn "oy_i" c) = bins.map BinColumns.oyName
  on_cols : f.cols.filter (fun c => !strIn "oy_i" c && strIn "on_i" c) = bins.map BinColumns.onName
  th_cols : f.cols.filter (fun c => !strIn "oy_i" c && !strIn "on_i" c && strIn "thresh_i" c) =
    bins.map BinColumns.thName
  th : ∀ b ∈ bins, ∀ r ∈ f.rows, HasNumber f r b.thName b.th
  oy : ∀ b ∈ bins, ∀ r ∈ f.rows, HasNumber f r b.oyName (b.oy r)
  on : ∀ b ∈ bins, ∀ r ∈ f.rows, HasNumber f r b.onName (b.on r)
  oy_nonneg : ∀ b ∈ bins, ∀ r ∈ f.rows, 0 ≤ b.oy r
  on_nonneg : ∀ b ∈ bins, ∀ r ∈ f.rows, 0 ≤ b.on r

/-- The bins with the counts of several lines added up. -/
def binsOf (bins : List BinColumns) (rows : List (List Val)) : List Bin :=
  bins.map fun b => ⟨b.th, (rows.map b.oy).sum, (rows.map b.on).sum⟩

/-- The frequency of the event. -/
def eventRate (bs : List Bin) : ℚ := events bs / (events bs + nonEvents bs)

/-- The mean squared difference of forecast probability and observed frequency of its bin. -/
def calibrationError (bs : List Bin) : ℚ :=
  (bs.map fun b => (b.oy + b.on) * (b.thresh - b.oy / (b.oy + b.on)) ^ 2).sum / (events bs + nonEvents bs)

/-- `v` is the score called `s` of the bins, rounded to seven decimals. -/
structure PctScore (s : String) (bs : List Bin) (v : PyNum) : Prop where
  baser : s = "pstd_baser" → 0 < events bs + nonEvents bs → v = .num (roundHalfUp (eventRate bs) 7)
  uncertainty : s = "pstd_uncertainty" → 0 < events bs + nonEvents bs →
    v = .num (roundHalfUp (eventRate bs * (1 - eventRate bs)) 7)
  reliability : s = "pstd_reliability" → 0 < events bs + nonEvents bs → v = .num (roundHalfUp (calibrationError bs) 7)
  no_counts : s ∈ ["pstd_baser", "pstd_uncertainty", "pstd_reliability"] → events bs + nonEvents bs = 0 → v = .none
  roc_auc : s = "pstd_roc_auc" → 0 < events bs → 0 < nonEvents bs → v = .num (roundHalfUp (concordanceProb bs) 7)

/-- Every row of `f` is a PCT line of a single bin: its probability, written as a decimal number, and its `oy r` events
and `on r` non-events. -/
structure ReliabilityLines (f : Frame) (oy on : List Val → ℕ) : Prop where
  th : ∀ r ∈ f.rows, ∃ q s, HasCell f r "thresh_i" (.num q s) ∧ IsDecimal s q
  oy : ∀ r ∈ f.rows, HasNumber f r "oy_i" (oy r)
  on : ∀ r ∈ f.rows, HasNumber f r "on_i" (on r)

/-- `v` is the value called `s` at a point of the reliability curve with these lines. -/
structure ReliabilityValue (oy on : List Val → ℕ) (s : String) (rows : List (List Val)) (v : PyNum) : Prop where
  ni : s = "pstd_ni" → v = .num ((rows.map oy).sum + (rows.map on).sum : ℕ)
  calibration : s = "pstd_calibration" → 0 < (rows.map oy).sum + (rows.map on).sum →
    v = .num (roundHalfUp ((rows.map oy).sum / ((rows.map oy).sum + (rows.map on).sum)) 7)
  no_counts : s = "pstd_calibration" → (rows.map oy).sum + (rows.map on).sum = 0 → v = .none

/-- One category pair of MCTC lines: forecast category, observed category (both from 0) and the count on every line. -/
structure CatColumn where
  fcst : ℕ
  obs : ℕ
  count : List Val → ℚ

/-- Every row of `f` is an MCTC line with `n` categories, the expected-correct value `ec r` and these category pairs. -/
structure MctcLines (f : Frame) (n : ℕ) (ec : List Val → ℚ) (cats : List CatColumn) : Prop where
  n_cat : ∀ r ∈ f.rows, HasNumber f r "n_cat" n
  ec_value : ∀ r ∈ f.rows, HasNumber f r "ec_value" (ec r)
  length : cats.length = n * n
  distinct : (cats.map (fun c => (c.fcst, c.obs))).Nodup
  bounds : ∀ c ∈ cats, c.fcst < n ∧ c.obs < n
  i_value : ∀ (k : ℕ) (c : CatColumn), cats[k]? = some c → ∀ r ∈ f.rows, HasNumber f r ("i_value_" ++ toString k) (c.fcst + 1)
  j_value : ∀ (k : ℕ) (c : CatColumn), cats[k]? = some c → ∀ r ∈ f.rows, HasNumber f r ("j_value_" ++ toString k) (c.obs + 1)
  fi_oj : ∀ (k : ℕ) (c : CatColumn), cats[k]? = some c → ∀ r ∈ f.rows, HasNumber f r ("fi_oj_" ++ toString k) (c.count r)

/-- All forecasts of the lines. -/
def allForecasts (cats : List CatColumn) (rows : List (List Val)) : ℚ :=
  (cats.map fun c => (rows.map c.count).sum).sum

/-- The correct forecasts of the lines. -/
def correctForecasts (cats : List CatColumn) (rows : List (List Val)) : ℚ :=
  ((cats.filter fun c => c.fcst = c.obs).map fun c => (rows.map c.count).sum).sum

/-- `v` is the skill score of the lines, against the expected-correct value that they share. -/
def SkillEc (cats : List CatColumn) (ec : List Val → ℚ) (s : String) (rows : List (List Val)) (v : PyNum) : Prop :=
  s = "mcts_hss_ec" → ∃ e, (∀ r ∈ rows, ec r = e) ∧
    RatioIs ⟨correctForecasts cats rows - e * allForecasts cats rows,
      allForecasts cats rows - e * allForecasts cats rows⟩ v

/-! ### Lemmas -/

theorem tallyPrepared_of {l : CountLine} {f : Frame} {s : String} {data : List (List Val)}
    {calculate : Table → Except PyErr (Option ℚ)} (hl : countFunctions.lookup s = some calculate)
    (hp : prepareCounts l (numericTable f.cols data) = .ok (numericTable f.cols data)) :
    tallyPrepared l f s data = (calculate (numericTable f.cols data)).map toPyNum := by
  unfold tallyPrepared
  simp only [bind, Except.bind, hl, hp]

theorem tallyStat_sorted {l : CountLine} {f : Frame} {s : String} {rows data : List (List Val)}
    (hs : sortData f rows = .ok data) : tallyStat l f s rows = tallyPrepared l f s data := by
  unfold tallyStat
  rw [hs]
  rfl

/-- The statistic of the rows of a point is that of the same rows in some order. -/
theorem tallyStat_inv {l : CountLine} {f : Frame} {s : String} {rows : List (List Val)} {v : PyNum}
    (h : tallyStat l f s rows = .ok v) : ∃ data, data.Perm rows ∧ tallyPrepared l f s data = .ok v := by
  cases hs : sortData f rows with
  | error e => unfold tallyStat at h; rw [hs] at h; cases h
  | ok data => exact ⟨data, (sortData_spec hs).1, tallyStat_sorted hs ▸ h⟩

theorem tallyStat_of {l : CountLine} {f : Frame} {s : String} {rows data : List (List Val)}
    {calculate : Table → Except PyErr (Option ℚ)} (hs : sortData f rows = .ok data)
    (hl : countFunctions.lookup s = some calculate)
    (hp : prepareCounts l (numericTable f.cols data) = .ok (numericTable f.cols data)) :
    tallyStat l f s rows = (calculate (numericTable f.cols data)).map toPyNum := by
  rw [tallyStat_sorted hs, tallyPrepared_of hl hp]

theorem pct_table {f : Frame} {bins : List BinColumns} (L : PctLines f bins) {rows : List (List Val)} (hne : rows ≠ [])
    (hsub : ∀ r ∈ rows, r ∈ f.rows) : PctData (numericTable f.cols rows)
      (bins.map fun b => ⟨b.thName, b.oyName, b.onName, b.th, rows.map b.oy, rows.map b.on⟩) where
  rows_ne := by simpa [numericTable] using hne
  oy_cols := by
    have := L.oy_cols
    simpa [numericTable, Function.comp_def] using this
  on_cols := by
    have := L.on_cols
    simpa [numericTable, Function.comp_def] using this
  th_cols := by
    have := L.th_cols
    simpa [numericTable, Function.comp_def] using this
  th := by
    intro p hp
    obtain ⟨b, hb, rfl⟩ := List.mem_map.mp hp
    have := completeColumn_numeric (f := f) (c := b.thName) (g := fun _ => b.th) hne
      (fun r hr => L.th b hb r (hsub r hr))
    cases rows with
    | nil => exact absurd rfl hne
    | cons r rest => exact ⟨_, this⟩
  oy := by
    intro p hp
    obtain ⟨b, hb, rfl⟩ := List.mem_map.mp hp
    exact completeColumn_numeric hne (fun r hr => L.oy b hb r (hsub r hr))
  on := by
    intro p hp
    obtain ⟨b, hb, rfl⟩ := List.mem_map.mp hp
    exact completeColumn_numeric hne (fun r hr => L.on b hb r (hsub r hr))
  oy_nonneg := by
    intro p hp x hx
    obtain ⟨b, hb, rfl⟩ := List.mem_map.mp hp
    obtain ⟨r, hr, rfl⟩ := List.mem_map.mp hx
    exact L.oy_nonneg b hb r (hsub r hr)
  on_nonneg := by
    intro p hp x hx
    obtain ⟨b, hb, rfl⟩ := List.mem_map.mp hp
    obtain ⟨r, hr, rfl⟩ := List.mem_map.mp hx
    exact L.on_nonneg b hb r (hsub r hr)

theorem pooled_binsOf (bins : List BinColumns) {rows data : List (List Val)} (hp : data.Perm rows) :
    pooledBins (bins.map fun b => ⟨b.thName, b.oyName, b.onName, b.th, data.map b.oy, data.map b.on⟩) =
      binsOf bins rows := by
  unfold pooledBins binsOf
  rw [List.map_map]
  apply List.map_congr_left
  intro b _
  simp only [Function.comp_apply, (hp.map b.oy).sum_eq, (hp.map b.on).sum_eq]

/-- The values of the statistics of a table with complete bins. -/
theorem pstd_values {t : Table} {ps : List PctBin} (D : PctData t ps) :
    (0 < events (pooledBins ps) + nonEvents (pooledBins ps) →
      pstdBaser t = .ok (some (roundHalfUp (eventRate (pooledBins ps)) 7)) ∧
      pstdUncertainty t = .ok (some (roundHalfUp (eventRate (pooledBins ps) * (1 - eventRate (pooledBins ps))) 7)) ∧
      pstdReliability t = .ok (some (roundHalfUp (calibrationError (pooledBins ps)) 7))) ∧
    (events (pooledBins ps) + nonEvents (pooledBins ps) = 0 →
      pstdBaser t = .ok none ∧ pstdUncertainty t = .ok none ∧ pstdReliability t = .ok none) := by
  have hnn := pooled_nonneg D
  have ht : binsTotal ((pooledBins ps).filter (fun b => b.n ≠ 0)) =
      events (pooledBins ps) + nonEvents (pooledBins ps) := by rw [binsTotal_filter, total_eq]
  have he : binsEvents ((pooledBins ps).filter (fun b => b.n ≠ 0)) = events (pooledBins ps) :=
    sum_filter_ne _ _ (fun b hb hn => (empty_bin (hnn b hb) hn).1)
  have hr : reliabilitySum ((pooledBins ps).filter (fun b => b.n ≠ 0)) =
      ((pooledBins ps).map fun b => (b.oy + b.on) * (b.thresh - b.oy / (b.oy + b.on)) ^ 2).sum := by
    unfold reliabilitySum
    rw [sum_filter_ne _ _ (fun b _ hn => by rw [hn]; ring)]
    congr 1
    apply List.map_congr_left
    intro b _
    simp only [Bin.n]
    ring
  constructor
  · intro hpos
    refine ⟨?_, ?_, ?_⟩
    · simp only [pstdBaser, commonStats_ok D, bind, Except.bind, ht, he, pyDiv, if_neg hpos.ne', Option.map_some, pstdTry]
      rfl
    · simp only [pstdUncertainty, commonStats_ok D, bind, Except.bind, ht, he, pyDiv, if_neg hpos.ne', Option.map_some,
        pstdTry]
      rfl
    · simp only [pstdReliability, commonStats_ok D, bind, Except.bind, calcReliability, ht, hr, pyDiv, if_neg hpos.ne',
        Option.map_some, pstdTry]
      rfl
  · intro h0
    refine ⟨?_, ?_, ?_⟩
    · simp only [pstdBaser, commonStats_ok D, bind, Except.bind, ht, pyDiv, h0, if_true, Option.map_none, pstdTry]
    · simp only [pstdUncertainty, commonStats_ok D, bind, Except.bind, ht, pyDiv, h0, if_true, Option.map_none, pstdTry]
    · simp only [pstdReliability, commonStats_ok D, bind, Except.bind, calcReliability, ht, pyDiv, h0, if_true,
        Option.map_none, pstdTry]

/-- The value of a set of PCT lines. -/
theorem pct_value {f : Frame} {bins : List BinColumns} (L : PctLines f bins) {rows data : List (List Val)}
    (hs : data.Perm rows) (hne : rows ≠ []) (hsub : ∀ r ∈ rows, r ∈ f.rows) {s : String} {v : PyNum}
    (h : tallyPrepared .pct f s data = .ok v) : PctScore s (binsOf bins rows) v := by
  have hperm := hs
  have D := pct_table L (perm_ne hs hne) (fun r hr => hsub r (hperm.mem_iff.mp hr))
  have e := pooled_binsOf bins hperm
  have fin : ∀ {stat : String} {calculate : Table → Except PyErr (Option ℚ)} {x : Option ℚ}, s = stat →
      countFunctions.lookup stat = some calculate → calculate (numericTable f.cols data) = .ok x → v = toPyNum x := by
    rintro stat calculate x rfl hl hc
    rw [tallyPrepared_of (l := .pct) hl rfl, hc] at h
    exact (Except.ok.inj h).symm
  obtain ⟨h1, h2⟩ := pstd_values D
  rw [e] at h1 h2
  refine ⟨fun es hp => fin es rfl (h1 hp).1, fun es hp => fin es rfl (h1 hp).2.1, fun es hp => fin es rfl (h1 hp).2.2,
    fun es h0 => ?_, fun es he hn => ?_⟩
  · simp only [List.mem_cons, List.not_mem_nil, or_false] at es
    rcases es with es | es | es
    · exact fin es rfl (h2 h0).1
    · exact fin es rfl (h2 h0).2.1
    · exact fin es rfl (h2 h0).2.2
  · have ha := C14_auc_concordance _ _ D (by rw [e]; exact he) (by rw [e]; exact hn)
    rw [e] at ha
    exact fin (x := some (roundHalfUp (concordanceProb (binsOf bins rows)) 7)) es rfl (by simp only [ha]; rfl)

variable {f : Frame} {p : AggParams} {init : List (String × List String)} {sv : String × List String}
  {parts : String → List String} {fix : List (String × List String)} {fv : String} {sts : List String}
  {rest : List (String × List String)}

/-- Unless the thresholds are the independent variable, a run on PCT lines is like any other. -/
theorem pctRun_eq (stat : String → List (List Val) → Except PyErr PyNum) (etb : List PyNum → List PyNum → PyNum)
    (f : Frame) (p : AggParams) (hi : p.indyVar ≠ "thresh_i") : pctRun stat etb f p = aggRun stat etb f p := by
  have : ∀ g a, pctAxis stat etb g p a = aggAxis stat etb g (p.config a) := by
    intro g a
    unfold pctAxis pctIndyVals
    rw [if_neg hi]
    simp only [bind, Except.bind]
    unfold aggAxis
    split <;> rfl
  unfold pctRun aggRun
  simp only [this]

/-! ### C252 -/

/-- C252: in a run on PCT lines with event equalization, base rate, uncertainty, reliability and ROC area of every point
are those of the bins pooled over all lines of the common cases of its point. -/
theorem C252_scores (etb : List PyNum → List PyNum → PyNum) (out : List AggOut)
    (R : OneAxisRun f p init sv parts fix fv sts rest) (key : List Val → String)
    (hkey : ∀ r ∈ f.rows, IsCaseKey f p.indyVar true r (key r)) (hi : p.indyVar ≠ "thresh_i")
    (bins : List BinColumns) (L : PctLines f bins)
    (h : pctRun (tallyStat .pct f) etb f p = .ok out) (hne : out ≠ []) :
    ∃ plain derived, out = plain ++ derived ∧
      (∀ pt, pt ∈ plain.map AggOut.point ↔
        ∃ as, List.Forall₂ (fun x q => x ∈ q.2) as (init ++ [sv]) ∧ ∃ i ∈ p.indyVals, ∃ st ∈ p.axis₁.stats,
          pt = as ++ [i, st]) ∧
      ∀ o ∈ plain, ∀ as i st, o.point = as ++ [i, st] →
        ∀ rows, rows = comparedRows f (init ++ [sv]) parts fix fv p.indyVar key as i st →
          (rows = [] → o.value = .none) ∧ (rows ≠ [] → PctScore (lower st) (binsOf bins rows) o.value) := by
  rw [pctRun_eq _ _ _ _ hi] at h
  exact run_scores _ (fun s rows v => PctScore s (binsOf bins rows) v) etb out R key hkey
    (fun s rows v hr hsub hv => by
      obtain ⟨data, hs, hv⟩ := tallyStat_inv hv
      exact pct_value L hs hr hsub hv) h hne

/-- C252: such runs complete (the ROC area needs an event and a non-event in every line). -/
theorem C252_completes (etb : List PyNum → List PyNum → PyNum) (R : OneAxisRun f p init sv parts fix fv sts rest)
    (hi : p.indyVar ≠ "thresh_i") (bins : List BinColumns) (L : PctLines f bins) (hd : p.axis₁.derived = [])
    (hs : ∀ s ∈ p.axis₁.stats, lower s ∈ ["pstd_baser", "pstd_uncertainty", "pstd_reliability"] ∨
      (lower s = "pstd_roc_auc" ∧ ∀ r ∈ f.rows, (∃ b ∈ bins, 0 < b.oy r) ∧ ∃ b ∈ bins, 0 < b.on r)) :
    ∃ out, pctRun (tallyStat .pct f) etb f p = .ok out := by
  rw [pctRun_eq _ _ _ _ hi]
  refine run_completes _ etb R hd (fun s hsm rows hne hsub => ?_)
  obtain ⟨data, hsd⟩ := sortData_exists R.input rows
  obtain ⟨hperm, -⟩ := sortData_spec hsd
  have hsub' : ∀ r ∈ data, r ∈ f.rows := fun r hr => hsub r (hperm.mem_iff.mp hr)
  have D := pct_table L (sorted_ne hsd hne) hsub'
  obtain ⟨h1, h2⟩ := pstd_values D
  have hnn := pooled_nonneg D
  have hE : 0 ≤ events (pooledBins (bins.map fun b =>
      (⟨b.thName, b.oyName, b.onName, b.th, data.map b.oy, data.map b.on⟩ : PctBin))) :=
    sum_nonneg_q _ (fun x hx => by obtain ⟨b, hb, rfl⟩ := List.mem_map.mp hx; exact (hnn b hb).1)
  have hN : 0 ≤ nonEvents (pooledBins (bins.map fun b =>
      (⟨b.thName, b.oyName, b.onName, b.th, data.map b.oy, data.map b.on⟩ : PctBin))) :=
    sum_nonneg_q _ (fun x hx => by obtain ⟨b, hb, rfl⟩ := List.mem_map.mp hx; exact (hnn b hb).2)
  rcases hs s hsm with hs | ⟨hs, hpos⟩
  · rcases (add_nonneg hE hN).lt_or_eq with hp | hp
    · obtain ⟨a1, a2, a3⟩ := h1 hp
      simp only [List.mem_cons, List.not_mem_nil, or_false] at hs
      rcases hs with e | e | e <;> rw [e]
      · exact ⟨_, by rw [tallyStat_of (l := .pct) hsd rfl rfl, a1]; rfl⟩
      · exact ⟨_, by rw [tallyStat_of (l := .pct) hsd rfl rfl, a2]; rfl⟩
      · exact ⟨_, by rw [tallyStat_of (l := .pct) hsd rfl rfl, a3]; rfl⟩
    · obtain ⟨a1, a2, a3⟩ := h2 hp.symm
      simp only [List.mem_cons, List.not_mem_nil, or_false] at hs
      rcases hs with e | e | e <;> rw [e]
      · exact ⟨_, by rw [tallyStat_of (l := .pct) hsd rfl rfl, a1]; rfl⟩
      · exact ⟨_, by rw [tallyStat_of (l := .pct) hsd rfl rfl, a2]; rfl⟩
      · exact ⟨_, by rw [tallyStat_of (l := .pct) hsd rfl rfl, a3]; rfl⟩
  · obtain ⟨r, hr⟩ := List.exists_mem_of_ne_nil _ (sorted_ne hsd hne)
    obtain ⟨⟨b, hb, hbp⟩, c, hc, hcp⟩ := hpos r (hsub' r hr)
    have pos : ∀ (g : BinColumns → List Val → ℚ), (∀ b ∈ bins, ∀ r ∈ f.rows, 0 ≤ g b r) →
        (∃ b ∈ bins, 0 < g b r) → 0 < (bins.map fun b => (data.map (g b)).sum).sum := by
      rintro g hg ⟨b, hb, hbp⟩
      have h3 : ∀ b ∈ bins, 0 ≤ (data.map (g b)).sum := fun b hb => sum_nonneg_q _ (fun x hx => by
        obtain ⟨r, hr, rfl⟩ := List.mem_map.mp hx
        exact hg b hb r (hsub' r hr))
      have h4 : g b r ≤ (data.map (g b)).sum := List.single_le_sum (fun x hx => by
        obtain ⟨r, hr, rfl⟩ := List.mem_map.mp hx
        exact hg b hb r (hsub' r hr)) _ (List.mem_map_of_mem hr)
      have h5 : (data.map (g b)).sum ≤ (bins.map fun b => (data.map (g b)).sum).sum :=
        List.single_le_sum (fun x hx => by
          obtain ⟨b, hb, rfl⟩ := List.mem_map.mp hx
          exact h3 b hb) _ (List.mem_map.mpr ⟨b, hb, rfl⟩)
      linarith
    have he := pos BinColumns.oy L.oy_nonneg ⟨b, hb, hbp⟩
    have hn := pos BinColumns.on L.on_nonneg ⟨c, hc, hcp⟩
    have ha := C14_auc_concordance _ _ D
      (by simpa [events, pooledBins, Function.comp_def] using he)
      (by simpa [nonEvents, pooledBins, Function.comp_def] using hn)
    rw [hs]
    exact ⟨_, by rw [tallyStat_of (l := .pct) hsd rfl rfl]; simp only [ha]; rfl⟩

/-- C252 fails for the Brier score, its skill score and the resolution: a run that asks for one of them has an empty
table or does not complete, unless the point has no counts. -/
theorem C252_brier_fails (etb : List PyNum → List PyNum → PyNum) (out : List AggOut)
    (R : OneAxisRun f p init sv parts fix fv sts rest) (key : List Val → String)
    (hkey : ∀ r ∈ f.rows, IsCaseKey f p.indyVar true r (key r)) (hi : p.indyVar ≠ "thresh_i")
    (bins : List BinColumns) (L : PctLines f bins) (as : List String) (i st : String)
    (ha : List.Forall₂ (fun x q => x ∈ q.2) as (init ++ [sv])) (hiv : i ∈ p.indyVals) (hst : st ∈ p.axis₁.stats)
    (hb : lower st ∈ ["pstd_brier", "pstd_bss_smpl", "pstd_resolution"])
    (hr : comparedRows f (init ++ [sv]) parts fix fv p.indyVar key as i st ≠ [])
    (hpos : 0 < events (binsOf bins (comparedRows f (init ++ [sv]) parts fix fv p.indyVar key as i st)) +
      nonEvents (binsOf bins (comparedRows f (init ++ [sv]) parts fix fv p.indyVar key as i st)))
    (h : pctRun (tallyStat .pct f) etb f p = .ok out) : out = [] := by
  rw [pctRun_eq _ _ _ _ hi] at h
  by_contra hne
  obtain ⟨plain, derived, -, hpts, hval⟩ := run_scores (tallyStat .pct f)
    (fun s rows v => s ∈ ["pstd_brier", "pstd_bss_smpl", "pstd_resolution"] →
      ¬ 0 < events (binsOf bins rows) + nonEvents (binsOf bins rows)) etb out R key hkey
    (fun s rows v hr hsub hv hs hp => by
      obtain ⟨data, hsd⟩ := sortData_exists R.input rows
      obtain ⟨hperm, -⟩ := sortData_spec hsd
      have D := pct_table L (sorted_ne hsd hr) (fun r hr => hsub r (hperm.mem_iff.mp hr))
      obtain ⟨b1, b2, b3⟩ := C55_brier_raises _ _ D (by rw [pooled_binsOf bins hperm]; exact hp)
      simp only [List.mem_cons, List.not_mem_nil, or_false] at hs
      rcases hs with rfl | rfl | rfl
      · rw [tallyStat_of (l := .pct) hsd rfl rfl, b1] at hv; cases hv
      · rw [tallyStat_of (l := .pct) hsd rfl rfl, b2] at hv; cases hv
      · rw [tallyStat_of (l := .pct) hsd rfl rfl, b3] at hv; cases hv) h hne
  obtain ⟨o, ho, hpt⟩ := List.mem_map.mp ((hpts (as ++ [i, st])).mpr ⟨as, ha, i, hiv, st, hst, rfl⟩)
  exact (hval o ho as i st hpt _ rfl).2 hr hb hpos

/-! ### C253 -/

theorem decimal_plain {s : String} {q : ℚ} (h : IsDecimal s q) :
    ':' ∉ s.toList ∧ ';' ∉ s.toList ∧ isDerivedPoint (some [s]) = false := by
  obtain ⟨a, b, hd, -, hs⟩ := h
  have hc : ∀ c ∈ s.toList, c.isDigit = true ∨ c = '.' ∨ c = '-' := by
    intro c hc
    rcases hs with ⟨e, -⟩ | ⟨e, -⟩ <;> rw [e] at hc
    · simp only [List.mem_append, List.mem_cons] at hc
      rcases hc with h | h | h
      · exact Or.inl (hd c (by simp [h]))
      · exact Or.inr (Or.inl h)
      · exact Or.inl (hd c (by simp [h]))
    · simp only [List.mem_append, List.mem_cons] at hc
      rcases hc with h | h | h | h
      · exact Or.inr (Or.inr h)
      · exact Or.inl (hd c (by simp [h]))
      · exact Or.inr (Or.inl h)
      · exact Or.inl (hd c (by simp [h]))
  have no : ∀ c : Char, c.isDigit = false → c ≠ '.' → c ≠ '-' → c ∉ s.toList := by
    intro c h1 h2 h3 hm
    rcases hc c hm with h | h | h
    · rw [h1] at h; cases h
    · exact h2 h
    · exact h3 h
  refine ⟨no _ (by decide) (by decide) (by decide), no _ (by decide) (by decide) (by decide), ?_⟩
  have hp : '(' ∉ s.toList := no _ (by decide) (by decide) (by decide)
  unfold isDerivedPoint
  rw [Bool.eq_false_iff]
  intro hx
  simp only [List.any_eq_true, List.any_cons, List.any_nil, Bool.or_false, Bool.or_eq_true] at hx
  obtain ⟨op, hop, hx⟩ := hx
  unfold startsWith at hx
  rcases hx with hx | hx
  · have := (List.isPrefixOf_iff_prefix.mp hx).subset (a := '(') (by simp [String.toList_append])
    exact hp this
  · have := (List.isPrefixOf_iff_prefix.mp hx).subset (a := '(') (by simp [String.toList_append])
    exact hp this

theorem mem_thresholdTexts {g : Frame} {j : ℕ} {s : String} :
    s ∈ thresholdTexts g j ↔ ∃ r ∈ g.rows, ∃ q, cellAt r j = .num q s := by
  unfold thresholdTexts
  simp only [List.mem_map, List.mem_insertionSort, List.mem_dedup, List.mem_filterMap]
  constructor
  · rintro ⟨⟨q, s'⟩, ⟨r, hr, e⟩, rfl⟩
    refine ⟨r, hr, q, ?_⟩
    cases hc : cellAt r j with
    | num q' t => rw [hc] at e; simp at e; simp [e]
    | str t => rw [hc] at e; simp at e
    | null => rw [hc] at e; simp at e
  · rintro ⟨r, hr, q, e⟩
    exact ⟨(q, s), ⟨r, hr, by rw [e]⟩, rfl⟩

theorem cellsTotal_of {t : Table} {c : String} {xs : List ℚ} (h : CompleteColumn t c xs) :
    cellsTotal t c = some xs.sum := by
  unfold cellsTotal
  rw [columnData_of_isColumn h]
  have h1 : (xs.map some).any Option.isNone = false := by simp
  have h2 : (xs.map some).filterMap id = xs := by rw [List.filterMap_map]; simp
  simp only [h1, h2, Bool.false_eq_true, if_false]

theorem cast_sum (g : List Val → ℕ) (rows : List (List Val)) :
    (rows.map fun r => (g r : ℚ)).sum = ((rows.map g).sum : ℕ) := by
  induction rows with
  | nil => simp
  | cons r rows ih => simp [ih]

/-- The value of a set of PCT lines of single bins. -/
theorem reliability_value {f : Frame} {oy on : List Val → ℕ} (L : ReliabilityLines f oy on) {rows data : List (List Val)}
    (hs : data.Perm rows) (hne : rows ≠ []) (hsub : ∀ r ∈ rows, r ∈ f.rows) {s : String} {v : PyNum}
    (h : tallyPrepared .pct f s data = .ok v) : ReliabilityValue oy on s rows v := by
  have hperm := hs
  have hne' := perm_ne hs hne
  have hsub' : ∀ r ∈ data, r ∈ f.rows := fun r hr => hsub r (hperm.mem_iff.mp hr)
  have h1 := cellsTotal_of (completeColumn_numeric (g := fun r => (oy r : ℚ)) hne' (fun r hr => L.oy r (hsub' r hr)))
  have h2 := cellsTotal_of (completeColumn_numeric (g := fun r => (on r : ℚ)) hne' (fun r hr => L.on r (hsub' r hr)))
  rw [cast_sum, (hperm.map oy).sum_eq] at h1
  rw [cast_sum, (hperm.map on).sum_eq] at h2
  have hn : pstdNi (numericTable f.cols data) = some (((rows.map oy).sum + (rows.map on).sum : ℕ) : ℚ) := by
    unfold pstdNi
    rw [h1, h2]
    simp only [Option.bind_eq_bind, Option.bind_some, Option.some.injEq]
    have := round7_int (K := ℚ) (((rows.map oy).sum + (rows.map on).sum : ℕ) : ℤ)
    rw [Int.cast_natCast] at this
    rw [← Nat.cast_add]
    exact this
  have hc : pstdCalibration (numericTable f.cols data) =
      (pyDiv (((rows.map oy).sum : ℕ) : ℚ) (((rows.map oy).sum + (rows.map on).sum : ℕ) : ℚ)).map
        (fun q => roundHalfUp q 7) := by
    unfold pstdCalibration
    rw [h1, hn]
    simp only [Option.bind_eq_bind, Option.bind_some]
    cases pyDiv (((rows.map oy).sum : ℕ) : ℚ) (((rows.map oy).sum + (rows.map on).sum : ℕ) : ℚ) <;> rfl
  have fin : ∀ {stat : String} {calculate : Table → Except PyErr (Option ℚ)} {x : Option ℚ}, s = stat →
      countFunctions.lookup stat = some calculate → calculate (numericTable f.cols data) = .ok x → v = toPyNum x := by
    rintro stat calculate x rfl hl hc
    rw [tallyPrepared_of (l := .pct) hl rfl, hc] at h
    exact (Except.ok.inj h).symm
  refine ⟨fun e => fin e rfl (congrArg Except.ok hn), fun e hp => ?_, fun e h0 => ?_⟩
  · have hq : (((rows.map oy).sum + (rows.map on).sum : ℕ) : ℚ) ≠ 0 := by
      exact_mod_cast hp.ne'
    have := fin e rfl (congrArg Except.ok hc)
    rw [this, pyDiv, if_neg hq]
    push_cast
    rfl
  · have := fin e rfl (congrArg Except.ok hc)
    rw [this, pyDiv, if_pos (by exact_mod_cast h0)]
    rfl

theorem aggRun_one (p : AggParams) (stat : String → List (List Val) → Except PyErr PyNum)
    (etb : List PyNum → List PyNum → PyNum) (f g : Frame) (h1 : truthy (parseBool p.eventEqual) = true)
    (h2 : p.axis₂.series = []) (hg : p.equalize f = .ok g) :
    aggRun stat etb f p = aggAxis stat etb g (p.config p.axis₁) := by
  unfold aggRun
  rw [h1, h2, if_pos rfl, hg]
  simp only [bind, Except.bind, List.isEmpty_nil, if_true]
  cases aggAxis stat etb g (p.config p.axis₁) <;> rfl

/-- A run over the thresholds of the data is the run that asks for the thresholds of the common cases. -/
theorem pctRun_thresholds (etb : List PyNum → List PyNum → PyNum)
    (R : OneAxisRun f p init sv parts fix fv sts rest) (key : List Val → String)
    (hkey : ∀ r ∈ f.rows, IsCaseKey f p.indyVar true r (key r)) (hi : p.indyVar = "thresh_i")
    {oy on : List Val → ℕ} (L : ReliabilityLines f oy on)
    (stat : String → List (List Val) → Except PyErr PyNum) :
    pctRun stat etb f p = .ok [] ∨ ∃ (G : List (List Val)) (j : ℕ), p.equalize f = .ok ⟨f.cols, G⟩ ∧ G ≠ [] ∧ (∀ r ∈ G, r ∈ f.rows) ∧
      f.idx? "thresh_i" = some j ∧
      pctRun stat etb f p = aggRun stat etb f { p with indyVals := thresholdTexts ⟨f.cols, G⟩ j } ∧
      OneAxisRun f { p with indyVals := thresholdTexts ⟨f.cols, G⟩ j } init sv parts fix fv sts rest := by
  have hg := equalize_ok R key hkey
  generalize hG : (p.axis₁.fcstVarVal.flatMap (fun q => q.2.map (fun s => (q.1, s)))).flatMap
      (keptRows f sv ((init ++ [sv]).map (fun x => (x.1, x.2.flatMap parts)) ++ fix) key) = G at hg
  have hsub : ∀ r ∈ G, r ∈ f.rows := by
    intro r hr
    rw [← hG] at hr
    unfold keptRows at hr
    simp only [List.mem_flatMap, List.mem_filter] at hr
    obtain ⟨_, _, h3⟩ := hr
    exact h3.1.1
  have ht : truthy (parseBool "True") = true := rfl
  have hp : pctRun stat etb f p = pctAxis stat etb ⟨f.cols, G⟩ p p.axis₁ := by
    unfold pctRun
    rw [R.on, R.second, ht, if_pos rfl, hg]
    simp only [bind, Except.bind, List.isEmpty_nil, if_true]
    cases pctAxis stat etb ⟨f.cols, G⟩ p p.axis₁ <;> rfl
  rw [hp]
  by_cases hGe : G = []
  · subst hGe
    left
    unfold pctAxis
    rw [if_pos (by simp [Frame.isEmpty])]
  · right
    obtain ⟨r, hr⟩ := List.exists_mem_of_ne_nil _ hGe
    obtain ⟨q, s, ⟨j, hj1, hj2, hj3⟩, hdec⟩ := L.th r (hsub r hr)
    have hj : f.idx? "thresh_i" = some j := Frame.idx?_eq_some.mpr ⟨hj1, hj2⟩
    have hcols : f.cols ≠ [] := List.ne_nil_of_mem R.forecast
    have hax : pctAxis stat etb ⟨f.cols, G⟩ p p.axis₁ = aggAxis stat etb ⟨f.cols, G⟩
        (({ p with indyVals := thresholdTexts ⟨f.cols, G⟩ j } : AggParams).config p.axis₁) := by
      unfold pctAxis pctIndyVals
      rw [if_neg (by simp [Frame.isEmpty, hGe, hcols]), if_pos hi]
      have : Frame.col ⟨f.cols, G⟩ "thresh_i" = .ok j := by
        have h' : Frame.idx? ⟨f.cols, G⟩ "thresh_i" = some j := hj
        unfold Frame.col
        rw [h']
      simp only [bind, Except.bind, this]
    have htext : ∀ s ∈ thresholdTexts ⟨f.cols, G⟩ j, ∃ q, IsDecimal s q := by
      intro s hs
      obtain ⟨r, hr, q, e⟩ := mem_thresholdTexts.mp hs
      obtain ⟨q', s', ⟨k, hk1, hk2, hk3⟩, hd⟩ := L.th r (hsub r hr)
      have hk := Frame.idx?_eq_some.mpr ⟨hk1, hk2⟩
      rw [hj] at hk
      obtain rfl := Option.some.inj hk
      unfold cellAt at e
      rw [hk3] at e
      simp only [Option.getD_some, Val.num.injEq] at e
      exact ⟨q', e.2 ▸ hd⟩
    refine ⟨G, j, hg, hGe, hsub, hj, ?_, ?_⟩
    · rw [hax]
      exact (aggRun_one { p with indyVals := thresholdTexts ⟨f.cols, G⟩ j } stat etb f ⟨f.cols, G⟩ (by rw [R.on]; rfl) R.second hg).symm
    · refine { R with indy := ⟨?_, fun i hi' => ?_⟩, plain := ⟨R.plain.1, fun i hi' => ?_, R.plain.2.2⟩ }
      · refine List.ne_nil_of_mem (mem_thresholdTexts.mpr ⟨r, hr, q, ?_⟩) (a := s)
        unfold cellAt
        rw [hj3]
        rfl
      · obtain ⟨q, hd⟩ := htext i hi'
        exact ⟨_, plain_standsFor (decimal_plain hd).1 (decimal_plain hd).2.1⟩
      · obtain ⟨q, hd⟩ := htext i hi'
        exact (decimal_plain hd).2.2

/-- C253: a reliability curve (PCT lines of single bins, the thresholds as independent variable) has for every series and
statistic a point at every threshold of the common cases, whatever thresholds were requested; its value is the number of
forecasts of this probability in the common cases, or the frequency of the event among them. -/
theorem C253_curve (etb : List PyNum → List PyNum → PyNum) (out : List AggOut)
    (R : OneAxisRun f p init sv parts fix fv sts rest) (key : List Val → String)
    (hkey : ∀ r ∈ f.rows, IsCaseKey f p.indyVar true r (key r)) (hi : p.indyVar = "thresh_i")
    (oy on : List Val → ℕ) (L : ReliabilityLines f oy on)
    (h : pctRun (tallyStat .pct f) etb f p = .ok out) (hne : out ≠ []) :
    ∃ plain derived, out = plain ++ derived ∧
      (∀ as st r q i, List.Forall₂ (fun x q => x ∈ q.2) as (init ++ [sv]) → st ∈ p.axis₁.stats →
        HasCell f r "thresh_i" (.num q i) → r ∈ comparedRows f (init ++ [sv]) parts fix fv p.indyVar key as i st →
          as ++ [i, st] ∈ plain.map AggOut.point) ∧
      (∀ pt ∈ plain.map AggOut.point, ∃ as i st, pt = as ++ [i, st] ∧
        List.Forall₂ (fun x q => x ∈ q.2) as (init ++ [sv]) ∧ st ∈ p.axis₁.stats ∧
          ∃ r ∈ f.rows, ∃ q, HasCell f r "thresh_i" (.num q i)) ∧
      ∀ o ∈ plain, ∀ as i st, o.point = as ++ [i, st] →
        ∀ rows, rows = comparedRows f (init ++ [sv]) parts fix fv p.indyVar key as i st →
          (rows = [] → o.value = .none) ∧ (rows ≠ [] → ReliabilityValue oy on (lower st) rows o.value) := by
  rcases pctRun_thresholds etb R key hkey hi L (tallyStat .pct f) with h0 | ⟨G, j, hg, hGe, hsub, hj, hrun, R'⟩
  · rw [h0] at h
    exact absurd (Except.ok.inj h).symm hne
  rw [hrun] at h
  obtain ⟨plain, derived, e, hpts, hval⟩ := run_scores (tallyStat .pct f) (ReliabilityValue oy on) etb out R' key hkey
    (fun s rows v hr hs hv => by
      obtain ⟨data, hsd, hv⟩ := tallyStat_inv hv
      exact reliability_value L hsd hr hs hv) h hne
  have hj' := Frame.idx?_eq_some.mp hj
  refine ⟨plain, derived, e, ?_, ?_, hval⟩
  · intro as st r q i ha hst hc hr
    refine (hpts _).mpr ⟨as, ha, i, ?_, st, hst, rfl⟩
    have hG := equalize_ok R key hkey
    rw [hg] at hG
    simp only [Except.ok.injEq, Frame.mk.injEq, true_and] at hG
    obtain ⟨as', a, rfl, h2, ha'⟩ := forall₂_snoc ha
    have heq := equalized_point R key as' a i st h2.length_eq ha' hst
    rw [← hG] at heq
    unfold comparedRows at hr
    have hm : r ∈ G := by
      have : r ∈ G.filter (fun r => @decide _ (Classical.propDecidable
          (RowOf f (pointRequest (init ++ [sv]) p.indyVar (as' ++ [a]) i st) (some fv) r))) := by
        rw [heq]
        exact hr
      exact (List.mem_filter.mp this).1
    refine mem_thresholdTexts.mpr ⟨r, hm, q, ?_⟩
    exact hasCell_unique hj hc
  · intro pt hpt
    obtain ⟨as, ha, i, hiv, st, hst, rfl⟩ := (hpts pt).mp hpt
    obtain ⟨r, hr, q, e⟩ := mem_thresholdTexts.mp hiv
    refine ⟨as, i, st, rfl, ha, hst, r, hsub r hr, q, j, hj'.1, hj'.2, ?_⟩
    unfold cellAt at e
    cases hc : r[j]? with
    | none => rw [hc] at e; simp at e
    | some v => rw [hc] at e; simpa using e

/-- C253: runs that ask for the number of forecasts or the observed frequency complete. -/
theorem C253_completes (etb : List PyNum → List PyNum → PyNum)
    (R : OneAxisRun f p init sv parts fix fv sts rest) (hi : p.indyVar = "thresh_i")
    (oy on : List Val → ℕ) (L : ReliabilityLines f oy on) (hd : p.axis₁.derived = [])
    (hs : ∀ s ∈ p.axis₁.stats, lower s ∈ ["pstd_ni", "pstd_calibration"]) :
    ∃ out, pctRun (tallyStat .pct f) etb f p = .ok out := by
  obtain ⟨key, hk⟩ := C01_case_key_exists R.input
  have hkey : ∀ r ∈ f.rows, IsCaseKey f p.indyVar true r (key r) := fun r hr => (hk r hr _).mpr rfl
  rcases pctRun_thresholds etb R key hkey hi L (tallyStat .pct f) with h0 | ⟨G, j, hg, hGe, hsub, hj, hrun, R'⟩
  · exact ⟨[], h0⟩
  rw [hrun]
  refine run_completes _ etb R' hd (fun s hsm rows hne hsub => ?_)
  obtain ⟨data, hsd⟩ := sortData_exists R.input rows
  have := hs s hsm
  simp only [List.mem_cons, List.not_mem_nil, or_false] at this
  rcases this with e | e <;> rw [e, tallyStat_of (l := .pct) hsd rfl rfl] <;> exact ⟨_, rfl⟩

/-! ### C254 -/

theorem mctc_table {f : Frame} {n : ℕ} {ec : List Val → ℚ} {cats : List CatColumn} (L : MctcLines f n ec cats)
    {rows : List (List Val)} (hne : rows ≠ []) (hsub : ∀ r ∈ rows, r ∈ f.rows) {e : ℚ} (he : ∀ r ∈ rows, ec r = e) :
    MctcData (numericTable f.cols rows) n e (cats.map fun c => ⟨c.fcst, c.obs, rows.map c.count⟩) where
  rows_ne := by simpa [numericTable] using hne
  n_cat := by
    have := completeColumn_numeric (g := fun _ => (n : ℚ)) hne (fun r hr => L.n_cat r (hsub r hr))
    cases rows with
    | nil => exact absurd rfl hne
    | cons r rest => exact ⟨_, this⟩
  ec_value := by
    have := completeColumn_numeric (g := fun _ => e) hne (fun r hr => he r hr ▸ L.ec_value r (hsub r hr))
    cases rows with
    | nil => exact absurd rfl hne
    | cons r rest => exact ⟨_, this⟩
  length := by rw [List.length_map]; exact L.length
  distinct := by
    have := L.distinct
    rwa [List.map_map]
  bounds := by
    intro c hc
    obtain ⟨d, hd, rfl⟩ := List.mem_map.mp hc
    exact L.bounds d hd
  i_value := by
    intro k c hc
    rw [List.getElem?_map, Option.map_eq_some_iff] at hc
    obtain ⟨d, hd, rfl⟩ := hc
    have := completeColumn_numeric (g := fun _ => (d.fcst : ℚ) + 1) hne (fun r hr => L.i_value k d hd r (hsub r hr))
    cases rows with
    | nil => exact absurd rfl hne
    | cons r rest => exact ⟨_, this⟩
  j_value := by
    intro k c hc
    rw [List.getElem?_map, Option.map_eq_some_iff] at hc
    obtain ⟨d, hd, rfl⟩ := hc
    have := completeColumn_numeric (g := fun _ => (d.obs : ℚ) + 1) hne (fun r hr => L.j_value k d hd r (hsub r hr))
    cases rows with
    | nil => exact absurd rfl hne
    | cons r rest => exact ⟨_, this⟩
  fi_oj := by
    intro k c hc
    rw [List.getElem?_map, Option.map_eq_some_iff] at hc
    obtain ⟨d, hd, rfl⟩ := hc
    exact completeColumn_numeric hne (fun r hr => L.fi_oj k d hd r (hsub r hr))

/-- The rows of a point pass the check of the expected-correct values exactly when they share one. -/
theorem mctc_check {f : Frame} {n : ℕ} {ec : List Val → ℚ} {cats : List CatColumn} (L : MctcLines f n ec cats)
    {rows : List (List Val)} (hne : rows ≠ []) (hsub : ∀ r ∈ rows, r ∈ f.rows) :
    ecCheck (numericTable f.cols rows) = .ok () ↔ ∃ e, ∀ r ∈ rows, ec r = e := by
  have hc : columnData (numericTable f.cols rows) "ec_value" = some ((rows.map ec).map some) :=
    columnData_of_isColumn (completeColumn_numeric hne (fun r hr => L.ec_value r (hsub r hr)))
  cases rows with
  | nil => exact absurd rfl hne
  | cons r rest =>
    rw [ecCheck_ok_iff _ _ _ hc]
    refine exists_congr fun e => ?_
    simp

theorem mctc_value {f : Frame} {n : ℕ} {ec : List Val → ℚ} {cats : List CatColumn} (L : MctcLines f n ec cats)
    {rows data : List (List Val)} (hs : data.Perm rows) (hne : rows ≠ []) (hsub : ∀ r ∈ rows, r ∈ f.rows)
    {s : String} {v : PyNum} (h : tallyPrepared .mctc f s data = .ok v) : SkillEc cats ec s rows v := by
  rintro rfl
  have hperm := hs
  have hne' := perm_ne hs hne
  have hsub' : ∀ r ∈ data, r ∈ f.rows := fun r hr => hsub r (hperm.mem_iff.mp hr)
  have hck : ecCheck (numericTable f.cols data) = .ok () := by
    unfold tallyPrepared prepareCounts at h
    simp only [bind, Except.bind] at h
    cases hc : ecCheck (numericTable f.cols data) with
    | error e => rw [hc] at h; cases h
    | ok u => rfl
  obtain ⟨e, he⟩ := (mctc_check L hne' hsub').mp hck
  refine ⟨e, fun r hr => he r (hperm.mem_iff.mpr hr), ?_⟩
  rw [tallyPrepared_of (l := .mctc) rfl (by unfold prepareCounts; rw [hck]; rfl),
    C60_hss_ec _ n e _ (mctc_table L hne' hsub' he)] at h
  have hA : grandTotal (cats.map fun c => (⟨c.fcst, c.obs, data.map c.count⟩ : CatCell)) = allForecasts cats rows := by
    unfold grandTotal allForecasts
    rw [List.map_map]
    exact congrArg List.sum (List.map_congr_left fun c _ => (hperm.map c.count).sum_eq)
  have hC : correctTotal (cats.map fun c => (⟨c.fcst, c.obs, data.map c.count⟩ : CatCell)) =
      correctForecasts cats rows := by
    unfold correctTotal correctForecasts
    rw [List.filter_map, List.map_map]
    exact congrArg List.sum (List.map_congr_left fun c _ => (hperm.map c.count).sum_eq)
  rw [hA, hC] at h
  have h' := (Except.ok.inj h).symm
  constructor
  · intro h0
    rw [h', if_pos h0]
    rfl
  · intro h0
    rw [h', if_neg h0]
    rfl

/-- C254: in a run on MCTC lines with event equalization, every skill score in the table is the score of the counts of all
common cases of its point, added up; the lines of a point have the same expected-correct value. -/
theorem C254_mctc (etb : List PyNum → List PyNum → PyNum) (out : List AggOut)
    (R : OneAxisRun f p init sv parts fix fv sts rest) (key : List Val → String)
    (hkey : ∀ r ∈ f.rows, IsCaseKey f p.indyVar true r (key r)) (n : ℕ) (ec : List Val → ℚ) (cats : List CatColumn)
    (L : MctcLines f n ec cats) (h : aggRun (tallyStat .mctc f) etb f p = .ok out) (hne : out ≠ []) :
    ∃ plain derived, out = plain ++ derived ∧
      (∀ pt, pt ∈ plain.map AggOut.point ↔
        ∃ as, List.Forall₂ (fun x q => x ∈ q.2) as (init ++ [sv]) ∧ ∃ i ∈ p.indyVals, ∃ st ∈ p.axis₁.stats,
          pt = as ++ [i, st]) ∧
      ∀ o ∈ plain, ∀ as i st, o.point = as ++ [i, st] →
        ∀ rows, rows = comparedRows f (init ++ [sv]) parts fix fv p.indyVar key as i st →
          (rows = [] → o.value = .none) ∧ (rows ≠ [] → SkillEc cats ec (lower st) rows o.value) :=
  run_scores (tallyStat .mctc f) (SkillEc cats ec) etb out R key hkey
    (fun s rows v hr hs hv => by
      obtain ⟨data, hsd, hv⟩ := tallyStat_inv hv
      exact mctc_value L hsd hr hs hv) h hne

/-- C254: such a run for the skill score completes when all lines have the same expected-correct value. -/
theorem C254_mctc_completes (etb : List PyNum → List PyNum → PyNum)
    (R : OneAxisRun f p init sv parts fix fv sts rest) (n : ℕ) (ec : List Val → ℚ) (cats : List CatColumn)
    (L : MctcLines f n ec cats) (hd : p.axis₁.derived = []) (e : ℚ) (he : ∀ r ∈ f.rows, ec r = e)
    (hs : ∀ s ∈ p.axis₁.stats, lower s = "mcts_hss_ec") : ∃ out, aggRun (tallyStat .mctc f) etb f p = .ok out := by
  refine run_completes _ etb R hd (fun s hsm rows hne hsub => ?_)
  obtain ⟨data, hsd⟩ := sortData_exists R.input rows
  obtain ⟨hperm, -⟩ := sortData_spec hsd
  have hsub' : ∀ r ∈ data, r ∈ f.rows := fun r hr => hsub r (hperm.mem_iff.mp hr)
  have hne' := sorted_ne hsd hne
  have he' : ∀ r ∈ data, ec r = e := fun r hr => he r (hsub' r hr)
  have hck := (mctc_check L hne' hsub').mpr ⟨e, he'⟩
  rw [hs s hsm, tallyStat_of (l := .mctc) hsd rfl (by unfold prepareCounts; rw [hck]; rfl),
    C60_hss_ec _ n e _ (mctc_table L hne' hsub' he')]
  exact ⟨_, rfl⟩

theorem nbr_value {f : Frame} {counts : List Val → Ctc} (L : CtcLines f counts) {rows data : List (List Val)}
    (hs : data.Perm rows) (hne : rows ≠ []) (hsub : ∀ r ∈ rows, r ∈ f.rows) {s : String} {v : PyNum}
    (h : tallyPrepared .nbrCtc f s data = .ok v) :
    ∀ s', s = "nbr_" ++ s' → CountScore s' (pooledCounts (rows.map counts)) v := by
  rintro s' rfl
  have hperm := hs
  have D := ctc_table L (perm_ne hs hne) (fun r hr => hsub r (hperm.mem_iff.mp hr))
  have hsum : ∀ g : Ctc → ℚ, (data.map fun r => g (counts r)).sum = ((rows.map counts).map g).sum := by
    intro g
    rw [List.map_map]
    exact (hperm.map (fun r => g (counts r))).sum_eq
  obtain ⟨r1, r2, r3, r4, r5, r6, r7, r8, r9, -⟩ := C183_nbr_scores D
  obtain ⟨-, r11⟩ := C183_nbr_skill D
  simp only [hsum Ctc.hits, hsum Ctc.falseAlarms, hsum Ctc.misses, hsum Ctc.correctNegatives, hsum Ctc.total]
    at r1 r2 r3 r4 r5 r6 r7 r8 r9 r11
  have fin : ∀ {stat : String} {x : Option ℚ}, "nbr_" ++ s' = stat → countFunctions.lookup stat = some (nbrCtc stat) →
      nbrCtc stat (numericTable f.cols data) = .ok x → v = toPyNum x := by
    rintro stat x rfl hl hc
    rw [tallyPrepared_of (l := .nbrCtc) hl rfl, hc] at h
    exact (Except.ok.inj h).symm
  unfold pooledCounts
  refine ⟨?_, ?_, ?_, ?_, ?_, ?_, ?_, ?_, ?_, ?_, ?_, ?_⟩ <;> rintro rfl
  · rw [fin rfl rfl r1]; exact ratioIs_rounded _
  · rw [fin rfl rfl r2]; exact ratioIs_rounded _
  · rw [fin rfl rfl r3]; exact ratioIs_rounded _
  · rw [fin rfl rfl r4]; exact ratioIs_rounded _
  · rw [fin rfl rfl r5]; exact ratioIs_rounded _
  · rw [fin rfl rfl r6]; exact ratioIs_rounded _
  · rw [fin rfl rfl r7]; exact ratioIs_rounded _
  · rw [fin rfl rfl r8]; exact ratioIs_rounded _
  · rw [fin rfl rfl r9]; exact ratioIs_rounded _
  · exfalso
    have hl : countFunctions.lookup ("nbr_" ++ "orss") = none := rfl
    unfold tallyPrepared at h
    have hp : prepareCounts .nbrCtc (numericTable f.cols data) = .ok (numericTable f.cols data) := rfl
    simp only [bind, Except.bind, hp, hl] at h
    cases h
  · intro h0; rw [fin rfl rfl (r11 h0).1]; exact ratioIs_rounded _
  · intro h0; rw [fin rfl rfl (r11 h0).2]; exact ratioIs_rounded _

/-- C254: in a run on NBR_CTC lines with event equalization, every statistic nbr_s in the table is the score s of the
contingency table of all common cases of its point, pooled. -/
theorem C254_nbr (etb : List PyNum → List PyNum → PyNum) (out : List AggOut)
    (R : OneAxisRun f p init sv parts fix fv sts rest) (key : List Val → String)
    (hkey : ∀ r ∈ f.rows, IsCaseKey f p.indyVar true r (key r)) (counts : List Val → Ctc)
    (L : CtcLines f counts) (h : aggRun (tallyStat .nbrCtc f) etb f p = .ok out) (hne : out ≠ []) :
    ∃ plain derived, out = plain ++ derived ∧
      (∀ pt, pt ∈ plain.map AggOut.point ↔
        ∃ as, List.Forall₂ (fun x q => x ∈ q.2) as (init ++ [sv]) ∧ ∃ i ∈ p.indyVals, ∃ st ∈ p.axis₁.stats,
          pt = as ++ [i, st]) ∧
      ∀ o ∈ plain, ∀ as i st, o.point = as ++ [i, st] →
        ∀ rows, rows = comparedRows f (init ++ [sv]) parts fix fv p.indyVar key as i st →
          (rows = [] → o.value = .none) ∧
          (rows ≠ [] → ∀ s, lower st = "nbr_" ++ s → CountScore s (pooledCounts (rows.map counts)) o.value) :=
  run_scores (tallyStat .nbrCtc f) (fun st rows v => ∀ s, st = "nbr_" ++ s → CountScore s (pooledCounts (rows.map counts)) v)
    etb out R key hkey
    (fun s rows v hr hs hv => by
      obtain ⟨data, hsd, hv⟩ := tallyStat_inv hv
      exact nbr_value L hsd hr hs hv) h hne

/-- C254: such a run completes for the ratio scores. -/
theorem C254_nbr_completes (etb : List PyNum → List PyNum → PyNum)
    (R : OneAxisRun f p init sv parts fix fv sts rest) (counts : List Val → Ctc) (L : CtcLines f counts)
    (hd : p.axis₁.derived = [])
    (hs : ∀ s ∈ p.axis₁.stats, lower s ∈ ["nbr_baser", "nbr_acc", "nbr_fbias", "nbr_fmean", "nbr_pody", "nbr_pofd",
      "nbr_podn", "nbr_far", "nbr_csi", "nbr_gss", "nbr_hss"]) : ∃ out, aggRun (tallyStat .nbrCtc f) etb f p = .ok out := by
  refine run_completes _ etb R hd (fun s hsm rows hne hsub => ?_)
  obtain ⟨data, hsd⟩ := sortData_exists R.input rows
  obtain ⟨hperm, -⟩ := sortData_spec hsd
  have D := ctc_table L (sorted_ne hsd hne) (fun r hr => hsub r (hperm.mem_iff.mp hr))
  obtain ⟨r1, r2, r3, r4, r5, r6, r7, r8, r9, -⟩ := C183_nbr_scores D
  obtain ⟨r10, r11⟩ := C183_nbr_skill D
  have := hs s hsm
  simp only [List.mem_cons, List.not_mem_nil, or_false] at this
  rcases this with e | e | e | e | e | e | e | e | e | e | e <;> rw [e, tallyStat_of (l := .nbrCtc) hsd rfl rfl]
  · rw [r1]; exact ⟨_, rfl⟩
  · rw [r2]; exact ⟨_, rfl⟩
  · rw [r3]; exact ⟨_, rfl⟩
  · rw [r4]; exact ⟨_, rfl⟩
  · rw [r5]; exact ⟨_, rfl⟩
  · rw [r6]; exact ⟨_, rfl⟩
  · rw [r7]; exact ⟨_, rfl⟩
  · rw [r8]; exact ⟨_, rfl⟩
  · rw [r9]; exact ⟨_, rfl⟩
  · by_cases h0 : (data.map fun r => (counts r).total).sum = 0
    · rw [(r10 h0).1]; exact ⟨_, rfl⟩
    · rw [(r11 h0).1]; exact ⟨_, rfl⟩
  · by_cases h0 : (data.map fun r => (counts r).total).sum = 0
    · rw [(r10 h0).2]; exact ⟨_, rfl⟩
    · rw [(r11 h0).2]; exact ⟨_, rfl⟩

/-! ### Examples -/

/-- PCT lines with the bins 0.25 and 0.75. -/
def exPct (stat : String) : Frame :=
  exLines ["thresh_i_1", "oy_i_1", "on_i_1", "thresh_i_2", "oy_i_2", "on_i_2"] stat
    [("t1", "A", [1/4, 1, 3, 3/4, 2, 2]), ("t2", "A", [1/4, 9, 9, 3/4, 9, 9]), ("t1", "B", [1/4, 2, 2, 3/4, 1, 3]),
     ("t3", "B", [1/4, 0, 4, 3/4, 4, 0]), ("t3", "A", [1/4, 0, 4, 3/4, 4, 0])]

def exPctCols : List String :=
  ["fcst_valid_beg", "fcst_lead", "model", "fcst_var", "stat_name", "thresh_i_1", "oy_i_1", "on_i_1", "thresh_i_2",
    "oy_i_2", "on_i_2"]

def exPctBins : List BinColumns :=
  [⟨"thresh_i_1", "oy_i_1", "on_i_1", 1/4, exNum 6, exNum 7⟩, ⟨"thresh_i_2", "oy_i_2", "on_i_2", 3/4, exNum 9, exNum 10⟩]

theorem exPct_before {stat : String} (i : ℕ) (c : String) (h : ∀ j < i, exPctCols[j]? ≠ some c) :
    ∀ j < i, (exPct stat).cols[j]? ≠ some c := h

theorem exPct_lines (stat : String) : PctLines (exPct stat) exPctBins where
  oy_cols := by
    change exPctCols.filter (fun c => strIn "oy_i" c) = exPctBins.map BinColumns.oyName
    decide +kernel
  on_cols := by
    change exPctCols.filter (fun c => !strIn "oy_i" c && strIn "on_i" c) = exPctBins.map BinColumns.onName
    decide +kernel
  th_cols := by
    change exPctCols.filter (fun c => !strIn "oy_i" c && !strIn "on_i" c && strIn "thresh_i" c) =
      exPctBins.map BinColumns.thName
    decide +kernel
  th := by
    intro b hb
    simp only [exPctBins, List.mem_cons, List.not_mem_nil, or_false] at hb
    rcases hb with rfl | rfl
    · exact exLines_number (g := fun _ => 1/4) 5 rfl (exPct_before 5 "thresh_i_1" (by decide)) (by simp [exLines, cellAt, numberOf])
    · exact exLines_number (g := fun _ => 3/4) 8 rfl (exPct_before 8 "thresh_i_2" (by decide)) (by simp [exLines, cellAt, numberOf])
  oy := by
    intro b hb
    simp only [exPctBins, List.mem_cons, List.not_mem_nil, or_false] at hb
    rcases hb with rfl | rfl
    · exact exLines_number 6 rfl (exPct_before 6 "oy_i_1" (by decide)) (by simp [exLines, exNum, cellAt, numberOf])
    · exact exLines_number 9 rfl (exPct_before 9 "oy_i_2" (by decide)) (by simp [exLines, exNum, cellAt, numberOf])
  on := by
    intro b hb
    simp only [exPctBins, List.mem_cons, List.not_mem_nil, or_false] at hb
    rcases hb with rfl | rfl
    · exact exLines_number 7 rfl (exPct_before 7 "on_i_1" (by decide)) (by simp [exLines, exNum, cellAt, numberOf])
    · exact exLines_number 10 rfl (exPct_before 10 "on_i_2" (by decide)) (by simp [exLines, exNum, cellAt, numberOf])
  oy_nonneg := by
    intro b hb
    simp only [exPctBins, List.mem_cons, List.not_mem_nil, or_false] at hb
    rcases hb with rfl | rfl <;> simp [exPct, exLines, exNum, cellAt, numberOf]
  on_nonneg := by
    intro b hb
    simp only [exPctBins, List.mem_cons, List.not_mem_nil, or_false] at hb
    rcases hb with rfl | rfl <;> simp [exPct, exLines, exNum, cellAt, numberOf]

theorem exPct_input (stat : String) (hs : ':' ∉ stat.toList ∧ ';' ∉ stat.toList ∧ PlainText stat)
    (hd : isDerivedPoint (some [stat]) = false) :
    OneAxisRun (exPct stat) (exLinesParams stat) [] ("model", ["A", "B"]) (fun v => [v]) [] "TMP" [stat] [] :=
  exLines_input (by unfold FrameWF exLines; simp) (by decide) hs hd

/-- 7 events of 16 for both models. -/
theorem exPct_result : pctRun (tallyStat .pct (exPct "PSTD_BASER")) (fun _ _ => .none) (exPct "PSTD_BASER")
    (exLinesParams "PSTD_BASER") =
    .ok [⟨["A", "6", "PSTD_BASER"], some "TMP", .num (7/16), 2⟩, ⟨["B", "6", "PSTD_BASER"], some "TMP", .num (7/16), 2⟩] := by
  decide +kernel

example : ∃ plain derived : List AggOut,
    [⟨["A", "6", "PSTD_BASER"], some "TMP", .num (7/16), 2⟩, ⟨["B", "6", "PSTD_BASER"], some "TMP", .num (7/16), 2⟩] =
      plain ++ derived := by
  obtain ⟨plain, derived, h, -⟩ := C252_scores (fun _ _ => .none) _
    (exPct_input _ ⟨by decide, by decide, plainText_of (by decide) (by decide) (by decide)⟩ (by decide +kernel)) exRunKey
    (exLines_key _ _ _) (by decide) _ (exPct_lines _) exPct_result (by simp)
  exact ⟨plain, derived, h⟩

example : ∃ out, pctRun (tallyStat .pct (exPct "PSTD_ROC_AUC")) (fun _ _ => .none) (exPct "PSTD_ROC_AUC")
    (exLinesParams "PSTD_ROC_AUC") = .ok out := by
  refine C252_completes _ (exPct_input _ ⟨by decide, by decide, plainText_of (by decide) (by decide) (by decide)⟩
    (by decide +kernel)) (by decide) _ (exPct_lines _) rfl ?_
  intro s hs
  obtain rfl : s = "PSTD_ROC_AUC" := by simpa [exLinesParams] using hs
  refine Or.inr ⟨by decide +kernel, ?_⟩
  simp [exPct, exLines, exPctBins, exNum, cellAt, numberOf]

/-- A run for the Brier score fails. -/
example : pctRun (tallyStat .pct (exPct "PSTD_BRIER")) (fun _ _ => .none) (exPct "PSTD_BRIER")
    (exLinesParams "PSTD_BRIER") = .error .attributeError := by
  decide +kernel

/-- PCT lines of single bins; the bin 0.75 is missing at the time t2. -/
def exRel (stat : String) : Frame :=
  { cols := ["fcst_valid_beg", "fcst_lead", "model", "fcst_var", "stat_name", "thresh_i", "oy_i", "on_i"]
    rows := ([("t1", "A", 3/4, "0.75", 2, 2), ("t1", "A", 1/4, "0.25", 1, 3), ("t2", "A", 1/4, "0.25", 0, 4),
      ("t2", "A", 1/2, "0.5", 5, 5), ("t1", "B", 1/4, "0.25", 1, 1), ("t1", "B", 3/4, "0.75", 3, 1),
      ("t2", "B", 1/4, "0.25", 1, 1)] : List (String × String × ℚ × String × ℚ × ℚ)).map (fun q =>
        [.str q.1, .num 6 "6", .str q.2.1, .str "TMP", .str stat, .num q.2.2.1 q.2.2.2.1, .num q.2.2.2.2.1 "",
          .num q.2.2.2.2.2 ""]) }

/-- No threshold is asked for. -/
def exRelParams (stat : String) : AggParams :=
  { exLinesParams stat with indyVar := "thresh_i", indyVals := ["all"] }

/-- Events among forecasts: 1 of 8 and 2 of 4 at 0.25 (models A and B), 2 of 4 and 3 of 4 at 0.75; the threshold 0.5 is not
common to both models. -/
theorem exRel_result : pctRun (tallyStat .pct (exRel "PSTD_CALIBRATION")) (fun _ _ => .none) (exRel "PSTD_CALIBRATION")
    (exRelParams "PSTD_CALIBRATION") =
    .ok [⟨["A", "0.25", "PSTD_CALIBRATION"], some "TMP", .num (1/8), 2⟩,
      ⟨["A", "0.75", "PSTD_CALIBRATION"], some "TMP", .num (1/2), 1⟩,
      ⟨["B", "0.25", "PSTD_CALIBRATION"], some "TMP", .num (1/2), 2⟩,
      ⟨["B", "0.75", "PSTD_CALIBRATION"], some "TMP", .num (3/4), 1⟩] := by
  decide +kernel

def exRelCols : List String := ["fcst_valid_beg", "fcst_lead", "model", "fcst_var", "stat_name", "thresh_i", "oy_i", "on_i"]

theorem exRel_lines (stat : String) : ReliabilityLines (exRel stat) (fun r => (exNum 6 r).num.toNat)
    (fun r => (exNum 7 r).num.toNat) where
  th := by
    have hd : IsDecimal "0.25" (1/4) ∧ IsDecimal "0.5" (1/2) ∧ IsDecimal "0.75" (3/4) := by
      refine ⟨⟨['0'], ['2', '5'], ?_, by simp, Or.inl ⟨rfl, ?_⟩⟩, ⟨['0'], ['5'], ?_, by simp, Or.inl ⟨rfl, ?_⟩⟩, ⟨['0'], ['7', '5'], ?_, by simp, Or.inl ⟨rfl, ?_⟩⟩⟩ <;> decide +kernel
    have hc : ∀ j < 5, (exRel stat).cols[j]? ≠ some "thresh_i" := by
      change ∀ j < 5, exRelCols[j]? ≠ some "thresh_i"
      decide
    intro r hr
    simp only [exRel, List.map_cons, List.map_nil, List.mem_cons, List.not_mem_nil, or_false] at hr
    rcases hr with rfl | rfl | rfl | rfl | rfl | rfl | rfl
    · exact ⟨_, _, ⟨5, rfl, hc, rfl⟩, hd.2.2⟩
    · exact ⟨_, _, ⟨5, rfl, hc, rfl⟩, hd.1⟩
    · exact ⟨_, _, ⟨5, rfl, hc, rfl⟩, hd.1⟩
    · exact ⟨_, _, ⟨5, rfl, hc, rfl⟩, hd.2.1⟩
    · exact ⟨_, _, ⟨5, rfl, hc, rfl⟩, hd.1⟩
    · exact ⟨_, _, ⟨5, rfl, hc, rfl⟩, hd.2.2⟩
    · exact ⟨_, _, ⟨5, rfl, hc, rfl⟩, hd.1⟩
  oy := by
    have hc : ∀ j < 6, (exRel stat).cols[j]? ≠ some "oy_i" := by
      change ∀ j < 6, exRelCols[j]? ≠ some "oy_i"
      decide
    intro r hr
    simp only [exRel, List.map_cons, List.map_nil, List.mem_cons, List.not_mem_nil, or_false] at hr
    rcases hr with rfl | rfl | rfl | rfl | rfl | rfl | rfl <;> exact ⟨"", 6, rfl, hc, by simp [exNum, cellAt, numberOf]⟩
  on := by
    have hc : ∀ j < 7, (exRel stat).cols[j]? ≠ some "on_i" := by
      change ∀ j < 7, exRelCols[j]? ≠ some "on_i"
      decide
    intro r hr
    simp only [exRel, List.map_cons, List.map_nil, List.mem_cons, List.not_mem_nil, or_false] at hr
    rcases hr with rfl | rfl | rfl | rfl | rfl | rfl | rfl <;> exact ⟨"", 7, rfl, hc, by simp [exNum, cellAt, numberOf]⟩

theorem exRel_input : OneAxisRun (exRel "PSTD_CALIBRATION") (exRelParams "PSTD_CALIBRATION") [] ("model", ["A", "B"])
    (fun v => [v]) [] "TMP" ["PSTD_CALIBRATION"] [] where
  input := ⟨by unfold FrameWF exRel; simp, by simp [exRel], by simp [exRel], by simp [exRel], by
    intro _ _
    change "thresh_i" ∈ exRelCols
    decide⟩
  forecast := by simp [exRel]
  statistic := by simp [exRel]
  on := rfl
  series := rfl
  second := rfl
  fixed := rfl
  names := by decide
  columns := by
    intro v hv
    obtain rfl : v = ("model", ["A", "B"]) := by simpa using hv
    exact ⟨by simp [exRel], by decide, by simp⟩
  groups := exRun_input.groups
  texts := exRun_input.texts
  fcst := rfl
  pairs := by simp [exRelParams, exLinesParams]
  stats := by
    intro st hst
    obtain rfl : st = "PSTD_CALIBRATION" := by simpa [exRelParams, exLinesParams] using hst
    exact ⟨by simp, by decide, by decide, plainText_of (by decide) (by decide) (by decide)⟩
  indy := ⟨by simp [exRelParams], by
    intro i hi
    obtain rfl : i = "all" := by simpa [exRelParams] using hi
    exact ⟨_, plain_standsFor (by decide) (by decide)⟩⟩
  somestat := by simp
  distinct := by decide
  plain := by decide +kernel

/-- Valid time, lead and threshold. -/
def exRelKey (r : List Val) : String := (cellAt r 0).text ++ " " ++ (cellAt r 1).text ++ " " ++ (cellAt r 5).text

theorem exRel_key (stat : String) : ∀ r ∈ (exRel stat).rows, IsCaseKey (exRel stat) "thresh_i" true r (exRelKey r) := by
  intro r hr
  have c0 : ∀ j < 1, (exRel stat).cols[j]? ≠ some "fcst_lead" := by
    change ∀ j < 1, exRelCols[j]? ≠ some "fcst_lead"
    decide
  have c1 : ∀ j < 5, (exRel stat).cols[j]? ≠ some "thresh_i" := by
    change ∀ j < 5, exRelCols[j]? ≠ some "thresh_i"
    decide
  obtain ⟨q, hq, rfl⟩ := List.mem_map.mp hr
  refine ⟨.str q.1, .num 6 "6", ⟨0, rfl, by simp, rfl⟩, ⟨1, rfl, c0, rfl⟩, ?_⟩
  rw [if_pos (by decide)]
  exact ⟨_, ⟨5, rfl, c1, rfl⟩, rfl⟩

example : ∃ plain derived : List AggOut,
    [⟨["A", "0.25", "PSTD_CALIBRATION"], some "TMP", .num (1/8), 2⟩,
      ⟨["A", "0.75", "PSTD_CALIBRATION"], some "TMP", .num (1/2), 1⟩,
      ⟨["B", "0.25", "PSTD_CALIBRATION"], some "TMP", .num (1/2), 2⟩,
      ⟨["B", "0.75", "PSTD_CALIBRATION"], some "TMP", .num (3/4), 1⟩] = plain ++ derived := by
  obtain ⟨plain, derived, h, -⟩ := C253_curve (fun _ _ => .none) _ exRel_input exRelKey (exRel_key _) rfl _ _
    (exRel_lines _) exRel_result (by simp)
  exact ⟨plain, derived, h⟩

/-- Whatever the difference statistic, the run completes. -/
example (etb : List PyNum → List PyNum → PyNum) : ∃ out, pctRun (tallyStat .pct (exRel "PSTD_CALIBRATION")) etb
    (exRel "PSTD_CALIBRATION") (exRelParams "PSTD_CALIBRATION") = .ok out :=
  C253_completes etb exRel_input rfl _ _ (exRel_lines _) rfl (by
    intro s hs
    obtain rfl : s = "PSTD_CALIBRATION" := by simpa [exRelParams, exLinesParams] using hs
    decide +kernel)

/-- MCTC lines with two categories. -/
def exMctc (ec : ℚ) : Frame :=
  exLines ["n_cat", "ec_value", "i_value_0", "j_value_0", "fi_oj_0", "i_value_1", "j_value_1", "fi_oj_1", "i_value_2",
      "j_value_2", "fi_oj_2", "i_value_3", "j_value_3", "fi_oj_3"] "MCTS_HSS_EC"
    [("t1", "A", [2, 1/2, 1, 1, 5, 1, 2, 1, 2, 1, 2, 2, 2, 4]), ("t2", "A", [2, 1/2, 1, 1, 9, 1, 2, 0, 2, 1, 0, 2, 2, 9]),
     ("t1", "B", [2, 1/2, 1, 1, 6, 1, 2, 0, 2, 1, 1, 2, 2, 5]), ("t3", "B", [2, 1/2, 1, 1, 1, 1, 2, 3, 2, 1, 1, 2, 2, 3]),
     ("t3", "A", [2, ec, 1, 1, 3, 1, 2, 1, 2, 1, 1, 2, 2, 3])]

def exMctcCats : List CatColumn := [⟨0, 0, exNum 9⟩, ⟨0, 1, exNum 12⟩, ⟨1, 0, exNum 15⟩, ⟨1, 1, exNum 18⟩]

theorem exMctc_lines : MctcLines (exMctc (1/2)) 2 (exNum 6) exMctcCats where
  n_cat := exLines_number (g := fun _ => ((2 : ℕ) : ℚ)) 5 rfl (by decide +kernel) (by decide +kernel)
  ec_value := exLines_number 6 rfl (by decide +kernel) (by decide +kernel)
  length := rfl
  distinct := by decide
  bounds := by decide
  i_value := by
    intro k c hc
    have hk : k < 4 := by
      by_contra h
      rw [List.getElem?_eq_none (by simp [exMctcCats]; omega)] at hc
      cases hc
    interval_cases k
    · obtain rfl := Option.some.inj hc
      exact exLines_number (g := fun _ => ((0 : ℕ) : ℚ) + 1) 7 rfl (by decide +kernel) (by decide +kernel)
    · obtain rfl := Option.some.inj hc
      exact exLines_number (g := fun _ => ((0 : ℕ) : ℚ) + 1) 10 rfl (by decide +kernel) (by decide +kernel)
    · obtain rfl := Option.some.inj hc
      exact exLines_number (g := fun _ => ((1 : ℕ) : ℚ) + 1) 13 rfl (by decide +kernel) (by decide +kernel)
    · obtain rfl := Option.some.inj hc
      exact exLines_number (g := fun _ => ((1 : ℕ) : ℚ) + 1) 16 rfl (by decide +kernel) (by decide +kernel)
  j_value := by
    intro k c hc
    have hk : k < 4 := by
      by_contra h
      rw [List.getElem?_eq_none (by simp [exMctcCats]; omega)] at hc
      cases hc
    interval_cases k
    · obtain rfl := Option.some.inj hc
      exact exLines_number (g := fun _ => ((0 : ℕ) : ℚ) + 1) 8 rfl (by decide +kernel) (by decide +kernel)
    · obtain rfl := Option.some.inj hc
      exact exLines_number (g := fun _ => ((1 : ℕ) : ℚ) + 1) 11 rfl (by decide +kernel) (by decide +kernel)
    · obtain rfl := Option.some.inj hc
      exact exLines_number (g := fun _ => ((0 : ℕ) : ℚ) + 1) 14 rfl (by decide +kernel) (by decide +kernel)
    · obtain rfl := Option.some.inj hc
      exact exLines_number (g := fun _ => ((1 : ℕ) : ℚ) + 1) 17 rfl (by decide +kernel) (by decide +kernel)
  fi_oj := by
    intro k c hc
    have hk : k < 4 := by
      by_contra h
      rw [List.getElem?_eq_none (by simp [exMctcCats]; omega)] at hc
      cases hc
    interval_cases k
    · obtain rfl := Option.some.inj hc
      exact exLines_number 9 rfl (by decide +kernel) (by decide +kernel)
    · obtain rfl := Option.some.inj hc
      exact exLines_number 12 rfl (by decide +kernel) (by decide +kernel)
    · obtain rfl := Option.some.inj hc
      exact exLines_number 15 rfl (by decide +kernel) (by decide +kernel)
    · obtain rfl := Option.some.inj hc
      exact exLines_number 18 rfl (by decide +kernel) (by decide +kernel)

theorem exMctc_input : OneAxisRun (exMctc (1/2)) (exLinesParams "MCTS_HSS_EC") [] ("model", ["A", "B"]) (fun v => [v]) []
    "TMP" ["MCTS_HSS_EC"] [] :=
  exLines_input (by unfold FrameWF; decide +kernel) (by decide)
    ⟨by decide, by decide, plainText_of (by decide) (by decide) (by decide)⟩ (by decide +kernel)

/-- 15 of 20 correct for both models, 10 expected. -/
theorem exMctc_result : aggRun (tallyStat .mctc (exMctc (1/2))) (fun _ _ => .none) (exMctc (1/2))
    (exLinesParams "MCTS_HSS_EC") =
    .ok [⟨["A", "6", "MCTS_HSS_EC"], some "TMP", .num (1/2), 2⟩, ⟨["B", "6", "MCTS_HSS_EC"], some "TMP", .num (1/2), 2⟩] := by
  decide +kernel

/-- With another expected-correct value in one of the lines the run fails. -/
theorem exMctc_mixed : aggRun (tallyStat .mctc (exMctc (1/3))) (fun _ _ => .none) (exMctc (1/3))
    (exLinesParams "MCTS_HSS_EC") = .error .valueError := by
  decide +kernel

example : (∃ plain derived : List AggOut,
    [⟨["A", "6", "MCTS_HSS_EC"], some "TMP", .num (1/2), 2⟩, ⟨["B", "6", "MCTS_HSS_EC"], some "TMP", .num (1/2), 2⟩] =
      plain ++ derived) ∧
    ∀ etb, ∃ out, aggRun (tallyStat .mctc (exMctc (1/2))) etb (exMctc (1/2)) (exLinesParams "MCTS_HSS_EC") = .ok out := by
  constructor
  · obtain ⟨plain, derived, h, -⟩ := C254_mctc (fun _ _ => .none) _ exMctc_input exRunKey (exLines_key _ _ _) _ _ _
      exMctc_lines exMctc_result (by simp)
    exact ⟨plain, derived, h⟩
  · intro etb
    refine C254_mctc_completes etb exMctc_input _ _ _ exMctc_lines rfl (1/2) (by decide +kernel) ?_
    intro s hs
    obtain rfl : s = "MCTS_HSS_EC" := by simpa [exLinesParams] using hs
    decide +kernel

/-- NBR_CTC lines. -/
def exNbrCtc : Frame := exLines ["total", "fy_oy", "fy_on", "fn_oy", "fn_on"] "NBR_CSI"
  [("t1", "A", [10, 3, 1, 2, 4]), ("t2", "A", [10, 9, 0, 0, 1]), ("t1", "B", [10, 1, 1, 4, 4]), ("t3", "B", [10, 0, 2, 2, 6]),
   ("t3", "A", [10, 1, 1, 0, 8])]

theorem exNbrCtc_lines : CtcLines exNbrCtc exCounts where
  total := exLines_number (g := fun r => (exCounts r).total) 5 rfl (by decide +kernel) (by decide +kernel)
  fy_oy := exLines_number (g := fun r => (exCounts r).hits) 6 rfl (by decide +kernel) (by decide +kernel)
  fy_on := exLines_number (g := fun r => (exCounts r).falseAlarms) 7 rfl (by decide +kernel) (by decide +kernel)
  fn_oy := exLines_number (g := fun r => (exCounts r).misses) 8 rfl (by decide +kernel) (by decide +kernel)
  fn_on := exLines_number (g := fun r => (exCounts r).correctNegatives) 9 rfl (by decide +kernel) (by decide +kernel)

theorem exNbrCtc_input : OneAxisRun exNbrCtc (exLinesParams "NBR_CSI") [] ("model", ["A", "B"]) (fun v => [v]) [] "TMP"
    ["NBR_CSI"] [] :=
  exLines_input (by unfold FrameWF; decide +kernel) (by decide)
    ⟨by decide, by decide, plainText_of (by decide) (by decide) (by decide)⟩ (by decide +kernel)

/-- CSI of the summed counts: 4 of 8 for model A, 1 of 10 for model B. -/
theorem exNbrCtc_result : aggRun (tallyStat .nbrCtc exNbrCtc) (fun _ _ => .none) exNbrCtc (exLinesParams "NBR_CSI") =
    .ok [⟨["A", "6", "NBR_CSI"], some "TMP", .num (1/2), 2⟩, ⟨["B", "6", "NBR_CSI"], some "TMP", .num (1/10), 2⟩] := by
  decide +kernel

example : (∃ plain derived : List AggOut,
    [⟨["A", "6", "NBR_CSI"], some "TMP", .num (1/2), 2⟩, ⟨["B", "6", "NBR_CSI"], some "TMP", .num (1/10), 2⟩] =
      plain ++ derived) ∧
    ∀ etb, ∃ out, aggRun (tallyStat .nbrCtc exNbrCtc) etb exNbrCtc (exLinesParams "NBR_CSI") = .ok out := by
  constructor
  · obtain ⟨plain, derived, h, -⟩ := C254_nbr (fun _ _ => .none) _ exNbrCtc_input exRunKey (exLines_key _ _ _) _
      exNbrCtc_lines exNbrCtc_result (by simp)
    exact ⟨plain, derived, h⟩
  · intro etb
    refine C254_nbr_completes etb exNbrCtc_input _ exNbrCtc_lines rfl ?_
    intro s hs
    obtain rfl : s = "NBR_CSI" := by simpa [exLinesParams] using hs
    decide +kernel

end Metcalcpy.Props
