/-
C258 Bootstrap limits in aggregation tables: scores of probability forecasts (PCT lines).
C262 Such a run completes if every line has events and non-events.
-/
import Verif.Props.C258_EnsembleLimits

namespace Metcalcpy.Props
open Metcalcpy Spec

/-- A sum of non-negative counts of lines and bins is positive if one line has a positive count in some bin. -/
theorem bins_pos {f : Frame} {bins : List BinColumns} {g : BinColumns → List Val → ℚ}
    (hg : ∀ b ∈ bins, ∀ r ∈ f.rows, 0 ≤ g b r) {data : List (List Val)} (hsub : ∀ r ∈ data, r ∈ f.rows) {r : List Val}
    (hr : r ∈ data) {b : BinColumns} (hb : b ∈ bins) (hp : 0 < g b r) : 0 < (bins.map fun b => (data.map (g b)).sum).sum := by
  have h3 : ∀ b ∈ bins, 0 ≤ (data.map (g b)).sum := fun b hb => sum_nonneg_q _ (fun x hx => by
    obtain ⟨r, hr, rfl⟩ := List.mem_map.mp hx
    exact hg b hb r (hsub r hr))
  have h4 : g b r ≤ (data.map (g b)).sum := List.single_le_sum (fun x hx => by
    obtain ⟨r, hr, rfl⟩ := List.mem_map.mp hx
    exact hg b hb r (hsub r hr)) _ (List.mem_map_of_mem hr)
  have h5 : (data.map (g b)).sum ≤ (bins.map fun b => (data.map (g b)).sum).sum :=
    List.single_le_sum (fun x hx => by
      obtain ⟨b, hb, rfl⟩ := List.mem_map.mp hx
      exact h3 b hb) _ (List.mem_map.mpr ⟨b, hb, rfl⟩)
  linarith

/-- The score is a number if every line has counts (for the ROC area: an event and a non-event). -/
theorem pct_number {f : Frame} {bins : List BinColumns} (L : PctLines f bins) {data : List (List Val)} (hne : data ≠ [])
    (hsub : ∀ r ∈ data, r ∈ f.rows) {s : String}
    (hs : (s ∈ ["pstd_baser", "pstd_uncertainty", "pstd_reliability"] ∧ ∀ r ∈ f.rows, ∃ b ∈ bins, 0 < b.oy r + b.on r) ∨
      (s = "pstd_roc_auc" ∧ ∀ r ∈ f.rows, (∃ b ∈ bins, 0 < b.oy r) ∧ ∃ b ∈ bins, 0 < b.on r)) :
    ∃ x, tallyPrepared .pct f s data = .ok (.num x) := by
  have D := pct_table L hne hsub
  obtain ⟨h1, -⟩ := pstd_values D
  obtain ⟨r, hr⟩ := List.exists_mem_of_ne_nil _ hne
  rcases hs with ⟨hs, hpos⟩ | ⟨rfl, hpos⟩
  · obtain ⟨b, hb, hbp⟩ := hpos r (hsub r hr)
    have e := bins_pos (g := fun b r => b.oy r + b.on r)
      (fun b hb r hr => add_nonneg (L.oy_nonneg b hb r hr) (L.on_nonneg b hb r hr)) hsub hr hb hbp
    have e' : 0 < (bins.map fun b => (data.map b.oy).sum).sum + (bins.map fun b => (data.map b.on).sum).sum := by
      have : ∀ l : List (List Val), ∀ b : BinColumns,
          (l.map fun r => b.oy r + b.on r).sum = (l.map b.oy).sum + (l.map b.on).sum := by
        intro l b
        induction l with
        | nil => simp
        | cons a l ih => simp only [List.map_cons, List.sum_cons, ih]; ring
      have h2 : ∀ l : List BinColumns, (l.map fun b => (data.map fun r => b.oy r + b.on r).sum).sum =
          (l.map fun b => (data.map b.oy).sum).sum + (l.map fun b => (data.map b.on).sum).sum := by
        intro l
        induction l with
        | nil => simp
        | cons a l ih => simp only [List.map_cons, List.sum_cons]; rw [ih, this]; ring
      rw [← h2]
      exact e
    obtain ⟨a1, a2, a3⟩ := h1 (by simpa [events, nonEvents, pooledBins, Function.comp_def] using e')
    simp only [List.mem_cons, List.not_mem_nil, or_false] at hs
    rcases hs with e | e | e <;> rw [e]
    · exact ⟨_, by rw [tallyPrepared_of (l := .pct) rfl rfl, a1]; rfl⟩
    · exact ⟨_, by rw [tallyPrepared_of (l := .pct) rfl rfl, a2]; rfl⟩
    · exact ⟨_, by rw [tallyPrepared_of (l := .pct) rfl rfl, a3]; rfl⟩
  · obtain ⟨⟨b, hb, hbp⟩, c, hc, hcp⟩ := hpos r (hsub r hr)
    have he := bins_pos (g := BinColumns.oy) L.oy_nonneg hsub hr hb hbp
    have hn := bins_pos (g := BinColumns.on) L.on_nonneg hsub hr hc hcp
    have ha := C14_auc_concordance _ _ D
      (by simpa [events, pooledBins, Function.comp_def] using he)
      (by simpa [nonEvents, pooledBins, Function.comp_def] using hn)
    exact ⟨_, by rw [tallyPrepared_of (l := .pct) rfl rfl]; simp only [ha]; rfl⟩

/-- Base rate, uncertainty and reliability exist for all lines. -/
theorem pct_exists {f : Frame} {bins : List BinColumns} (L : PctLines f bins) {data : List (List Val)} (hne : data ≠ [])
    (hsub : ∀ r ∈ data, r ∈ f.rows) {s : String} (hs : s ∈ ["pstd_baser", "pstd_uncertainty", "pstd_reliability"]) :
    ∃ v, tallyPrepared .pct f s data = .ok v := by
  have D := pct_table L hne hsub
  obtain ⟨h1, h2⟩ := pstd_values D
  have hnn := pooled_nonneg D
  have hE : 0 ≤ events (pooledBins (bins.map fun b =>
      (⟨b.thName, b.oyName, b.onName, b.th, data.map b.oy, data.map b.on⟩ : PctBin))) :=
    sum_nonneg_q _ (fun x hx => by obtain ⟨b, hb, rfl⟩ := List.mem_map.mp hx; exact (hnn b hb).1)
  have hN : 0 ≤ nonEvents (pooledBins (bins.map fun b =>
      (⟨b.thName, b.oyName, b.onName, b.th, data.map b.oy, data.map b.on⟩ : PctBin))) :=
    sum_nonneg_q _ (fun x hx => by obtain ⟨b, hb, rfl⟩ := List.mem_map.mp hx; exact (hnn b hb).2)
  simp only [List.mem_cons, List.not_mem_nil, or_false] at hs
  rcases (add_nonneg hE hN).lt_or_eq with hp | hp
  · obtain ⟨a1, a2, a3⟩ := h1 hp
    rcases hs with e | e | e <;> rw [e]
    · exact ⟨_, by rw [tallyPrepared_of (l := .pct) rfl rfl, a1]; rfl⟩
    · exact ⟨_, by rw [tallyPrepared_of (l := .pct) rfl rfl, a2]; rfl⟩
    · exact ⟨_, by rw [tallyPrepared_of (l := .pct) rfl rfl, a3]; rfl⟩
  · obtain ⟨a1, a2, a3⟩ := h2 hp.symm
    rcases hs with e | e | e <;> rw [e]
    · exact ⟨_, by rw [tallyPrepared_of (l := .pct) rfl rfl, a1]; rfl⟩
    · exact ⟨_, by rw [tallyPrepared_of (l := .pct) rfl rfl, a2]; rfl⟩
    · exact ⟨_, by rw [tallyPrepared_of (l := .pct) rfl rfl, a3]; rfl⟩

section
variable {f : Frame} {p : AggParams} {init : List (String × List String)} {sv : String × List String}
  {parts : String → List String} {fix : List (String × List String)} {fv : String} {sts : List String}
  {rest : List (String × List String)}

/-- C258, PCT lines (the thresholds not being the independent variable): base rate, uncertainty, reliability and, if every line
has an event and a non-event, the ROC area of the pooled bins (`PctScore`). -/
theorem C258_pct (etb : List PyNum → List PyNum → PyNum) (s : BootSettings) (draws₁ draws₂ : ℕ → ℕ → List (List ℕ)) (k : ℕ)
    (hdraw : ∀ i n, IndexMatrix n k (draws₁ i n)) (hm : s.method ≠ .other) (out : List BootOut)
    (R : OneAxisRun f p init sv parts fix fv sts rest) (key : List Val → String)
    (hkey : ∀ r ∈ f.rows, IsCaseKey f p.indyVar true r (key r)) (_hi : p.indyVar ≠ "thresh_i") (bins : List BinColumns)
    (L : PctLines f bins)
    (hs : ∀ st ∈ p.axis₁.stats, lower st ∈ ["pstd_baser", "pstd_uncertainty", "pstd_reliability"] ∨
      (lower st = "pstd_roc_auc" ∧ ∀ r ∈ f.rows, (∃ b ∈ bins, 0 < b.oy r) ∧ ∃ b ∈ bins, 0 < b.on r))
    (h : bootRun (tallyPrepared .pct f) etb s draws₁ draws₂ f p = .ok out) (hne : out ≠ []) :
    ShowsScores f p (init ++ [sv]) parts fix fv key k s.method
      (fun st rows v => PctScore st (binsOf bins rows) v) out :=
  shows_scores _ _ etb s draws₁ draws₂ k hdraw hm out R key hkey (tallyPrepared_not_nan _ _)
    (fun _ _ _ _ _ hp h1 h2 h3 => pct_value L hp h1 h2 h3)
    (fun st hst _ z1 z2 => exists_not_keyError (by
      rcases hs st hst with h | h
      · exact pct_exists L z1 z2 h
      · obtain ⟨x, hx⟩ := pct_number L z1 z2 (Or.inr h)
        exact ⟨_, hx⟩)) h hne

/-- C262, PCT lines: the run completes if every line has counts (for the ROC area: an event and a non-event). -/
theorem C262_pct (etb : List PyNum → List PyNum → PyNum) (s : BootSettings) (draws₁ draws₂ : ℕ → ℕ → List (List ℕ))
    (k : ℕ) (hk : 0 < k) (hdraw : ∀ i n, IndexMatrix n k (draws₁ i n)) (R : OneAxisRun f p init sv parts fix fv sts rest)
    (_hi : p.indyVar ≠ "thresh_i") (hnd : p.axis₁.derived = []) (bins : List BinColumns) (L : PctLines f bins)
    (hs : ∀ st ∈ p.axis₁.stats,
      (lower st ∈ ["pstd_baser", "pstd_uncertainty", "pstd_reliability"] ∧ ∀ r ∈ f.rows, ∃ b ∈ bins, 0 < b.oy r + b.on r) ∨
      (lower st = "pstd_roc_auc" ∧ ∀ r ∈ f.rows, (∃ b ∈ bins, 0 < b.oy r) ∧ ∃ b ∈ bins, 0 < b.on r)) :
    ∃ out, bootRun (tallyPrepared .pct f) etb s draws₁ draws₂ f p = .ok out :=
  C262_completes_partial _ etb s draws₁ draws₂ k hk hdraw R hnd (fun st hst _ z1 z2 => pct_number L z1 z2 (hs st hst))

end

/-! ### Examples -/

theorem exPct_positive : ∀ r ∈ (exPct "PSTD_ROC_AUC").rows, (∃ b ∈ exPctBins, 0 < b.oy r) ∧ ∃ b ∈ exPctBins, 0 < b.on r := by
  simp [exPct, exLines, exPctBins, exNum, cellAt, numberOf]

theorem exPct_stats : ∀ st ∈ (exLinesParams "PSTD_ROC_AUC").axis₁.stats,
    lower st ∈ ["pstd_baser", "pstd_uncertainty", "pstd_reliability"] ∨ (lower st = "pstd_roc_auc" ∧
      ∀ r ∈ (exPct "PSTD_ROC_AUC").rows, (∃ b ∈ exPctBins, 0 < b.oy r) ∧ ∃ b ∈ exPctBins, 0 < b.on r) := by
  intro st hst
  obtain rfl : st = "PSTD_ROC_AUC" := by simpa [exLinesParams] using hst
  exact Or.inr ⟨by decide +kernel, exPct_positive⟩

theorem exPct_run : OneAxisRun (exPct "PSTD_ROC_AUC") (exLinesParams "PSTD_ROC_AUC") [] ("model", ["A", "B"]) (fun v => [v]) []
    "TMP" ["PSTD_ROC_AUC"] [] :=
  exPct_input _ ⟨by decide, by decide, plainText_of (by decide) (by decide) (by decide)⟩ (by decide +kernel)

example : ∃ out, bootRun (tallyPrepared .pct (exPct "PSTD_ROC_AUC")) (fun _ _ => .none) ⟨1 / 2, .perc, false⟩ threeDraws
    threeDraws (exPct "PSTD_ROC_AUC") (exLinesParams "PSTD_ROC_AUC") = .ok out ∧ out ≠ [] ∧
    ShowsScores (exPct "PSTD_ROC_AUC") (exLinesParams "PSTD_ROC_AUC") [("model", ["A", "B"])] (fun v => [v]) [] "TMP" exRunKey 3
      .perc (fun st rows v => PctScore st (binsOf exPctBins rows) v) out := by
  obtain ⟨out, h, hne⟩ := of_points (a := ["A", "6", "PSTD_ROC_AUC"]) (l := [["B", "6", "PSTD_ROC_AUC"]])
    (show (bootRun (tallyPrepared .pct (exPct "PSTD_ROC_AUC")) (fun _ _ => .none) ⟨1 / 2, .perc, false⟩ threeDraws threeDraws
      (exPct "PSTD_ROC_AUC") (exLinesParams "PSTD_ROC_AUC")).map (List.map BootOut.point) = _ by decide +kernel)
  exact ⟨out, h, hne, C258_pct _ _ _ _ 3 threeDraws_ok (by simp) out exPct_run exRunKey (exLines_key _ _ _) (by decide)
    _ (exPct_lines _) exPct_stats h hne⟩

example := C262_pct (fun _ _ => .none) ⟨1 / 2, .pivotal, true⟩ threeDraws threeDraws 3 (by decide) threeDraws_ok exPct_run
  (by decide) rfl exPctBins (exPct_lines _) (by
    intro st hst
    obtain rfl : st = "PSTD_ROC_AUC" := by simpa [exLinesParams] using hst
    exact Or.inr ⟨by decide +kernel, exPct_positive⟩)

end Metcalcpy.Props
