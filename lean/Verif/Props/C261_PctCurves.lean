/-
C261, C262  Derived curves of bootstrapped aggregation runs on probability forecasts (PCT lines).
-/
import Verif.Props.C258_PctLimits
import Verif.Props.C262_CurveStatistics

namespace Metcalcpy.Props
open Metcalcpy Spec

section
variable {f : Frame} {p : AggParams} {init : List (String × List String)} {sv : String × List String}
  {parts : String → List String} {fix : List (String × List String)} {fv : String} {sts : List String}
  {rest : List (String × List String)}

/-- C261, PCT lines (the thresholds not being the independent variable): scores of the pooled bins (`PctScore`). -/
theorem C261_pct (etb : List PyNum → List PyNum → PyNum) (s : BootSettings) (draws₁ draws₂ : ℕ → ℕ → List (List ℕ)) (k : ℕ)
    (hdraw : ∀ i n, IndexMatrix n k (draws₁ i n)) (hm : s.method ≠ .other) (out : List BootOut)
    (R : OneAxisRun f p init sv parts fix fv sts rest) (key : List Val → String)
    (hkey : ∀ r ∈ f.rows, IsCaseKey f p.indyVar true r (key r)) (hindy : CaseFixesIndependent f p.indyVar key)
    (htime : CaseFixesTime f key) (hread : ∀ x ∈ init ++ [sv], ∀ v ∈ x.2, ∀ w ∈ parts v, ReadAlike w)
    (_hi : p.indyVar ≠ "thresh_i") (bins : List BinColumns) (L : PctLines f bins)
    (hs : ∀ st ∈ p.axis₁.stats, lower st ∈ ["pstd_baser", "pstd_uncertainty", "pstd_reliability"] ∨
      (lower st = "pstd_roc_auc" ∧ ∀ r ∈ f.rows, (∃ b ∈ bins, 0 < b.oy r) ∧ ∃ b ∈ bins, 0 < b.on r))
    (h : bootRun (tallyPrepared .pct f) etb s draws₁ draws₂ f p = .ok out) (hne : out ≠ []) :
    ShowsCurves f p (init ++ [sv]) parts fix fv key k s
      (fun st rows v => PctScore st (binsOf bins rows) v) out :=
  shows_curves _ _ etb s draws₁ draws₂ k hdraw hm out R key hkey hindy htime hread
    (fun _ _ _ _ _ hp h1 h2 h3 => pct_value L hp h1 h2 h3)
    (fun st hst _ z1 z2 => exists_not_keyError (by
      rcases hs st hst with h | h
      · exact pct_exists L z1 z2 h
      · obtain ⟨x, hx⟩ := pct_number L z1 z2 (Or.inr h)
        exact ⟨_, hx⟩)) h hne

/-- C262 with derived curves: scores of PCT lines, if every line has counts (for the ROC area: an event and a non-event). -/
theorem C262_pct_curves (etb : List PyNum → List PyNum → PyNum) (s : BootSettings)
    (ha : 0 ≤ s.alpha ∧ s.alpha ≤ 1) (draws₁ draws₂ : ℕ → ℕ → List (List ℕ))
    (k : ℕ) (hk : 0 < k) (hdraw : ∀ i n, IndexMatrix n k (draws₁ i n)) (R : OneAxisRun f p init sv parts fix fv sts rest)
    (key : List Val → String) (hkey : ∀ r ∈ f.rows, IsCaseKey f p.indyVar true r (key r))
    (hindy : CaseFixesIndependent f p.indyVar key) (htime : CaseFixesTime f key)
    (hread : ∀ x ∈ init ++ [sv], ∀ v ∈ x.2, ∀ w ∈ parts v, ReadAlike w) (hcurves : PlainOrSigCurves s (p.config p.axis₁))
    (hn : ∀ as i st, List.Forall₂ (fun x q => x ∈ q.2) as (init ++ [sv]) → i ∈ p.indyVals → st ∈ p.axis₁.stats →
      ((comparedRows f (init ++ [sv]) parts fix fv p.indyVar key as i st).map (caseOf f)).Nodup)
    (_hi : p.indyVar ≠ "thresh_i") (bins : List BinColumns) (L : PctLines f bins)
    (hs : ∀ st ∈ p.axis₁.stats,
      (lower st ∈ ["pstd_baser", "pstd_uncertainty", "pstd_reliability"] ∧ ∀ r ∈ f.rows, ∃ b ∈ bins, 0 < b.oy r + b.on r) ∨
      (lower st = "pstd_roc_auc" ∧ ∀ r ∈ f.rows, (∃ b ∈ bins, 0 < b.oy r) ∧ ∃ b ∈ bins, 0 < b.on r)) :
    ∃ out, bootRun (tallyPrepared .pct f) etb s draws₁ draws₂ f p = .ok out :=
  C262_sig_curves_partial _ etb s ha draws₁ draws₂ k hk hdraw R key hkey hindy htime hread hcurves hn
    (fun st hst _ z1 z2 => pct_number L z1 z2 (hs st hst))

end

/-! ### Examples -/

theorem exCurvePct_time : CaseFixesTime (exPct "PSTD_ROC_AUC") exRunKey := by
  unfold CaseFixesTime
  decide +kernel

example : ∃ out, bootRun (tallyPrepared .pct (exPct "PSTD_ROC_AUC")) (fun _ _ => .none) ⟨1 / 2, .perc, false⟩ threeDraws
    threeDraws (exPct "PSTD_ROC_AUC") (exCurveParams "PSTD_ROC_AUC") = .ok out ∧ out ≠ [] ∧
    ShowsCurves (exPct "PSTD_ROC_AUC") (exCurveParams "PSTD_ROC_AUC") [("model", ["A", "B"])] (fun v => [v]) [] "TMP" exRunKey 3
      ⟨1 / 2, .perc, false⟩ (fun st rows v => PctScore st (binsOf exPctBins rows) v) out := by
  obtain ⟨out, h, hne⟩ := of_points (a := ["A", "6", "PSTD_ROC_AUC"])
    (l := [["B", "6", "PSTD_ROC_AUC"], [exCurveName "PSTD_ROC_AUC", "6", "PSTD_ROC_AUC"]])
    (show (bootRun (tallyPrepared .pct (exPct "PSTD_ROC_AUC")) (fun _ _ => .none) ⟨1 / 2, .perc, false⟩ threeDraws threeDraws
      (exPct "PSTD_ROC_AUC") (exCurveParams "PSTD_ROC_AUC")).map (List.map BootOut.point) = _ by decide +kernel)
  exact ⟨out, h, hne, C261_pct _ _ _ _ 3 threeDraws_ok (by simp) out (exCurve_input exPct_run) exRunKey (exLines_key _ _ _)
    (exCurve_indy exPct_run) exCurvePct_time exSl_read (by decide) _ (exPct_lines _) (fun st hst => exPct_stats st hst) h hne⟩

theorem exCurvePct_curve : CurveRequest ((exCurveParams "PSTD_ROC_AUC").config (exCurveParams "PSTD_ROC_AUC").axis₁) [] [] ["TMP"]
    "A" "B" "PSTD_ROC_AUC" ("A TMP " ++ "PSTD_ROC_AUC") ("B TMP " ++ "PSTD_ROC_AUC") "DIFF" (exCurveName "PSTD_ROC_AUC") where
  operation := Or.inl rfl
  requested := by decide
  named := by decide +kernel
  only := by decide +kernel
  first := by unfold SeriesText; decide +kernel
  second := by unfold SeriesText; decide +kernel
  differs := ⟨[], "model", ["A", "B"], [], rfl, .nil, .nil, by decide, by decide, Or.inr rfl⟩
  disjoint := by decide
  groups := by decide

example := C262_pct_curves (fun _ _ => .none) ⟨1 / 2, .pivotal, true⟩ (by norm_num) threeDraws threeDraws 3 (by decide)
  threeDraws_ok (exCurve_input exPct_run) exRunKey (exLines_key _ _ _) (exCurve_indy exPct_run) exCurvePct_time exSl_read
  (exCurve_plain exCurvePct_curve (by decide) (by decide +kernel)) (exCurve_once (by decide +kernel)) (by decide) exPctBins
  (exPct_lines _) (by
    intro st hst
    obtain rfl : st = "PSTD_ROC_AUC" := by simpa [exCurveParams] using hst
    exact Or.inr ⟨by decide +kernel, exPct_positive⟩)

end Metcalcpy.Props
