/-
C88  Pooling neighbourhood lines gives the scores of the pooled sample (false when a line is perfect).
C89  Pooling ensemble lines replaces every score by that of the group (false for RMSE, CRPSS and RPSS).
-/
import Verif.Props.C85_AggregateField
import Mathlib.Tactic.IntervalCases

namespace Metcalcpy.Props
open Metcalcpy Spec

/-- One neighbourhood line: number of points, fractions Brier score, its reference value (the largest possible
score), forecast and observed event rates. -/
structure NbrLine where
  n : ℚ
  fbs : ℚ
  ref : ℚ
  fRate : ℚ
  oRate : ℚ

/-- The fractions skill score of a line. -/
def NbrLine.fss (x : NbrLine) : ℚ := 1 - x.fbs / x.ref

/-- Mean of a quantity over the pooled points. -/
def pooledMean (ls : List NbrLine) (q : NbrLine → ℚ) : ℚ := (ls.map fun x => x.n * q x).sum / (ls.map NbrLine.n).sum

/-- The table holds the lines `ls`. -/
structure HoldsNbr (t : Table) (ls : List NbrLine) : Prop where
  ne : t.rows ≠ []
  total : CompleteColumn t "total" (ls.map NbrLine.n)
  fbs : CompleteColumn t "fbs" (ls.map NbrLine.fbs)
  fss : CompleteColumn t "fss" (ls.map NbrLine.fss)
  fRate : CompleteColumn t "f_rate" (ls.map NbrLine.fRate)
  oRate : CompleteColumn t "o_rate" (ls.map NbrLine.oRate)

theorem getCol_of_complete {t : Table} {c : String} {xs : List ℚ} (h : CompleteColumn t c xs) :
    getCol t c = .ok (xs.map some) := by
  unfold getCol
  rw [columnData_eq_some_iff.mpr h]

theorem nansumProd_map (ls : List NbrLine) (q : NbrLine → ℚ) :
    nansumProd ((ls.map q).map some) ((ls.map NbrLine.n).map some) = (ls.map fun x => x.n * q x).sum := by
  unfold nansumProd
  induction ls with
  | nil => simp
  | cons x xs ih => simp [mulCell, mul_comm] at ih ⊢

theorem skillDenominator_map (ls : List NbrLine) (h : ∀ x ∈ ls, x.ref ≠ 0 ∧ x.fbs ≠ 0) :
    skillDenominator ((ls.map NbrLine.fbs).map some) ((ls.map NbrLine.fss).map some) =
      (ls.map NbrLine.ref).map some := by
  induction ls with
  | nil => rfl
  | cons x xs ih =>
    have ih := ih fun y hy => h y (by simp [hy])
    obtain ⟨h1, h2⟩ := h x (by simp)
    unfold skillDenominator at ih ⊢
    simp only [List.map_cons, List.zipWith_cons_cons, ih]
    have e : 1 - x.fss = x.fbs / x.ref := by unfold NbrLine.fss; ring
    have e0 : ¬ (1 - x.fss = 0) := by rw [e]; exact div_ne_zero h2 h1
    rw [if_neg e0, e]
    congr 2
    field_simp

/-- C88: when no line is perfect, the pooled row has the summed number of points, the pooled mean Brier score and rates, and
the skill score of the pooled sample, 1 - (pooled score) / (pooled reference); the asymptotic and uniform scores follow
from the pooled rates.  Missing: groups with a perfect line, see `C88_perfect_line_counterexample`. -/
theorem C88_pooled_scores_partial (t : Table) (ls : List NbrLine) (H : HoldsNbr t ls)
    (hn : (ls.map NbrLine.n).sum ≠ 0) (h : ∀ x ∈ ls, x.ref ≠ 0 ∧ x.fbs ≠ 0)
    (href : pooledMean ls NbrLine.ref ≠ 0)
    (hrate : pooledMean ls NbrLine.fRate ^ 2 + pooledMean ls NbrLine.oRate ^ 2 ≠ 0) :
    seriesSums "nbrcnt" t = .ok
      { cols := ["total", "fbs", "fss", "afss", "ufss", "f_rate", "o_rate"]
        rows := [[some (ls.map NbrLine.n).sum, some (pooledMean ls NbrLine.fbs),
          some (1 - pooledMean ls NbrLine.fbs / pooledMean ls NbrLine.ref),
          some (2 * pooledMean ls NbrLine.fRate * pooledMean ls NbrLine.oRate /
            (pooledMean ls NbrLine.fRate ^ 2 + pooledMean ls NbrLine.oRate ^ 2)),
          some (1 / 2 + pooledMean ls NbrLine.oRate / 2),
          some (pooledMean ls NbrLine.fRate), some (pooledMean ls NbrLine.oRate)]] } := by
  change seriesSumsNbrcnt t = _
  unfold seriesSumsNbrcnt
  have hd : ∀ q : NbrLine → ℚ, divTotal (ls.map fun x => x.n * q x).sum (some (ls.map NbrLine.n).sum) =
      .ok (some (pooledMean ls q)) := by
    intro q; simp [divTotal, hn, pooledMean]
  have hrate' : pooledMean ls NbrLine.fRate * pooledMean ls NbrLine.fRate +
      pooledMean ls NbrLine.oRate * pooledMean ls NbrLine.oRate ≠ 0 := by
    simpa [sq] using hrate
  simp only [sumColumn_of_complete H.ne H.total, getCol_of_complete H.total, getCol_of_complete H.fbs,
    getCol_of_complete H.fss, getCol_of_complete H.fRate, getCol_of_complete H.oRate, bind, Except.bind,
    skillDenominator_map ls h, nansumProd_map, hd, pure, Except.pure, divCell, mulCell, plusCell, href, hrate',
    if_false, Option.map_some, sq]

/-- Two lines, the first one perfect, with the same number of points. -/
def exPerfectLine : List NbrLine := [⟨1, 0, 1 / 2, 1 / 2, 1 / 2⟩, ⟨1, 1 / 10, 1 / 5, 1 / 2, 1 / 4⟩]

/-- The table of lines. -/
def nbrTable (ls : List NbrLine) : Table :=
  { cols := ["total", "fbs", "fss", "f_rate", "o_rate"]
    rows := ls.map fun x => [some x.n, some x.fbs, some x.fss, some x.fRate, some x.oRate] }

theorem nbrTable_holds (ls : List NbrLine) (h : ls ≠ []) : HoldsNbr (nbrTable ls) ls where
  ne := by simpa [nbrTable] using h
  total := ⟨0, rfl, by simp, by simp [nbrTable, Function.comp_def]⟩
  fbs := ⟨1, rfl, by intro j hj; interval_cases j; simp [nbrTable], by simp [nbrTable, Function.comp_def]⟩
  fss := ⟨2, rfl, by intro j hj; interval_cases j <;> simp [nbrTable], by simp [nbrTable, Function.comp_def]⟩
  fRate := ⟨3, rfl, by intro j hj; interval_cases j <;> simp [nbrTable], by simp [nbrTable, Function.comp_def]⟩
  oRate := ⟨4, rfl, by intro j hj; interval_cases j <;> simp [nbrTable], by simp [nbrTable, Function.comp_def]⟩

/-- A case meeting the hypotheses of `C88_pooled_scores_partial`. -/
example : (∀ x ∈ [NbrLine.mk 3 (1 / 5) (1 / 2) (1 / 2) (1 / 2), NbrLine.mk 1 (1 / 10) (1 / 5) (1 / 2) (1 / 4)],
      x.ref ≠ 0 ∧ x.fbs ≠ 0) ∧
    seriesSums "nbrcnt" (nbrTable [⟨3, 1 / 5, 1 / 2, 1 / 2, 1 / 2⟩, ⟨1, 1 / 10, 1 / 5, 1 / 2, 1 / 4⟩]) = .ok
      { cols := ["total", "fbs", "fss", "afss", "ufss", "f_rate", "o_rate"]
        rows := [[some 4, some (7 / 40), some (10 / 17), some (112 / 113), some (23 / 32), some (1 / 2),
          some (7 / 16)]] } := by
  constructor
  · intro x hx
    simp only [List.mem_cons, List.not_mem_nil, or_false] at hx
    rcases hx with rfl | rfl <;> norm_num
  · decide +kernel

/-- C88 is false with a perfect line: its reference value (0 / 0) is dropped, so adding a perfect line to the group does not
raise the skill score.  Here the pooled sample has skill 6/7 but the result is 1/2. -/
theorem C88_perfect_line_counterexample :
    HoldsNbr (nbrTable exPerfectLine) exPerfectLine ∧
    1 - pooledMean exPerfectLine NbrLine.fbs / pooledMean exPerfectLine NbrLine.ref = 6 / 7 ∧
    (seriesSums "nbrcnt" (nbrTable exPerfectLine)).map (fun s => s.rows.map fun r => r[2]?) = .ok [some (some (1 / 2))] := by
  refine ⟨nbrTable_holds _ (by simp [exPerfectLine]), ?_, ?_⟩
  · norm_num [pooledMean, exPerfectLine]
  · decide +kernel

/-- C89: the fields pooled for ensemble and ranked-probability lines contain neither RMSE and CRPSS nor RPSS. -/
theorem groupSums_ecnt_lookup (cols : List String) (g : List (List Val)) (sums : List (String × Val))
    (h : groupSums "ecnt" cols g = .ok sums) : sums.lookup "rmse" = none ∧ sums.lookup "crpss" = none := by
  unfold groupSums at h
  have e : seriesSums "ecnt" = seriesSumsEcnt := rfl
  rw [e] at h
  cases hs : seriesSumsEcnt { cols := cols, rows := g.map rowCells } with
  | error x => simp [hs, bind, Except.bind] at h
  | ok s =>
    simp only [hs, bind, Except.bind, pure, Except.pure, Except.ok.injEq] at h
    subst h
    have hcols : s.cols = ["total", "mse", "mse_oerr", "crps_climo", "me", "crps", "ign", "spread", "me_oerr",
        "spread_oerr", "spread_plus_oerr"] := by
      simp only [seriesSumsEcnt, bind, Except.bind] at hs
      repeat' (split at hs)
      all_goals first
        | (simp at hs; done)
        | (simp only [pure, Except.pure, Except.ok.injEq] at hs; subst hs; rfl)
    rw [hcols]
    have key : ∀ (names : List String) (vs : List Val) (c : String), c ∉ names → (names.zip vs).lookup c = none := by
      intro names
      induction names with
      | nil => intro vs c _; simp
      | cons n ns ih =>
        intro vs c hc
        cases vs with
        | nil => simp
        | cons v vs =>
          simp only [List.mem_cons, not_or] at hc
          rw [List.zip_cons_cons, List.lookup_cons]
          have : (c == n) = false := by simpa using hc.1
          rw [this]
          exact ih vs c hc.2
    exact ⟨key _ _ _ (by decide), key _ _ _ (by decide)⟩

theorem groupSums_rps_lookup (cols : List String) (g : List (List Val)) (sums : List (String × Val))
    (h : groupSums "rps" cols g = .ok sums) : sums.lookup "rpss" = none := by
  unfold groupSums at h
  have e : seriesSums "rps" = seriesSumsRps := rfl
  rw [e] at h
  cases hs : seriesSumsRps { cols := cols, rows := g.map rowCells } with
  | error x => simp [hs, bind, Except.bind] at h
  | ok s =>
    simp only [hs, bind, Except.bind, pure, Except.pure, Except.ok.injEq] at h
    subst h
    have hcols : s.cols = ["total", "rps", "rps_comp", "rps_climo"] := by
      simp only [seriesSumsRps, bind, Except.bind] at hs
      repeat' (split at hs)
      all_goals first
        | (simp at hs; done)
        | (simp only [pure, Except.pure, Except.ok.injEq] at hs; subst hs; rfl)
    rw [hcols]
    cases (s.rows.headD []).map numVal with
    | nil => rfl
    | cons a l1 =>
      cases l1 with
      | nil => rfl
      | cons b l2 =>
        cases l2 with
        | nil => rfl
        | cons c l3 =>
          cases l3 with
          | nil => rfl
          | cons d l4 => rfl

/-- C89, the extent of the failure: in every aggregated row of ensemble lines the RMSE and the CRPSS (of ranked
probability lines the RPSS) are those of the first row of the group, whatever the other rows are. -/
theorem C89_scores_of_first_row (lt var value score : String) (series : List (String × List String)) (f : IFrame)
    (I : RegionInput f var value) (hser : OnlyAggregated series var value)
    (hscore : (lt = "ecnt" ∧ (score = "rmse" ∨ score = "crpss")) ∨ (lt = "rps" ∧ score = "rpss"))
    (hcol : score ∈ f.cols) (hvar : score ≠ var)
    (sums : Val → Val → List (String × Val))
    (hsums : ∀ valid lead, (∃ r ∈ f.frame.rows, HasCell f.frame r "fcst_valid_beg" valid) →
      (∃ r ∈ f.frame.rows, HasCell f.frame r "fcst_lead" lead) →
      regionGroup f.frame var value valid lead ≠ [] ∧
      groupSums lt f.cols (regionGroup f.frame var value valid lead) = .ok (sums valid lead)) :
    ∃ (out : IFrame) (valids leads : List Val) (pooled : Val → Val → List Val),
      aggregateFieldValues lt series f = .ok out ∧
      ListsValues f.frame "fcst_valid_beg" valids ∧ ListsValues f.frame "fcst_lead" leads ∧
      ∀ valid ∈ valids, ∀ lead ∈ leads, pooled valid lead ∈ out.frame.rows ∧ ∃ first rest,
        regionGroup f.frame var value valid lead = first :: rest ∧
        ∀ x, HasCell f.frame (pooled valid lead) score x ↔ HasCell f.frame first score x := by
  obtain ⟨out, valids, leads, pooled, h1, -, h3, h4, h5, h6⟩ :=
    C85_one_row_per_time_partial lt var value series f I hser sums hsums
  refine ⟨out, valids, leads, pooled, h1, h3, h4, fun valid hv lead hl => ⟨?_, ?_⟩⟩
  · rw [h5, List.mem_append]
    right
    exact List.mem_map.mpr ⟨(valid, lead), List.mem_product.mpr ⟨hv, hl⟩, rfl⟩
  · obtain ⟨first, rest, e, -, -, hp⟩ := h6 valid hv lead hl
    refine ⟨first, rest, e, fun x => ?_⟩
    have hs := (hsums valid lead ((h3.2 _).mp hv) ((h4.2 _).mp hl)).2
    have hnone : (sums valid lead).lookup score = none := by
      rcases hscore with ⟨rfl, rfl | rfl⟩ | ⟨rfl, rfl⟩
      · exact (groupSums_ecnt_lookup _ _ _ hs).1
      · exact (groupSums_ecnt_lookup _ _ _ hs).2
      · exact groupSums_rps_lookup _ _ _ hs
    rw [hp score hcol hvar x, hnone]
    simp

/-- Two regions of ranked-probability lines. -/
def exRps : IFrame :=
  { cols := ["vx_mask", "fcst_valid_beg", "fcst_lead", "total", "rps", "rpss", "rps_comp"]
    rows := [(0, [.str "EAST", .str "d1", .num 12 "12", .num 1 "1", .num (1 / 4) "0.25", .num (1 / 2) "0.5", .num 1 "1"]),
             (1, [.str "NMT", .str "d1", .num 12 "12", .num 1 "1", .num (1 / 4) "0.25", .num 0 "0", .num 1 "1"])] }

/-- C89 is false: the pooled RPS is 1/4 and the pooled climatological RPS 3/8, so the pooled RPSS is 1/3; the row keeps
the 1/2 of the first region. -/
theorem C89_rpss_counterexample :
    aggregateFieldValues "rps" [("vx_mask", ["EAST;NMT"])] exRps = .ok
      { cols := exRps.cols
        rows := [(0, [.str "EAST;NMT", .str "d1", .num 12 "12", .num 2 "", .num (1 / 4) "", .num (1 / 2) "0.5",
          .num 1 ""])] } := by
  decide +kernel

end Metcalcpy.Props
