/-
C276 A model compared with itself (two series whose lines carry the same data).
-/
import Verif.Props.C256_ListedLeads
import Verif.Props.C266_SigRun

namespace Metcalcpy.Props
open Metcalcpy Spec

section
variable {f : Frame} {p : AggParams} {init : List (String × List String)} {sv : String × List String}
  {parts : String → List String}
  {fix : List (String × List String)} {fv : String} {sts : List String} {rest : List (String × List String)}

/-- Two scores of pools with the same pairs are equal. -/
theorem PoolScore.same {st : String} {P Q : List Pair} {u v : PyNum} (hm : st ∈ ["fbar", "obar", "fobar", "ffbar", "oobar", "me", "mse"])
    (hu : PoolScore st P u) (hv : PoolScore st Q v) (hpq : P.Perm Q) : ∃ q, u = .num q ∧ v = .num q := by
  have hu := hu.perm hpq
  simp only [List.mem_cons, List.not_mem_nil, or_false] at hm
  rcases hm with h | h | h | h | h | h | h
  · exact ⟨_, hu.fbar h, hv.fbar h⟩
  · exact ⟨_, hu.obar h, hv.obar h⟩
  · exact ⟨_, hu.fobar h, hv.fobar h⟩
  · exact ⟨_, hu.ffbar h, hv.ffbar h⟩
  · exact ⟨_, hu.oobar h, hv.oobar h⟩
  · exact ⟨_, hu.me h, hv.me h⟩
  · exact ⟨_, hu.mse h, hv.mse h⟩

/-- C276, the positive part: two series whose lines of the same case were computed from the same pairs have the difference 0, the
ratio 1 and the skill score 0; ratio and skill score are missing if the score itself is 0.  The significance is wrong:
`C276_significance_counterexample`. -/
theorem C276_curves_partial (etb : List PyNum → List PyNum → PyNum) (out : List AggOut)
    (R : OneAxisRun f p init sv parts fix fv sts rest) (key : List Val → String)
    (hkey : ∀ r ∈ f.rows, IsCaseKey f p.indyVar true r (key r)) (hindy : CaseFixesIndependent f p.indyVar key)
    (hread : ∀ x ∈ init ++ [sv], ∀ v ∈ x.2, ∀ w ∈ parts v, ReadAlike w) (pairs : List Val → List Pair)
    (L : Sl1l2Lines f pairs) (pre post extra : List String) (x y s a b op name : String)
    (C : CurveRequest (p.config p.axis₁) pre post extra x y s a b op name)
    (hs : lower s ∈ ["fbar", "obar", "fobar", "ffbar", "oobar", "me", "mse"])
    (h : aggRun (lineStat .sl1l2 f) etb f p = .ok out) (hne : out ≠ []) (i : String) (hi : i ∈ p.indyVals)
    (o : AggOut) (ho : o ∈ out) (hpt : o.point = pre ++ name :: post ++ [i, s])
    (rows₁ rows₂ : List (List Val))
    (hr₁ : rows₁ = comparedRows f (init ++ [sv]) parts fix fv p.indyVar key (pre ++ x :: post) i s)
    (hr₂ : rows₂ = comparedRows f (init ++ [sv]) parts fix fv p.indyVar key (pre ++ y :: post) i s)
    (hn : (rows₁.map key).Nodup ∧ (rows₂.map key).Nodup)
    (hsame : ∀ r ∈ rows₁, ∀ r' ∈ rows₂, key r = key r' → pairs r = pairs r') :
    (rows₁ = [] → o.value = .none) ∧
    (rows₁ ≠ [] → ∃ q : ℚ, PoolScore (lower s) (rows₁.flatMap pairs) (.num q) ∧
      (op = "DIFF" → o.value = .num 0) ∧ (op = "RATIO" → o.value = if q = 0 then .none else .num 1) ∧
      (op = "SS" → o.value = if q = 0 then .none else .num 0)) := by
  obtain ⟨-, hcurve⟩ := C247_curve _ etb out R key hkey pre post extra x y s a b op name C h hne i hi
  obtain ⟨c1, c2⟩ := hcurve o ho hpt rows₁ rows₂ hr₁ hr₂
  obtain ⟨sp, var, vals, sq, hser, hpre, hpost, hx, hy, hxy⟩ := C.differs
  have hserR : (p.config p.axis₁).series = init ++ [sv] := R.series
  have hs' : s ∈ p.axis₁.stats := C.first.2.2.1
  have hfor : ∀ z ∈ vals, List.Forall₂ (fun x q => x ∈ q.2) (pre ++ z :: post) (init ++ [sv]) := by
    intro z hz
    rw [← hserR, hser]
    exact List.rel_append hpre (.cons hz hpost)
  have hperm := common_keys R key hindy hread (hfor x hx) (hfor y hy) hs' (i := i) (by
    intro v hv
    simp only [List.mem_cons, List.not_mem_nil, or_false] at hv
    rcases hv with rfl | rfl
    · rw [← hr₁]; exact hn.1
    · rw [← hr₂]; exact hn.2)
  rw [← hr₁, ← hr₂] at hperm
  have hs₁ : ∀ r ∈ rows₁, r ∈ f.rows := by rw [hr₁]; exact comparedRows_sub
  have hs₂ : ∀ r ∈ rows₂, r ∈ f.rows := by rw [hr₂]; exact comparedRows_sub
  have hpool := perm_pool key pairs id _ _ hperm (fun r hr r' hr' e => congrArg (List.map id) (hsame r hr r' hr' e))
  rw [List.map_id, List.map_id] at hpool
  refine ⟨fun h0 => c1 (Or.inl h0), fun h1 => ?_⟩
  have h2 : rows₂ ≠ [] := by
    rintro rfl
    exact h1 (by simpa using hperm)
  obtain ⟨w₁, w₂, e₁, e₂, hv⟩ := c2 h1 h2
  obtain ⟨d₁, hd₁⟩ := sortData_exists R.input rows₁
  obtain ⟨d₂, hd₂⟩ := sortData_exists R.input rows₂
  have A := sl_value L hd₁ h1 hs₁ e₁
  have B := sl_value L hd₂ h2 hs₂ e₂
  obtain ⟨q, rfl, rfl⟩ := A.same hs B hpool
  have hv := hv q q rfl rfl
  have hz : roundHalfUp (0 : ℚ) 5 = 0 := by exact_mod_cast roundHalfUp_int (K := ℚ) 0 5
  have ho : roundHalfUp (1 : ℚ) 5 = 1 := by exact_mod_cast roundHalfUp_int (K := ℚ) 1 5
  refine ⟨q, A, ?_, ?_, ?_⟩ <;> rintro rfl
  · rw [hv]; simp [derivedOf, hz]
  · rw [hv]
    by_cases h0 : q = 0 <;> simp [derivedOf, h0, ho]
  · rw [hv]
    by_cases h0 : q = 0 <;> simp [derivedOf, h0, hz]

/-- All differences are 0 and so is the value: everything counts as not farther. -/
theorem confidenceShare_zero (ds : List ℚ) (hne : ds ≠ []) (h : ∀ d ∈ ds, d = 0) : confidenceShare ds 0 = 1 := by
  have e : ds = List.replicate ds.length 0 := List.eq_replicate_of_mem h
  have hl : ((ds.length : ℕ) : ℚ) ≠ 0 := by simpa using hne
  rw [e]
  unfold confidenceShare
  simp [List.countP_replicate, hl]

/-- C276, false for the significance: whenever the lines of both series carry the same data, the row `DIFF_SIG` shows 1, the
largest confidence in a difference there is, for every data set, sample size and draw. -/
theorem C276_significance_counterexample (etb : List PyNum → List PyNum → PyNum) (s : BootSettings) (hm : s.method ≠ .other)
    (draws₁ draws₂ : ℕ → ℕ → List (List ℕ)) (k : ℕ) (hk : 0 < k) (hdraw : ∀ i n, IndexMatrix n k (draws₁ i n))
    (out : List BootOut) (R : OneAxisRun f p init sv parts fix fv sts rest) (key : List Val → String)
    (hkey : ∀ r ∈ f.rows, IsCaseKey f p.indyVar true r (key r)) (hindy : CaseFixesIndependent f p.indyVar key)
    (htime : CaseFixesTime f key) (hread : ∀ x ∈ init ++ [sv], ∀ v ∈ x.2, ∀ w ∈ parts v, ReadAlike w)
    (pairs : List Val → List Pair) (L : Sl1l2Lines f pairs)
    (hs : ∀ st ∈ p.axis₁.stats, lower st ∈ ["fbar", "obar", "fobar", "ffbar", "oobar", "me", "mse", "bcmse"])
    (pre post extra : List String) (x y st a b name : String) (hst : lower st ∈ ["me", "mse"])
    (C : CurveNamed (p.config p.axis₁) pre post extra x y st a b "DIFF_SIG" name)
    (h : bootRun (preparedStat .sl1l2 f) etb s draws₁ draws₂ f p = .ok out) (hne : out ≠ []) (i : String) (hi : i ∈ p.indyVals)
    (rows₁ rows₂ : List (List Val))
    (hr₁ : rows₁ = comparedRows f (init ++ [sv]) parts fix fv p.indyVar key (pre ++ x :: post) i st)
    (hr₂ : rows₂ = comparedRows f (init ++ [sv]) parts fix fv p.indyVar key (pre ++ y :: post) i st)
    (hn : (rows₁.map key).Nodup ∧ (rows₂.map key).Nodup)
    (hsame : ∀ r ∈ rows₁, ∀ r' ∈ rows₂, caseOf f r = caseOf f r' → pairs r = pairs r') (hr : rows₁ ≠ [])
    (o : BootOut) (ho : o ∈ out) (hpt : o.point = pre ++ name :: post ++ [i, st]) : o.value = .num 1 := by
  obtain ⟨ps, q₁, q₂, p₁, p₂, hcase, ⟨A, B⟩, sims, diffs, hl, hsub, hall, -, hv⟩ :=
    C266_sl1l2 etb s hm draws₁ draws₂ k hk hdraw out R key hkey hindy htime hread pairs L hs pre post extra x y st a b name
      (by revert hst; simp only [List.mem_cons, List.not_mem_nil, or_false]; tauto) C h hne i hi rows₁ rows₂ hr₁ hr₂ hn o ho hpt hr _ rfl
  have hst' : lower st ∈ ["fbar", "obar", "fobar", "ffbar", "oobar", "me", "mse"] := by
    revert hst; simp only [List.mem_cons, List.not_mem_nil, or_false]; tauto
  have hpairs : ∀ z ∈ ps, pairs z.1 = pairs z.2 := fun z hz =>
    hsame _ (p₁.mem_iff.mp (List.mem_map_of_mem hz)) _ (p₂.mem_iff.mp (List.mem_map_of_mem hz)) (hcase z hz)
  have hpool : ∀ zs : List (List Val × List Val), (∀ z ∈ zs, z ∈ ps) →
      zs.flatMap (fun z => pairs z.1) = zs.flatMap (fun z => pairs z.2) := by
    intro zs
    induction zs with
    | nil => intro _; rfl
    | cons z zs ih =>
      intro hz
      simp only [List.flatMap_cons]
      rw [hpairs z (hz z (by simp)), ih (fun w hw => hz w (by simp [hw]))]
  have same : ∀ (zs : List (List Val × List Val)) (u₁ u₂ : ℚ), (∀ z ∈ zs, z ∈ ps) → PoolScore (lower st) (zs.flatMap (fun z => pairs z.1)) (.num u₁) →
      PoolScore (lower st) (zs.flatMap (fun z => pairs z.2)) (.num u₂) → u₁ = u₂ := by
    intro zs u₁ u₂ hz h1 h2
    obtain ⟨q, e1, e2⟩ := h1.same hst' h2 (by rw [hpool zs hz])
    simp only [PyNum.num.injEq] at e1 e2
    rw [e1, e2]
  have hq : q₁ = q₂ := same ps q₁ q₂ (fun _ h => h) A B
  have hd : ∀ d ∈ diffs, d = 0 := by
    clear hv hl
    induction hall with
    | nil => intro d hd; simp at hd
    | cons h1 _ ih =>
      obtain ⟨u₁, u₂, ⟨g1, g2⟩, rfl⟩ := h1
      intro d hd
      rcases List.mem_cons.mp hd with rfl | hd
      · rw [same _ u₁ u₂ (hsub _ (by simp)).2 g1 g2, sub_self]
      · exact ih (fun zs hz => hsub zs (by simp [hz])) d hd
  have hdn : diffs ≠ [] := by
    rintro rfl
    have := hall.length_eq
    simp at this
    rw [this] at hl
    simp at hl
    omega
  rw [hv, hq, sub_self, confidenceShare_zero diffs hdn hd, if_neg (lt_irrefl _)]

end

/-! ### Example: the same forecasts under two names -/

def exTwinFrame : Frame :=
  { cols := ["fcst_valid_beg", "fcst_lead", "model", "fcst_var", "stat_name", "total", "fbar", "obar", "fobar", "ffbar",
      "oobar"],
    rows := ["ME", "OBAR"].flatMap fun s => ["A", "B"].flatMap fun m => [
      [.str "t1", .num 6 "6", .str m, .str "TMP", .str s, .num 2 "2", .num 3 "3", .num 2 "2", .num 7 "7", .num 10 "10", .num 5 "5"],
      [.str "t3", .num 6 "6", .str m, .str "TMP", .str s, .num 1 "1", .num 8 "8", .num 2 "2", .num 16 "16", .num 64 "64", .num 4 "4"]] }

def exTwinPairs (r : List Val) : List Pair := if cellAt r 0 = .str "t1" then [(2, 1), (4, 3)] else [(8, 2)]

theorem exTwin_lines : Sl1l2Lines exTwinFrame exTwinPairs := by
  have key : ∀ (i : ℕ) (c : String) (g : List Val → ℚ), exTwinFrame.cols[i]? = some c →
      (∀ j < i, exTwinFrame.cols[j]? ≠ some c) →
      (∀ r ∈ exTwinFrame.rows, (match cellAt r i with | .num q _ => some q | _ => none) = some (g r)) →
      ∀ r ∈ exTwinFrame.rows, HasNumber exTwinFrame r c (g r) := by
    intro i c g h1 h2 h3 r hr
    have := h3 r hr
    unfold cellAt at this
    cases h : r[i]? with
    | none => rw [h] at this; simp at this
    | some v =>
      rw [h] at this
      cases v with
      | num q t =>
        simp only [Option.getD_some, Option.some.injEq] at this
        exact ⟨t, i, h1, h2, this ▸ h⟩
      | str s => simp at this
      | null => simp at this
  exact ⟨by decide, key 5 _ _ (by decide) (by decide) (by decide +kernel),
    key 6 _ _ (by decide) (by decide) (by decide +kernel), key 7 _ _ (by decide) (by decide) (by decide +kernel),
    key 8 _ _ (by decide) (by decide) (by decide +kernel), key 9 _ _ (by decide) (by decide) (by decide +kernel),
    key 10 _ _ (by decide) (by decide) (by decide +kernel)⟩

theorem exTwin_input (P : AggParams) (hP : P = exDiffParams ∨ P = exSigParams) :
    OneAxisRun exTwinFrame P [] ("model", ["A", "B"]) (fun v => [v]) [] "TMP" ["ME", "OBAR"] [] := by
  rcases hP with rfl | rfl
  all_goals exact {
    input := ⟨by unfold FrameWF; decide, by decide, by decide, by decide, by intro _ h; exact absurd (by decide) h⟩
    forecast := by decide
    statistic := by decide
    on := rfl
    series := rfl
    second := rfl
    fixed := rfl
    names := by decide
    columns := by decide
    groups := exRun_input.groups
    texts := exRun_input.texts
    fcst := rfl
    pairs := by decide
    stats := exSl_input.stats
    indy := exRun_input.indy
    somestat := by decide
    distinct := by decide
    plain := by decide +kernel }

theorem exTwin_key : ∀ r ∈ exTwinFrame.rows, IsCaseKey exTwinFrame "fcst_lead" true r (exRunKey r) := by
  intro r hr
  have h0 : ∀ r ∈ exTwinFrame.rows, r[0]? = some (r.getD 0 .null) ∧ r[1]? = some (r.getD 1 .null) := by decide
  obtain ⟨e0, e1⟩ := h0 r hr
  refine ⟨r.getD 0 .null, r.getD 1 .null, ⟨0, by decide, by simp, e0⟩, ⟨1, by decide, by decide, e1⟩, ?_⟩
  rw [if_neg (by decide)]
  rfl

theorem exTwin_lead : ∀ r ∈ exTwinFrame.rows, ∀ v, HasCell exTwinFrame r "fcst_lead" v → v = .num 6 "6" := by
  intro r hr v hv
  have h : ∀ r ∈ exTwinFrame.rows, r[1]? = some (.num 6 "6") := by decide
  exact hasCell_eq (f := exTwinFrame) (by decide) hv ⟨1, by decide, by decide, h r hr⟩

theorem exTwin_indy : CaseFixesIndependent exTwinFrame "fcst_lead" exRunKey :=
  C201_case_fixes_independent "fcst_lead" exRunKey (exTwin_input _ (Or.inl rfl)).input exTwin_key (Or.inl rfl)
    (fun r hr v hv => by rw [exTwin_lead r hr v hv]; decide)
    (fun r hr r' hr' v v' hv hv' _ => by rw [exTwin_lead r hr v hv, exTwin_lead r' hr' v' hv'])

theorem exTwin_time : CaseFixesTime exTwinFrame exRunKey := by
  unfold CaseFixesTime
  decide +kernel

theorem exTwin_same : (∀ r ∈ exTwinFrame.rows, ∀ r' ∈ exTwinFrame.rows, exRunKey r = exRunKey r' → exTwinPairs r = exTwinPairs r') ∧
    (∀ r ∈ exTwinFrame.rows, ∀ r' ∈ exTwinFrame.rows, caseOf exTwinFrame r = caseOf exTwinFrame r' → exTwinPairs r = exTwinPairs r') := by
  constructor <;> decide +kernel

/-- Both models have the mean error 8/3 (rounded), and their difference is 0. -/
theorem exTwin_result : aggRun (lineStat .sl1l2 exTwinFrame) (fun _ _ => .none) exTwinFrame exDiffParams =
    .ok [⟨["A", "6", "ME"], some "TMP", .num (26666667 / 10000000), 2⟩, ⟨["A", "6", "OBAR"], some "TMP", .num 2, 2⟩,
      ⟨["B", "6", "ME"], some "TMP", .num (26666667 / 10000000), 2⟩, ⟨["B", "6", "OBAR"], some "TMP", .num 2, 2⟩,
      ⟨["DIFF(A TMP ME-B TMP ME)", "6", "ME"], some "TMP", .num 0, 0⟩,
      ⟨["DIFF(A TMP OBAR-B TMP OBAR)", "6", "OBAR"], some "TMP", .num 0, 0⟩] := by
  decide +kernel

theorem exTwin_once (m : String) (hm : m = "A" ∨ m = "B") :
    ((comparedRows exTwinFrame ([] ++ [("model", ["A", "B"])]) (fun v => [v]) [] "TMP" "fcst_lead" exRunKey ([] ++ m :: []) "6"
      "ME").map exRunKey).Nodup := by
  classical
  have hsub : (comparedRows exTwinFrame ([] ++ [("model", ["A", "B"])]) (fun v => [v]) [] "TMP" "fcst_lead" exRunKey
      ([] ++ m :: []) "6" "ME").Sublist
      (exTwinFrame.rows.filter (fun r => cellAt r 2 == .str m && cellAt r 4 == .str "ME")) := by
    unfold comparedRows
    apply List.monotone_filter_right
    intro r hr
    simp only [decide_eq_true_eq] at hr
    obtain ⟨⟨hr, -⟩, -⟩ := hr
    have cell : ∀ (c w : String) (k : ℕ), exTwinFrame.cols[k]? = some c → (∀ j < k, exTwinFrame.cols[j]? ≠ some c) →
        (c, w) ∈ pointRequest ([] ++ [("model", ["A", "B"])]) "fcst_lead" ([] ++ m :: []) "6" "ME" →
        ':' ∉ w.toList → ';' ∉ w.toList → PlainText w → cellAt r k = .str w := by
      intro c w k h1 h2 h3 h4 h5 h6
      obtain ⟨v, hv, hc⟩ := hr (c, w) h3 (List.mem_of_getElem? h1)
      obtain ⟨w', hw', rfl⟩ := (cellAmong_text (plain_standsFor h4 h5) (by simpa using h6)).mp hc
      obtain rfl : w' = w := by simpa using hw'
      obtain ⟨j, hj1, hj2, hj3⟩ := hv
      have : j = k := by
        rcases lt_trichotomy j k with hlt | heq | hgt
        · exact absurd hj1 (h2 j hlt)
        · exact heq
        · exact absurd h1 (hj2 k hgt)
      subst this
      unfold cellAt
      rw [hj3]
      rfl
    have hm' : ':' ∉ m.toList ∧ ';' ∉ m.toList ∧ PlainText m := by
      rcases hm with rfl | rfl <;> exact ⟨by decide, by decide, plainText_of (by decide) (by decide) (by decide)⟩
    rw [cell "model" m 2 rfl (by decide) (by simp [pointRequest]) hm'.1 hm'.2.1 hm'.2.2,
      cell "stat_name" "ME" 4 rfl (by decide) (by simp [pointRequest]) (by decide) (by decide)
        (plainText_of (by decide) (by decide) (by decide))]
    simp
  refine List.Nodup.sublist (hsub.map exRunKey) ?_
  rcases hm with rfl | rfl <;> decide +kernel


theorem exTwin_some : comparedRows exTwinFrame ([] ++ [("model", ["A", "B"])]) (fun v => [v]) [] "TMP" "fcst_lead" exRunKey
    ([] ++ "A" :: []) "6" "ME" ≠ [] := by
  intro h0
  have := (C276_curves_partial (fun _ _ => .none) _ (exTwin_input _ (Or.inl rfl)) exRunKey exTwin_key exTwin_indy exSl_read
    exTwinPairs exTwin_lines [] [] ["TMP"] "A" "B" "ME" "A TMP ME" "B TMP ME" "DIFF" "DIFF(A TMP ME-B TMP ME)" exDiff_curve
    (by decide +kernel) exTwin_result (by simp) "6" (by decide)
    ⟨["DIFF(A TMP ME-B TMP ME)", "6", "ME"], some "TMP", .num 0, 0⟩ (by simp) rfl _ _ rfl rfl
    ⟨exTwin_once "A" (Or.inl rfl), exTwin_once "B" (Or.inr rfl)⟩
    (fun r hr r' hr' => exTwin_same.1 r (comparedRows_sub r hr) r' (comparedRows_sub r' hr'))).1 h0
  simp at this

/-- The two identical models differ "significantly": the row shows 1. -/
theorem exTwin_boot : bootRun (preparedStat .sl1l2 exTwinFrame) (fun _ _ => .none) ⟨1 / 2, .perc, false⟩ threeDraws threeDraws
    exTwinFrame exSigParams = .ok
    [⟨["A", "6", "ME"], some "TMP", .num (26666667 / 10000000), some (216666667 / 200000000), some (1166666667 / 200000000), 2⟩,
     ⟨["A", "6", "OBAR"], some "TMP", .num 2, none, none, 2⟩,
     ⟨["B", "6", "ME"], some "TMP", .num (26666667 / 10000000), some (216666667 / 200000000), some (1166666667 / 200000000), 2⟩,
     ⟨["B", "6", "OBAR"], some "TMP", .num 2, none, none, 2⟩,
     ⟨["DIFF_SIG(A TMP ME-B TMP ME)", "6", "ME"], some "TMP", .num 1, none, none, 0⟩] := by decide +kernel

example := C276_significance_counterexample (fun _ _ => .none) ⟨1 / 2, .perc, false⟩ (by decide) threeDraws threeDraws 3 (by decide)
    threeDraws_ok _ (exTwin_input _ (Or.inr rfl)) exRunKey exTwin_key exTwin_indy exTwin_time exSl_read
    exTwinPairs exTwin_lines (by decide +kernel) [] [] ["TMP"] "A" "B" "ME" "A TMP ME" "B TMP ME" "DIFF_SIG(A TMP ME-B TMP ME)"
    (by decide +kernel) exSig_curve exTwin_boot (by simp) "6" (by decide) _ _ rfl rfl
    ⟨exTwin_once "A" (Or.inl rfl), exTwin_once "B" (Or.inr rfl)⟩
    (fun r hr r' hr' => exTwin_same.2 r (comparedRows_sub r hr) r' (comparedRows_sub r' hr')) exTwin_some

end Metcalcpy.Props
