/-
C247 A derived curve in a run with event equalization compares the scores of its two series over the same cases; with
     common observations the difference of two mean errors is the difference of the mean forecasts.
-/
import Verif.Props.C102_DerivedPoints
import Verif.Props.C205_AggValues
import Verif.Props.C201_TwoAxes

namespace Metcalcpy.Props
open Metcalcpy Spec

/-! ### Specification -/

/-- The curve `name`, the operation `op` on the series with the values `pre`, `x`, `post` and those with the values `pre`,
`y`, `post`, both for the statistic `s`, is requested by the texts `a` and `b`.  No value is listed for two variables, no
value or word is the name of a group, and the name belongs to no other curve. -/
structure CurveNamed (c : AggConfig) (pre post extra : List String) (x y s a b op name : String) : Prop where
  requested : [a, b, op] ∈ c.derived
  named : getDerivedCurveName [a, b, op] = .ok name
  only : ∀ d ∈ c.derived, getDerivedCurveName d = .ok name → d = [a, b, op]
  first : SeriesText c a (pre ++ x :: post) extra s
  second : SeriesText c b (pre ++ y :: post) extra s
  differs : ∃ sp var vals sq, c.series = sp ++ (var, vals) :: sq ∧
    List.Forall₂ (fun z (q : String × List String) => z ∈ q.2) pre sp ∧
    List.Forall₂ (fun z (q : String × List String) => z ∈ q.2) post sq ∧ x ∈ vals ∧ y ∈ vals ∧ (x ≠ y ∨ sq = [])
  disjoint : (requestedValues c).Pairwise (fun p q => ∀ z ∈ p.2, z ∉ q.2)
  groups : ∀ z ∈ pre ++ x :: y :: post ++ extra ++ c.indyVals ++ [s, s, name, s], c.groups.lookup z = none

/-- A named curve that is a difference, a ratio, a skill score or a single series. -/
structure CurveRequest (c : AggConfig) (pre post extra : List String) (x y s a b op name : String) : Prop extends
    CurveNamed c pre post extra x y s a b op name where
  operation : op = "DIFF" ∨ op = "RATIO" ∨ op = "SS" ∨ op = "SINGLE"

/-! ### Lemmas -/

section
variable {f : Frame} {p : AggParams} {init : List (String × List String)} {sv : String × List String}
  {parts : String → List String}
  {fix : List (String × List String)} {fv : String} {sts : List String} {rest : List (String × List String)}

theorem requested_plain (R : OneAxisRun f p init sv parts fix fv sts rest) :
    ∀ q ∈ requestedValues (p.config p.axis₁), ∀ v ∈ q.2, isDerivedPoint (some [v]) = false := by
  rw [requested_eq R]
  intro q hq v hv
  rcases List.mem_append.mp hq with hq | hq
  · rcases List.mem_append.mp hq with hq | hq
    · exact R.plain.1 q hq v hv
    · simp only [List.mem_singleton] at hq
      subst hq
      exact R.plain.2.1 v hv
  · simp only [List.mem_singleton] at hq
    subst hq
    exact R.plain.2.2 v hv

/-- Every row of the table with the values of a point has the number of rows and the value that C201 claims. -/
theorem run_point (statOf : String → List (List Val) → Except PyErr PyNum) (etb : List PyNum → List PyNum → PyNum)
    (out : List AggOut) (R : OneAxisRun f p init sv parts fix fv sts rest) (key : List Val → String)
    (hkey : ∀ r ∈ f.rows, IsCaseKey f p.indyVar true r (key r)) (h : aggRun statOf etb f p = .ok out) (hne : out ≠ [])
    (as : List String) (i st : String) (ha : List.Forall₂ (fun x q => x ∈ q.2) as (init ++ [sv])) (hi : i ∈ p.indyVals)
    (hst : st ∈ p.axis₁.stats) (o : AggOut) (ho : o ∈ out) (hpt : o.point = as ++ [i, st]) (rows : List (List Val))
    (hr : rows = comparedRows f (init ++ [sv]) parts fix fv p.indyVar key as i st) :
    o.nstats = rows.length ∧ (rows = [] → o.value = .none) ∧ (rows ≠ [] → statOf (lower st) rows = .ok o.value) := by
  obtain ⟨⟨G, hG, hax⟩, plain, derived, e, hpts, hlen, hval⟩ := one_axis_table statOf etb out R key hkey h hne
  have hfd := config_fields R
  have hfe := fields_eq hfd
  have hrv := requested_eq R
  have hpl := requested_plain R
  obtain ⟨entries, results, plain', derived', hm, e', hplain, -, -, hder⟩ :=
    aggAxis_parts (f := ⟨f.cols, G⟩) ⟨hG, List.ne_nil_of_mem R.forecast⟩ hfd (fun q hq v hm => hpl q (hfe ▸ hq) v hm) hax
  have hlen' : plain.length = plain'.length := by
    rw [hlen, ← hplain.length_eq, AggConfig.plainPoints, length_product, hfe, hrv]
    simp [List.prod_append, mul_assoc, Function.comp_def]
  obtain ⟨rfl, rfl⟩ := List.append_inj (e.symm.trans e') hlen'
  have hmem : o ∈ plain := by
    rw [e] at ho
    rcases List.mem_append.mp ho with ho | ho
    · exact ho
    · exfalso
      obtain ⟨q, hq, hoq, -⟩ := forall₂_right_mem hder ho
      obtain ⟨en, hen, hqe⟩ := List.mem_flatMap.mp hq
      obtain ⟨d, -, hde⟩ := forall₂_right_mem (mapM_except_mem _ hm) hen
      have h1 := (derivedEntry_points hfd hde).2 q hqe
      have h2 : isDerivedPoint (some o.point) = false := by
        apply plain_not_derived (c := p.config p.axis₁) (fun q hq v hm => hpl q (hfe ▸ hq) v hm)
        rw [AggConfig.plainPoints, mem_product, hfe, hrv, List.forall₂_map_right_iff, hpt]
        have : as ++ [i, st] = as ++ [i] ++ [st] := by simp
        rw [this]
        exact List.rel_append (List.rel_append ha (.cons hi .nil)) (.cons hst .nil)
      rw [hoq, h1] at h2
      simp at h2
  exact hval o hmem as i st hpt rows hr

/-- C247: in a run with event equalization every requested curve has a row for every independent value, and the value of
that row is computed from the values of the two series over the common cases, with the same independent value; it is
missing if one of them has no such case. -/
theorem C247_curve (statOf : String → List (List Val) → Except PyErr PyNum) (etb : List PyNum → List PyNum → PyNum)
    (out : List AggOut) (R : OneAxisRun f p init sv parts fix fv sts rest) (key : List Val → String)
    (hkey : ∀ r ∈ f.rows, IsCaseKey f p.indyVar true r (key r)) (pre post extra : List String) (x y s a b op name : String)
    (C : CurveRequest (p.config p.axis₁) pre post extra x y s a b op name)
    (h : aggRun statOf etb f p = .ok out) (hne : out ≠ []) (i : String) (hi : i ∈ p.indyVals) :
    (∃ o ∈ out, o.point = pre ++ name :: post ++ [i, s]) ∧
    ∀ o ∈ out, o.point = pre ++ name :: post ++ [i, s] →
      ∀ rows₁ rows₂, rows₁ = comparedRows f (init ++ [sv]) parts fix fv p.indyVar key (pre ++ x :: post) i s →
        rows₂ = comparedRows f (init ++ [sv]) parts fix fv p.indyVar key (pre ++ y :: post) i s →
        (rows₁ = [] ∨ rows₂ = [] → o.value = .none) ∧
        (rows₁ ≠ [] → rows₂ ≠ [] → ∃ w₁ w₂, statOf (lower s) rows₁ = .ok w₁ ∧ statOf (lower s) rows₂ = .ok w₂ ∧
          ∀ v₁ v₂, w₁ = .num v₁ → w₂ = .num v₂ →
            o.value = (derivedOf op v₁ v₂).elim .none (fun q => .num (roundHalfUp q 5))) := by
  obtain ⟨⟨G, hG, hax⟩, -⟩ := one_axis_table statOf etb out R key hkey h hne
  obtain ⟨sp, var, vals, sq, hser, hpre, hpost, hx, hy, hxy⟩ := C.differs
  have hserR : (p.config p.axis₁).series = init ++ [sv] := R.series
  have hs : s ∈ p.axis₁.stats := C.first.2.2.1
  have hkeys : ((p.config p.axis₁).series.map Prod.fst).Nodup := by
    rw [hserR]
    have := R.names
    rw [List.map_append] at this
    exact (List.nodup_append.mp this).1
  have hds : derivedStat s s = s := by unfold derivedStat; rw [if_pos rfl]
  obtain ⟨o₁, m₁, o₂, m₂, e₁, e₂, hex, hall⟩ := C102_named_series_partial statOf etb ⟨f.cols, G⟩ (p.config p.axis₁) out
    ⟨hG, List.ne_nil_of_mem R.forecast⟩ (config_fields R) hkeys C.disjoint (requested_plain R) sp sq var vals hser pre post
    extra x y s s a b op name hpre hpost hx hy hxy C.first C.second (fun h => absurd rfl h) C.operation C.requested C.named
    C.only (by rw [hds]; exact C.groups) [i] (Or.inr ⟨i, hi, rfl⟩) hax
  rw [hds] at hex hall
  have hassoc : ∀ l : List String, l ++ [i] ++ [s] = l ++ [i, s] := by simp
  simp only [hassoc] at e₁ e₂ hex hall
  have hfor : ∀ z ∈ vals, List.Forall₂ (fun x q => x ∈ q.2) (pre ++ z :: post) (init ++ [sv]) := by
    intro z hz
    rw [← hserR, hser]
    exact List.rel_append hpre (.cons hz hpost)
  refine ⟨hex, ?_⟩
  rintro o ho hpt rows₁ rows₂ hr₁ hr₂
  obtain ⟨n1, n2, n3⟩ := run_point statOf etb out R key hkey h hne _ i s (hfor x hx) hi hs o₁ m₁ e₁ _ hr₁
  obtain ⟨k1, k2, k3⟩ := run_point statOf etb out R key hkey h hne _ i s (hfor y hy) hi hs o₂ m₂ e₂ _ hr₂
  obtain ⟨d1, d2⟩ := hall o ho hpt
  constructor
  · intro hr
    apply d1
    rcases hr with hr | hr
    · left; rw [n1, hr]; rfl
    · right; rw [k1, hr]; rfl
  · intro hn₁ hn₂
    refine ⟨o₁.value, o₂.value, n3 hn₁, k3 hn₂, ?_⟩
    intro v₁ v₂ w₁ w₂
    rw [d2 (by rw [n1]; simpa using hn₁) (by rw [k1]; simpa using hn₂) v₁ v₂ w₁ w₂]
    cases derivedOf op v₁ v₂ <;> rfl

theorem round_close (q : ℚ) (d : ℕ) : |roundHalfUp q d - q| ≤ (1 / 2) / 10 ^ d := by
  have h1 := roundHalfUp_le q d
  have h2 := lt_roundHalfUp q d
  rw [zpow_natCast] at h1 h2
  rw [abs_le]
  constructor <;> linarith

/-- C247 for models verified against the same observations: if the lines of a case were computed from the same
observations and no case occurs twice in a series, the difference of two observed means is 0, and the difference of two
mean errors is the difference of the mean forecasts over the common cases, up to rounding. -/
theorem C247_same_observations (etb : List PyNum → List PyNum → PyNum) (out : List AggOut)
    (R : OneAxisRun f p init sv parts fix fv sts rest) (key : List Val → String)
    (hkey : ∀ r ∈ f.rows, IsCaseKey f p.indyVar true r (key r)) (hindy : CaseFixesIndependent f p.indyVar key)
    (hread : ∀ x ∈ init ++ [sv], ∀ v ∈ x.2, ∀ w ∈ parts v, ReadAlike w) (pairs : List Val → List Pair)
    (L : Sl1l2Lines f pairs)
    (hobs : ∀ r ∈ f.rows, ∀ r' ∈ f.rows, key r = key r' → (pairs r).map Prod.snd = (pairs r').map Prod.snd)
    (pre post extra : List String) (x y s a b name : String)
    (C : CurveRequest (p.config p.axis₁) pre post extra x y s a b "DIFF" name)
    (h : aggRun (lineStat .sl1l2 f) etb f p = .ok out) (hne : out ≠ []) (i : String) (hi : i ∈ p.indyVals)
    (o : AggOut) (ho : o ∈ out) (hpt : o.point = pre ++ name :: post ++ [i, s])
    (rows₁ rows₂ : List (List Val))
    (hr₁ : rows₁ = comparedRows f (init ++ [sv]) parts fix fv p.indyVar key (pre ++ x :: post) i s)
    (hr₂ : rows₂ = comparedRows f (init ++ [sv]) parts fix fv p.indyVar key (pre ++ y :: post) i s)
    (hn : (rows₁.map key).Nodup ∧ (rows₂.map key).Nodup) :
    (rows₁ = [] → o.value = .none) ∧
    (rows₁ ≠ [] → (lower s = "obar" ∨ lower s = "oobar" → o.value = .num 0) ∧
      (lower s = "me" → ∃ v, o.value = .num v ∧
        |v - (avg Prod.fst (rows₁.flatMap pairs) - avg Prod.fst (rows₂.flatMap pairs))| ≤ 51 / 10 ^ 7)) := by
  obtain ⟨-, hcurve⟩ := C247_curve _ etb out R key hkey pre post extra x y s a b "DIFF" name C h hne i hi
  obtain ⟨c1, c2⟩ := hcurve o ho hpt rows₁ rows₂ hr₁ hr₂
  obtain ⟨sp, var, vals, sq, hser, hpre, hpost, hx, hy, hxy⟩ := C.differs
  have hserR : (p.config p.axis₁).series = init ++ [sv] := R.series
  have hs : s ∈ p.axis₁.stats := C.first.2.2.1
  have hfor : ∀ z ∈ vals, List.Forall₂ (fun x q => x ∈ q.2) (pre ++ z :: post) (init ++ [sv]) := by
    intro z hz
    rw [← hserR, hser]
    exact List.rel_append hpre (.cons hz hpost)
  have hperm := common_keys R key hindy hread (hfor x hx) (hfor y hy) hs (i := i) (by
    intro v hv
    simp only [List.mem_cons, List.not_mem_nil, or_false] at hv
    rcases hv with rfl | rfl
    · rw [← hr₁]; exact hn.1
    · rw [← hr₂]; exact hn.2)
  rw [← hr₁, ← hr₂] at hperm
  have hs₁ : ∀ r ∈ rows₁, r ∈ f.rows := by rw [hr₁]; exact comparedRows_sub
  have hs₂ : ∀ r ∈ rows₂, r ∈ f.rows := by rw [hr₂]; exact comparedRows_sub
  have hpool := perm_pool key pairs Prod.snd _ _ hperm (fun r hr r' hr' => hobs r (hs₁ r hr) r' (hs₂ r' hr'))
  refine ⟨fun h0 => c1 (Or.inl h0), fun h1 => ?_⟩
  have h2 : rows₂ ≠ [] := by
    rintro rfl
    exact h1 (by simpa using hperm)
  obtain ⟨w₁, w₂, e₁, e₂, hv⟩ := c2 h1 h2
  obtain ⟨d₁, hd₁⟩ := sortData_exists R.input rows₁
  obtain ⟨d₂, hd₂⟩ := sortData_exists R.input rows₂
  have A := sl_value L hd₁ h1 hs₁ e₁
  have B := sl_value L hd₂ h2 hs₂ e₂
  generalize rows₁.flatMap pairs = P at *
  generalize rows₂.flatMap pairs = Q at *
  have havg : ∀ g : ℚ → ℚ, avg (fun p : Pair => g p.2) P = avg (fun p : Pair => g p.2) Q := by
    intro g
    have := perm_avg g hpool
    unfold avg at this ⊢
    simpa [List.map_map, Function.comp_def] using this
  have hO : avg (Prod.snd : Pair → ℚ) P = avg (Prod.snd : Pair → ℚ) Q := havg id
  have hz : roundHalfUp (0 : ℚ) 5 = 0 := by exact_mod_cast roundHalfUp_int (K := ℚ) 0 5
  constructor
  · rintro (hl | hl)
    · rw [hv _ _ (A.obar hl) (B.obar hl), hO]
      simp [derivedOf, hz]
    · rw [hv _ _ (A.oobar hl) (B.oobar hl), havg (fun x => x * x)]
      simp [derivedOf, hz]
  · intro hl
    refine ⟨_, (hv _ _ (A.me hl) (B.me hl)).trans rfl, ?_⟩
    have key : ∀ T : List Pair, meanError T = avg Prod.fst T - avg Prod.snd T := by
      intro T
      unfold meanError avg
      rw [← sub_div]
      congr 1
      induction T with
      | nil => simp
      | cons t T ih => simp only [List.map_cons, List.sum_cons, ih]; ring
    have b1 := round_close (meanError P) 7
    have b2 := round_close (meanError Q) 7
    have b3 := round_close (roundHalfUp (meanError P) 7 - roundHalfUp (meanError Q) 7) 5
    have e3 : avg Prod.fst P - avg Prod.fst Q = meanError P - meanError Q := by rw [key, key, hO]; ring
    rw [e3]
    rw [abs_le] at b1 b2 b3 ⊢
    norm_num at b1 b2 b3 ⊢
    constructor <;> linarith [b1.1, b1.2, b2.1, b2.2, b3.1, b3.2]

end

/-! ### Example -/

/-- The difference of both models for the mean error and for the observed mean. -/
def exDiffParams : AggParams :=
  { exSlParams with axis₁ := ⟨[("model", ["A", "B"])], ["ME", "OBAR"],
      [["A TMP ME", "B TMP ME", "DIFF"], ["A TMP OBAR", "B TMP OBAR", "DIFF"]], [("TMP", ["ME", "OBAR"])]⟩ }

theorem exDiff_input :
    OneAxisRun exSlFrame exDiffParams [] ("model", ["A", "B"]) (fun v => [v]) [] "TMP" ["ME", "OBAR"] [] where
  input := exSl_input.input
  forecast := exSl_input.forecast
  statistic := exSl_input.statistic
  on := rfl
  series := rfl
  second := rfl
  fixed := rfl
  names := exSl_input.names
  columns := exSl_input.columns
  groups := exSl_input.groups
  texts := exSl_input.texts
  fcst := rfl
  pairs := exSl_input.pairs
  stats := exSl_input.stats
  indy := exSl_input.indy
  somestat := exSl_input.somestat
  distinct := exSl_input.distinct
  plain := exSl_input.plain

theorem exDiff_result : aggRun (lineStat .sl1l2 exSlFrame) (fun _ _ => .none) exSlFrame exDiffParams =
    .ok [⟨["A", "6", "ME"], some "TMP", .num 1, 2⟩, ⟨["A", "6", "OBAR"], some "TMP", .num 2, 2⟩,
      ⟨["B", "6", "ME"], some "TMP", .num 2, 2⟩, ⟨["B", "6", "OBAR"], some "TMP", .num 2, 2⟩,
      ⟨["DIFF(A TMP ME-B TMP ME)", "6", "ME"], some "TMP", .num (-1), 0⟩,
      ⟨["DIFF(A TMP OBAR-B TMP OBAR)", "6", "OBAR"], some "TMP", .num 0, 0⟩] := by
  decide +kernel

theorem exDiff_curve : CurveRequest (exDiffParams.config exDiffParams.axis₁) [] [] ["TMP"] "A" "B" "ME"
    "A TMP ME" "B TMP ME" "DIFF" "DIFF(A TMP ME-B TMP ME)" where
  operation := Or.inl rfl
  requested := by decide
  named := by decide +kernel
  only := by decide +kernel
  first := by unfold SeriesText; decide +kernel
  second := by unfold SeriesText; decide +kernel
  differs := ⟨[], "model", ["A", "B"], [], rfl, .nil, .nil, by decide, by decide, Or.inr rfl⟩
  disjoint := by decide
  groups := by decide

theorem exDiff_once (m : String) (hm : m = "A" ∨ m = "B") :
    ((comparedRows exSlFrame ([] ++ [("model", ["A", "B"])]) (fun v => [v]) [] "TMP" "fcst_lead" exRunKey ([] ++ m :: []) "6"
      "ME").map exRunKey).Nodup := by
  classical
  have hsub : (comparedRows exSlFrame ([] ++ [("model", ["A", "B"])]) (fun v => [v]) [] "TMP" "fcst_lead" exRunKey
      ([] ++ m :: []) "6" "ME").Sublist
      (exSlFrame.rows.filter (fun r => cellAt r 2 == .str m && cellAt r 4 == .str "ME")) := by
    unfold comparedRows
    apply List.monotone_filter_right
    intro r hr
    simp only [decide_eq_true_eq] at hr
    obtain ⟨⟨hr, -⟩, -⟩ := hr
    have cell : ∀ (c w : String) (k : ℕ), exSlFrame.cols[k]? = some c → (∀ j < k, exSlFrame.cols[j]? ≠ some c) →
        (c, w) ∈ pointRequest ([] ++ [("model", ["A", "B"])]) "fcst_lead" ([] ++ m :: []) "6" "ME" →
        ':' ∉ w.toList → ';' ∉ w.toList → PlainText w → cellAt r k = .str w := by
      intro c w k h1 h2 h3 h4 h5 h6
      obtain ⟨v, hv, hc⟩ := hr (c, w) h3 (List.mem_of_getElem? h1)
      obtain ⟨w', hw', rfl⟩ := (cellAmong_text (plain_standsFor h4 h5) (by simpa using h6)).mp hc
      obtain rfl : w' = w := by simpa using hw'
      obtain ⟨j, hj1, hj2, hj3⟩ := hv
      have : j = k := by
        rcases lt_trichotomy j k with hlt | heq | hgt
        · exact absurd hj1 (h2 j hlt)
        · exact heq
        · exact absurd h1 (hj2 k hgt)
      subst this
      unfold cellAt
      rw [hj3]
      rfl
    have hm' : ':' ∉ m.toList ∧ ';' ∉ m.toList ∧ PlainText m := by
      rcases hm with rfl | rfl <;> exact ⟨by decide, by decide, plainText_of (by decide) (by decide) (by decide)⟩
    rw [cell "model" m 2 rfl (by decide) (by simp [pointRequest]) hm'.1 hm'.2.1 hm'.2.2,
      cell "stat_name" "ME" 4 rfl (by decide) (by simp [pointRequest]) (by decide) (by decide)
        (plainText_of (by decide) (by decide) (by decide))]
    simp
  refine List.Nodup.sublist (hsub.map exRunKey) ?_
  rcases hm with rfl | rfl <;> decide +kernel

/-- The example meets the hypotheses: the difference of the mean errors is -1, that of the mean forecasts. -/
example := C247_same_observations (fun _ _ => .none) _ exDiff_input exRunKey exSl_key
    (C201_case_fixes_independent "fcst_lead" exRunKey exSl_input.input exSl_key (Or.inl rfl)
      (fun r hr v hv => by rw [exSl_lead r hr v hv]; decide)
      (fun r hr r' hr' v v' hv hv' _ => by rw [exSl_lead r hr v hv, exSl_lead r' hr' v' hv']))
    (fun x hx v hv w hw => by
      obtain rfl : x = ("model", ["A", "B"]) := by simpa using hx
      exact ⟨(exRun_input.texts v hv w hw).2.1, (exRun_input.texts v hv w hw).2.2⟩)
    exLinePairs exSl_lines exSl_observed [] [] ["TMP"] "A" "B" "ME" "A TMP ME" "B TMP ME" "DIFF(A TMP ME-B TMP ME)"
    exDiff_curve exDiff_result (by simp) "6" (by decide)
    ⟨["DIFF(A TMP ME-B TMP ME)", "6", "ME"], some "TMP", .num (-1), 0⟩ (by simp) rfl _ _ rfl rfl
    ⟨exDiff_once "A" (Or.inl rfl), exDiff_once "B" (Or.inr rfl)⟩

end Metcalcpy.Props
