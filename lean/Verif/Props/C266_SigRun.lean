/-
C266  DIFF_SIG in the aggregation table is the signed confidence of the paired bootstrap of the common cases.
-/
import Verif.Props.C261_CurveLimits
import Verif.Props.C172_DiffSig

namespace Metcalcpy.Props

open Metcalcpy Spec

variable {f : Frame} {p : AggParams} {init : List (String × List String)} {sv : String × List String}
  {parts : String → List String} {fix : List (String × List String)} {fv : String} {sts : List String}
  {rest : List (String × List String)}

/-- The row `o` shows the significance of the difference of the score `score` of two series with the rows `rows₁` and `rows₂`:
in the order of their cases the rows of both series agree case by case; `diffs` are the differences at the positions drawn, the
same for both series; the limits are those of the differences; the value is missing if a score or every difference is, or if
the statistic has no perfect score; otherwise its size is the share of the differences that are not farther from their mean
than the difference of the series is from zero, and it is negative exactly if the first series is farther from the perfect
score. -/
def ShowsSignificance (score : List (List Val) → Option ℚ) (s : BootSettings) (f : Frame) (stat : String)
    (rows₁ rows₂ : List (List Val)) (ids : List (List ℕ)) (o : BootOut) : Prop :=
  ∃ a₁ a₂, a₁.Perm rows₁ ∧ a₂.Perm rows₂ ∧ a₁.map (caseOf f) = a₂.map (caseOf f) ∧
    ∃ diffs x, diffs = ids.map (fun row =>
        diffCell (score (pick a₁ (positionsUsed (if s.cbb then Nat.sqrt rows₁.length else 1) row)))
          (score (pick a₂ (positionsUsed (if s.cbb then Nat.sqrt rows₁.length else 1) row)))) ∧
      confidenceInterval diffs (diffCell (score a₁) (score a₂)) s.alpha s.method = .ok ⟨o.lower, x, o.upper⟩ ∧
      (score a₁ = none ∨ score a₂ = none ∨ diffs.filterMap id = [] → o.value = .none) ∧
      ∀ a b, score a₁ = some a → score a₂ = some b → diffs.filterMap id ≠ [] →
        (PerfectScore (upper stat) none → o.value = .none) ∧
        ∀ best, PerfectScore (upper stat) (some best) →
          o.value = .num (if |a - best| > |b - best| then -confidenceShare (diffs.filterMap id) (a - b)
            else confidenceShare (diffs.filterMap id) (a - b))

/-- C266: in a run with event equalization and bootstrapping every requested DIFF_SIG curve has a row for every independent
value.  For a statistic that has a number or is missing for every set of lines, and series without repeated cases, the row shows
the significance of the difference over the common cases of both series; without such cases value and limits are missing. -/
theorem C266_significance (statOf : String → List (List Val) → Except PyErr PyNum) (etb : List PyNum → List PyNum → PyNum)
    (s : BootSettings) (hm : s.method ≠ .other) (draws₁ draws₂ : ℕ → ℕ → List (List ℕ)) (k : ℕ)
    (hdraw : ∀ i n, IndexMatrix n k (draws₁ i n))
    (out : List BootOut) (R : OneAxisRun f p init sv parts fix fv sts rest) (key : List Val → String)
    (hkey : ∀ r ∈ f.rows, IsCaseKey f p.indyVar true r (key r)) (hindy : CaseFixesIndependent f p.indyVar key)
    (htime : CaseFixesTime f key) (hread : ∀ x ∈ init ++ [sv], ∀ v ∈ x.2, ∀ w ∈ parts v, ReadAlike w)
    (score : String → List (List Val) → Option ℚ)
    (hscore : ∀ st ∈ p.axis₁.stats, ∀ zs, zs ≠ [] → (∀ r ∈ zs, r ∈ f.rows) →
      statOf (lower st) zs = .ok (asPyNum (score (lower st) zs)))
    (pre post extra : List String) (x y st a b name : String)
    (C : CurveNamed (p.config p.axis₁) pre post extra x y st a b "DIFF_SIG" name)
    (h : bootRun statOf etb s draws₁ draws₂ f p = .ok out) (hne : out ≠ []) (i : String) (hi : i ∈ p.indyVals)
    (rows₁ rows₂ : List (List Val))
    (hr₁ : rows₁ = comparedRows f (init ++ [sv]) parts fix fv p.indyVar key (pre ++ x :: post) i st)
    (hr₂ : rows₂ = comparedRows f (init ++ [sv]) parts fix fv p.indyVar key (pre ++ y :: post) i st)
    (hn : (rows₁.map key).Nodup ∧ (rows₂.map key).Nodup) :
    (∃ o ∈ out, o.point = pre ++ name :: post ++ [i, st]) ∧
    ∀ (n : ℕ) (o : BootOut), out[n]? = some o → o.point = pre ++ name :: post ++ [i, st] →
      (rows₁ = [] ↔ rows₂ = []) ∧ (rows₁ = [] → o.value = .none ∧ o.lower = none ∧ o.upper = none) ∧
      (rows₁ ≠ [] → ShowsSignificance (score (lower st)) s f (lower st) rows₁ rows₂ (draws₁ n rows₁.length) o) := by
  obtain ⟨hex, hempty, hcases, hs₁, hs₂, G, hrow⟩ := curve_row statOf etb s draws₁ draws₂ k hdraw out R key hkey hindy htime hread
    (by
      intro st hst zs z1 z2
      rw [hscore st hst zs z1 z2]
      simp) pre post extra x y st a b "DIFF_SIG" name C h hne i hi rows₁ rows₂ hr₁ hr₂ hn
  refine ⟨hex, fun n o hno hpt => ⟨hempty, (hrow n o hno hpt).1, fun h0 => ?_⟩⟩
  obtain ⟨st₁, st₂, w₁, w₂, ⟨hst₁, hst₂⟩, ⟨e₁, e₂⟩, hc₁, hc₂, ⟨d₁, v₁, x₁, sd₁, sv₁, sw₁, sx₁⟩, ⟨d₂, v₂, x₂, sd₂, sv₂, sw₂, sx₂⟩,
    hsig, -⟩ := (hrow n o hno hpt).2 h0
  obtain ⟨xv, hb⟩ := hsig rfl
  have hw : ∀ r ∈ rows₁ ++ rows₂, r.length = f.cols.length := by
    intro r hr
    rcases List.mem_append.mp hr with h | h
    · exact R.input.wf r (hs₁ r h)
    · exact R.input.wf r (hs₂ r h)
  have h0' : rows₂ ≠ [] := fun h => h0 (hempty.mpr h)
  have hval : ∀ {rows d : List (List Val)} {v w : PyNum} {x : Option ℚ}, (∀ r ∈ rows, r ∈ f.rows) → rows ≠ [] →
      sortData ⟨f.cols, G⟩ rows = .ok d → statOf (lower st) d = .ok v → w = toPyNum x → x = v.cell →
      ∀ a, sortData ⟨f.cols, G⟩ rows = .ok a → statOf (lower st) a = .ok w := by
    intro rows d v w x hr hne hd hv hw hx a ha
    obtain rfl : d = a := Except.ok.inj (hd.symm.trans ha)
    have hpd := sortData_mem hd
    have := hscore st C.first.2.2.1 d (hpd.2 hne) (fun r hr' => hr r (hpd.1 r hr'))
    rw [this] at hv ⊢
    obtain rfl := Except.ok.inj hv
    rw [hw, hx]
    cases score (lower st) d <;> rfl
  obtain ⟨a₁, a₂, p₁, p₂, hcs, reps, hreps, hci, hmiss, hvalue⟩ := C172_value_partial statOf etb s ⟨f.cols, G⟩ (lower st) rows₁ rows₂
    (draws₁ n rows₁.length) st₁ st₂ k w₁ w₂ _ _ score
    (fun zs z1 z2 => hscore st₁ hst₁ zs z1 (fun r hr => hs₁ r (z2 r hr)))
    (fun zs z1 z2 => hscore st₂ hst₂ zs z1 (fun r hr => hs₂ r (z2 r hr)))
    R.statistic h0 hw hc₁ hc₂ hcases (hdraw _ _)
    (by rw [e₁]; exact hval hs₁ h0 sd₁ sv₁ sw₁ (sx₁ hm)) (by rw [e₂]; exact hval hs₂ h0' sd₂ sv₂ sw₂ (sx₂ hm)) hb
  rw [e₁, e₂] at hreps hci hmiss hvalue
  have hfm : reps = ((draws₁ n rows₁.length).map (fun row =>
      diffCell (score (lower st) (pick a₁ (positionsUsed (if s.cbb then Nat.sqrt rows₁.length else 1) row)))
        (score (lower st) (pick a₂ (positionsUsed (if s.cbb then Nat.sqrt rows₁.length else 1) row))))).filterMap id := by
    rw [hreps, List.filterMap_map]
    rfl
  rw [hfm] at hmiss hvalue
  exact ⟨a₁, a₂, p₁, p₂, hcs, _, xv, rfl, hci, hmiss, hvalue⟩

/-- The number of a statistic, nothing if there is none. -/
def numberOf (r : Except PyErr PyNum) : Option ℚ :=
  match r with
  | .ok (.num q) => some q
  | _ => none

theorem numberOf_ok {r : Except PyErr PyNum} {q : ℚ} (h : r = .ok (.num q)) : r = .ok (asPyNum (numberOf r)) := by
  rw [h]
  rfl

/-- C266, for mean errors and mean squared errors of SL1L2 lines: the lines of the two series can be listed in pairs of the same
time and lead.  With `q₁` and `q₂` the scores of the pooled matched pairs of both sides and the differences of the scores of both
sides of as many pairs of lines drawn with repetition, the row shows the share of these differences that are not farther from
their mean than `q₁ - q₂` is from zero, between 0 and 1, with a minus sign exactly if the score of the first series is larger in
size. -/
theorem C266_sl1l2 (etb : List PyNum → List PyNum → PyNum) (s : BootSettings) (hm : s.method ≠ .other)
    (draws₁ draws₂ : ℕ → ℕ → List (List ℕ)) (k : ℕ) (hk : 0 < k) (hdraw : ∀ i n, IndexMatrix n k (draws₁ i n))
    (out : List BootOut) (R : OneAxisRun f p init sv parts fix fv sts rest) (key : List Val → String)
    (hkey : ∀ r ∈ f.rows, IsCaseKey f p.indyVar true r (key r)) (hindy : CaseFixesIndependent f p.indyVar key)
    (htime : CaseFixesTime f key) (hread : ∀ x ∈ init ++ [sv], ∀ v ∈ x.2, ∀ w ∈ parts v, ReadAlike w)
    (pairs : List Val → List Pair) (L : Sl1l2Lines f pairs)
    (hs : ∀ st ∈ p.axis₁.stats, lower st ∈ ["fbar", "obar", "fobar", "ffbar", "oobar", "me", "mse", "bcmse"])
    (pre post extra : List String) (x y st a b name : String) (hst : lower st ∈ ["me", "mse", "bcmse"])
    (C : CurveNamed (p.config p.axis₁) pre post extra x y st a b "DIFF_SIG" name)
    (h : bootRun (preparedStat .sl1l2 f) etb s draws₁ draws₂ f p = .ok out) (hne : out ≠ []) (i : String) (hi : i ∈ p.indyVals)
    (rows₁ rows₂ : List (List Val))
    (hr₁ : rows₁ = comparedRows f (init ++ [sv]) parts fix fv p.indyVar key (pre ++ x :: post) i st)
    (hr₂ : rows₂ = comparedRows f (init ++ [sv]) parts fix fv p.indyVar key (pre ++ y :: post) i st)
    (hn : (rows₁.map key).Nodup ∧ (rows₂.map key).Nodup) (o : BootOut) (ho : o ∈ out)
    (hpt : o.point = pre ++ name :: post ++ [i, st]) (hr : rows₁ ≠ [])
    (score : List (List Val × List Val) → ℚ → ℚ → Prop)
    (hscore : score = fun ps q₁ q₂ => PoolScore (lower st) (ps.flatMap (fun z => pairs z.1)) (.num q₁) ∧
      PoolScore (lower st) (ps.flatMap (fun z => pairs z.2)) (.num q₂)) :
    ∃ (ps : List (List Val × List Val)) (q₁ q₂ : ℚ), (ps.map Prod.fst).Perm rows₁ ∧ (ps.map Prod.snd).Perm rows₂ ∧
      (∀ z ∈ ps, caseOf f z.1 = caseOf f z.2) ∧ score ps q₁ q₂ ∧
      ∃ (sims : List (List (List Val × List Val))) (diffs : List ℚ), sims.length = k ∧
        (∀ zs ∈ sims, zs.length = ps.length ∧ ∀ z ∈ zs, z ∈ ps) ∧
        List.Forall₂ (fun zs d => ∃ u₁ u₂, score zs u₁ u₂ ∧ d = u₁ - u₂) sims diffs ∧
        (0 ≤ confidenceShare diffs (q₁ - q₂) ∧ confidenceShare diffs (q₁ - q₂) ≤ 1) ∧
        o.value = .num (if |q₁| > |q₂| then -confidenceShare diffs (q₁ - q₂) else confidenceShare diffs (q₁ - q₂)) := by
  have hst' : st ∈ p.axis₁.stats := C.first.2.2.1
  obtain ⟨n, hno⟩ := List.getElem?_of_mem ho
  obtain ⟨-, hall⟩ := C266_significance (preparedStat .sl1l2 f) etb s hm draws₁ draws₂ k hdraw out R key hkey hindy htime hread
    (fun st zs => numberOf (preparedStat .sl1l2 f st zs))
    (by
      intro st hst zs z1 z2
      obtain ⟨v, hv, -⟩ := prepared_num L z1 z2 (hs st hst)
      exact numberOf_ok hv) pre post extra x y st a b name C h hne i hi rows₁ rows₂ hr₁ hr₂ hn
  obtain ⟨-, -, hshow⟩ := hall n o hno hpt
  obtain ⟨a₁, a₂, p₁, p₂, hcs, diffs, w, hdiffs, -, -, hvalue⟩ := hshow hr
  have hs₁ : ∀ r ∈ rows₁, r ∈ f.rows := by rw [hr₁]; exact comparedRows_sub
  have hs₂ : ∀ r ∈ rows₂, r ∈ f.rows := by rw [hr₂]; exact comparedRows_sub
  have hlen : a₁.length = a₂.length := by simpa using congrArg List.length hcs
  have f1 : (a₁.zip a₂).map Prod.fst = a₁ := List.map_fst_zip (by omega)
  have f2 : (a₁.zip a₂).map Prod.snd = a₂ := List.map_snd_zip (by omega)
  have hsc : ∀ ps : List (List Val × List Val), ps ≠ [] → (∀ z ∈ ps, z ∈ a₁.zip a₂) → ∃ v₁ v₂ : ℚ,
      numberOf (preparedStat .sl1l2 f (lower st) (ps.map Prod.fst)) = some v₁ ∧
      numberOf (preparedStat .sl1l2 f (lower st) (ps.map Prod.snd)) = some v₂ ∧ score ps v₁ v₂ := by
    intro ps hps hsub
    obtain ⟨v₁, e₁, g₁⟩ := prepared_num L (zs := ps.map Prod.fst) (by simpa using hps) (by
      intro r hr
      obtain ⟨z, hz, rfl⟩ := List.mem_map.mp hr
      exact hs₁ _ (p₁.mem_iff.mp (f1 ▸ List.mem_map_of_mem (hsub z hz)))) (hs st hst')
    obtain ⟨v₂, e₂, g₂⟩ := prepared_num L (zs := ps.map Prod.snd) (by simpa using hps) (by
      intro r hr
      obtain ⟨z, hz, rfl⟩ := List.mem_map.mp hr
      exact hs₂ _ (p₂.mem_iff.mp (f2 ▸ List.mem_map_of_mem (hsub z hz)))) (hs st hst')
    rw [List.flatMap_map] at g₁ g₂
    refine ⟨v₁, v₂, by rw [e₁]; rfl, by rw [e₂]; rfl, ?_⟩
    rw [hscore]
    exact ⟨g₁, g₂⟩
  have hane : a₁ ≠ [] := by rintro rfl; exact hr (List.nil_perm.mp p₁)
  have hzne : a₁.zip a₂ ≠ [] := by
    intro h0
    rw [h0] at f1
    exact hane f1.symm
  have hzl : (a₁.zip a₂).length = rows₁.length := by rw [← p₁.length_eq, ← f1]; simp
  have hid := hdraw n rows₁.length
  obtain ⟨q₁, q₂, hq₁, hq₂, hq⟩ := hsc _ hzne (fun _ h => h)
  rw [f1] at hq₁
  rw [f2] at hq₂
  -- the replicates
  have hreps : ∀ l : List (List ℕ), (∀ row ∈ l, row ∈ draws₁ n rows₁.length) → ∃ ds : List ℚ,
      l.map (fun row => diffCell (numberOf (preparedStat .sl1l2 f (lower st)
          (pick a₁ (positionsUsed (if s.cbb then Nat.sqrt rows₁.length else 1) row))))
        (numberOf (preparedStat .sl1l2 f (lower st)
          (pick a₂ (positionsUsed (if s.cbb then Nat.sqrt rows₁.length else 1) row))))) = ds.map some ∧
      List.Forall₂ (fun zs d => ∃ u₁ u₂, score zs u₁ u₂ ∧ d = u₁ - u₂)
        (l.map (fun row => pick (a₁.zip a₂) (positionsUsed (if s.cbb then Nat.sqrt rows₁.length else 1) row))) ds := by
    intro l
    induction l with
    | nil => intro _; exact ⟨[], rfl, .nil⟩
    | cons row l ih =>
      intro hl
      obtain ⟨ds, e, hf⟩ := ih (fun r hr => hl r (by simp [hr]))
      have hrow := hl row (by simp)
      obtain ⟨u₁, u₂, h₁, h₂, hu⟩ := hsc (pick (a₁.zip a₂) (positionsUsed (if s.cbb then Nat.sqrt rows₁.length else 1) row))
        (pick_ne hzne _ (by rw [hzl]; exact (hid.2 row hrow).1) (by rw [hzl]; exact (hid.2 row hrow).2)) (fun z hz => pick_mem hz)
      rw [pick_map, f1] at h₁
      rw [pick_map, f2] at h₂
      refine ⟨(u₁ - u₂) :: ds, ?_, .cons ⟨u₁, u₂, hu, rfl⟩ hf⟩
      rw [List.map_cons, e, h₁, h₂]
      rfl
  obtain ⟨ds, hds, hf⟩ := hreps _ (fun _ h => h)
  have hfm : diffs.filterMap id = ds := by
    rw [hdiffs, hds, List.filterMap_map]
    simp
  have hdl : ds.length = k := by
    have := hf.length_eq
    rw [List.length_map, hid.1] at this
    exact this.symm
  have hdne : ds ≠ [] := by
    rintro rfl
    simp at hdl
    omega
  have hperf : PerfectScore (upper (lower st)) (some 0) := by
    simp only [List.mem_cons, List.not_mem_nil, or_false] at hst
    rcases hst with h | h | h <;> rw [h] <;> exact .error (by decide +kernel)
  have hv := (hvalue q₁ q₂ hq₁ hq₂ (by rw [hfm]; exact hdne)).2 0 hperf
  rw [hfm, sub_zero, sub_zero] at hv
  obtain ⟨b1, -, b2⟩ := C172_bounds ds (q₁ - q₂) (q₁ - q₂) hdne le_rfl
  refine ⟨a₁.zip a₂, q₁, q₂, by rw [f1]; exact p₁, by rw [f2]; exact p₂, ?_, hq, _, ds, by rw [List.length_map]; exact hid.1, ?_,
    hf, ⟨b1, b2⟩, hv⟩
  · intro z hz
    obtain ⟨j, hj⟩ := List.getElem?_of_mem hz
    rw [List.getElem?_zip_eq_some] at hj
    have := congrArg (fun l => l[j]?) hcs
    simp only [List.getElem?_map, hj.1, hj.2, Option.map_some, Option.some.injEq] at this
    exact this
  · intro zs hz
    obtain ⟨row, hrow, rfl⟩ := List.mem_map.mp hz
    exact ⟨pick_length (by rw [hzl]; exact (hid.2 row hrow).1) (by rw [hzl]; exact (hid.2 row hrow).2), fun z hz => pick_mem hz⟩

/-! ### Example -/

/-- The significance of the difference of the mean errors of two models. -/
def exSigParams : AggParams :=
  { exSlParams with axis₁ := ⟨[("model", ["A", "B"])], ["ME", "OBAR"], [["A TMP ME", "B TMP ME", "DIFF_SIG"]],
      [("TMP", ["ME", "OBAR"])]⟩ }

theorem exSig_input :
    OneAxisRun exSlFrame exSigParams [] ("model", ["A", "B"]) (fun v => [v]) [] "TMP" ["ME", "OBAR"] [] where
  input := exDiff_input.input
  forecast := exDiff_input.forecast
  statistic := exDiff_input.statistic
  on := rfl
  series := rfl
  second := rfl
  fixed := rfl
  names := exDiff_input.names
  columns := exDiff_input.columns
  groups := exDiff_input.groups
  texts := exDiff_input.texts
  fcst := rfl
  pairs := exDiff_input.pairs
  stats := exDiff_input.stats
  indy := exDiff_input.indy
  somestat := exDiff_input.somestat
  distinct := exDiff_input.distinct
  plain := exDiff_input.plain

theorem exSig_curve : CurveNamed (exSigParams.config exSigParams.axis₁) [] [] ["TMP"] "A" "B" "ME"
    "A TMP ME" "B TMP ME" "DIFF_SIG" "DIFF_SIG(A TMP ME-B TMP ME)" where
  requested := by decide
  named := by decide +kernel
  only := by decide +kernel
  first := by unfold SeriesText; decide +kernel
  second := by unfold SeriesText; decide +kernel
  differs := ⟨[], "model", ["A", "B"], [], rfl, .nil, .nil, by decide, by decide, Or.inr rfl⟩
  disjoint := by decide
  groups := by decide

/-- Of the three differences drawn one is not farther from their mean than the difference of the models from zero.  The limits
are those of the difference; the significance is not between them. -/
theorem exSig_boot : bootRun (preparedStat .sl1l2 exSlFrame) (fun _ _ => .none) ⟨1 / 2, .perc, false⟩ threeDraws threeDraws
    exSlFrame exSigParams = .ok
    [⟨["A", "6", "ME"], some "TMP", .num 1, none, none, 2⟩, ⟨["A", "6", "OBAR"], some "TMP", .num 2, none, none, 2⟩,
     ⟨["B", "6", "ME"], some "TMP", .num 2, some (1 / 10), some (29 / 5), 2⟩,
     ⟨["B", "6", "OBAR"], some "TMP", .num 2, none, none, 2⟩,
     ⟨["DIFF_SIG(A TMP ME-B TMP ME)", "6", "ME"], some "TMP", .num (1 / 3), some (-3), some 0, 0⟩] := by decide +kernel

example := C266_significance (preparedStat .sl1l2 exSlFrame) (fun _ _ => .none) ⟨1 / 2, .perc, false⟩ (by decide) threeDraws threeDraws
  3 threeDraws_ok _ exSig_input exRunKey exSl_key exSl_indy exSl_time exSl_read
  (fun st zs => numberOf (preparedStat .sl1l2 exSlFrame st zs)) (by
    intro st hst zs z1 z2
    obtain ⟨v, hv, -⟩ := prepared_num exSl_lines z1 z2 (st := lower st) (by revert st; decide +kernel)
    exact numberOf_ok hv) [] [] ["TMP"] "A" "B" "ME" "A TMP ME" "B TMP ME" "DIFF_SIG(A TMP ME-B TMP ME)"
  exSig_curve exSig_boot (by simp) "6" (by decide) _ _ rfl rfl ⟨exDiff_once "A" (Or.inl rfl), exDiff_once "B" (Or.inr rfl)⟩

example := C266_sl1l2 (fun _ _ => .none) ⟨1 / 2, .perc, false⟩ (by decide) threeDraws threeDraws 3 (by decide) threeDraws_ok _
    exSig_input exRunKey exSl_key exSl_indy exSl_time exSl_read
    exLinePairs exSl_lines (by decide +kernel) [] [] ["TMP"] "A" "B" "ME" "A TMP ME" "B TMP ME" "DIFF_SIG(A TMP ME-B TMP ME)"
    (by decide +kernel) exSig_curve exSig_boot (by simp) "6" (by decide) _ _ rfl rfl
    ⟨exDiff_once "A" (Or.inl rfl), exDiff_once "B" (Or.inr rfl)⟩
    ⟨["DIFF_SIG(A TMP ME-B TMP ME)", "6", "ME"], some "TMP", .num (1 / 3), some (-3), some 0, 0⟩ (by simp) rfl exDiff_some _ rfl

end Metcalcpy.Props
