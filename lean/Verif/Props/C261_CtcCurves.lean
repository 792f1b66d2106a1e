/-
C261 on CTC lines: limits of derived curves of contingency scores.
-/
import Verif.Props.C261_CurveLimits
import Verif.Props.C262_BootCompletes

namespace Metcalcpy.Props

open Metcalcpy Spec

variable {f : Frame} {p : AggParams} {init : List (String × List String)} {sv : String × List String}
  {parts : String → List String} {fix : List (String × List String)} {fv : String} {sts : List String}
  {rest : List (String × List String)}

/-- The value of a curve from the scores of its two series: missing if one of them is. -/
def CurveOf (op : String) (u₁ u₂ : PyNum) (v : Option ℚ) : Prop :=
  (∀ q₁ q₂, u₁ = .num q₁ → u₂ = .num q₂ → v = derivedOf op q₁ q₂) ∧ (u₁ = .none ∨ u₂ = .none → v = none)

/-- C261 for any statistic whose values satisfy `P`. -/
theorem curve_scores (statOf : String → List (List Val) → Except PyErr PyNum) (P : String → List (List Val) → PyNum → Prop)
    (etb : List PyNum → List PyNum → PyNum) (s : BootSettings) (hm : s.method ≠ .other)
    (draws₁ draws₂ : ℕ → ℕ → List (List ℕ)) (k : ℕ) (hdraw : ∀ i n, IndexMatrix n k (draws₁ i n))
    (out : List BootOut) (R : OneAxisRun f p init sv parts fix fv sts rest) (key : List Val → String)
    (hkey : ∀ r ∈ f.rows, IsCaseKey f p.indyVar true r (key r)) (hindy : CaseFixesIndependent f p.indyVar key)
    (htime : CaseFixesTime f key) (hread : ∀ x ∈ init ++ [sv], ∀ v ∈ x.2, ∀ w ∈ parts v, ReadAlike w)
    (hP : ∀ st ∈ p.axis₁.stats, ∀ zs v, zs ≠ [] → (∀ r ∈ zs, r ∈ f.rows) → statOf (lower st) zs = .ok v → P (lower st) zs v)
    (hk : ∀ st ∈ p.axis₁.stats, ∀ zs, zs ≠ [] → (∀ r ∈ zs, r ∈ f.rows) → statOf (lower st) zs ≠ .error .keyError)
    (pre post extra : List String) (x y st a b op name : String)
    (C : CurveRequest (p.config p.axis₁) pre post extra x y st a b op name)
    (h : bootRun statOf etb s draws₁ draws₂ f p = .ok out) (hne : out ≠ []) (i : String) (hi : i ∈ p.indyVals)
    (rows₁ rows₂ : List (List Val))
    (hr₁ : rows₁ = comparedRows f (init ++ [sv]) parts fix fv p.indyVar key (pre ++ x :: post) i st)
    (hr₂ : rows₂ = comparedRows f (init ++ [sv]) parts fix fv p.indyVar key (pre ++ y :: post) i st)
    (hn : (rows₁.map key).Nodup ∧ (rows₂.map key).Nodup) (o : BootOut) (ho : o ∈ out)
    (hpt : o.point = pre ++ name :: post ++ [i, st]) (hr : rows₁ ≠ [])
    (score : List (List Val × List Val) → Option ℚ → Prop)
    (hscore : score = fun ps v => ∃ u₁ u₂, P (lower st) (ps.map Prod.fst) u₁ ∧ P (lower st) (ps.map Prod.snd) u₂ ∧
      CurveOf op u₁ u₂ v) :
    ∃ ps : List (List Val × List Val), (ps.map Prod.fst).Perm rows₁ ∧ (ps.map Prod.snd).Perm rows₂ ∧
      (∀ z ∈ ps, caseOf f z.1 = caseOf f z.2) ∧ score ps o.value.cell ∧
      ∃ (sims : List (List (List Val × List Val))) (dist : List (Option ℚ)), sims.length = k ∧
        (∀ zs ∈ sims, zs.length = ps.length ∧ ∀ z ∈ zs, z ∈ ps) ∧ List.Forall₂ score sims dist ∧
        confidenceInterval dist o.value.cell s.alpha s.method = .ok ⟨o.lower, o.value.cell, o.upper⟩ := by
  have hst : st ∈ p.axis₁.stats := C.first.2.2.1
  obtain ⟨n, hno⟩ := List.getElem?_of_mem ho
  obtain ⟨-, hall⟩ := C261_curve_limits statOf etb s draws₁ draws₂ k hdraw out R key hkey hindy htime hread hk
    pre post extra x y st a b op name C h hne i hi rows₁ rows₂ hr₁ hr₂ hn
  obtain ⟨-, -, hshow⟩ := hall n o hno hpt
  obtain ⟨a₁, a₂, p₁, p₂, hcs, v, dist, w, hov, hwv, hd, hf, hc⟩ := hshow hr
  have hw := hwv hm
  subst hw
  have hs₁ : ∀ r ∈ rows₁, r ∈ f.rows := by rw [hr₁]; exact comparedRows_sub
  have hs₂ : ∀ r ∈ rows₂, r ∈ f.rows := by rw [hr₂]; exact comparedRows_sub
  have hlen : a₁.length = a₂.length := by simpa using congrArg List.length hcs
  have hcell : o.value.cell = w := by rw [hov]; cases w <;> rfl
  have f1 : (a₁.zip a₂).map Prod.fst = a₁ := List.map_fst_zip (by omega)
  have f2 : (a₁.zip a₂).map Prod.snd = a₂ := List.map_snd_zip (by omega)
  have hop : op ≠ "DIFF_SIG" := by rcases C.operation with h | h | h | h <;> rw [h] <;> decide
  have hsc : ∀ ps : List (List Val × List Val), ps ≠ [] → (∀ z ∈ ps, z ∈ a₁.zip a₂) → ∀ z,
      IsDerived statOf op (lower st) (lower st) (ps.map Prod.fst) (ps.map Prod.snd) z → score ps z := by
    intro ps hps hsub z hz
    obtain ⟨u₁, u₂, b₁, b₂, b₃, b₄⟩ := hz
    rw [if_neg hop] at b₃
    rw [hscore]
    refine ⟨u₁, u₂, hP st hst _ _ (by simpa using hps) ?_ b₁, hP st hst _ _ (by simpa using hps) ?_ b₂, b₃, b₄⟩
    · intro r hr
      obtain ⟨z, hz, rfl⟩ := List.mem_map.mp hr
      exact hs₁ _ (p₁.mem_iff.mp (f1 ▸ List.mem_map_of_mem (hsub z hz)))
    · intro r hr
      obtain ⟨z, hz, rfl⟩ := List.mem_map.mp hr
      exact hs₂ _ (p₂.mem_iff.mp (f2 ▸ List.mem_map_of_mem (hsub z hz)))
  have hane : a₁ ≠ [] := by rintro rfl; exact hr (List.nil_perm.mp p₁)
  have hzne : a₁.zip a₂ ≠ [] := by
    intro h0
    rw [h0] at f1
    exact hane f1.symm
  have hzl : (a₁.zip a₂).length = rows₁.length := by rw [← p₁.length_eq, ← f1]; simp
  have hid := hdraw n rows₁.length
  refine ⟨a₁.zip a₂, by rw [f1]; exact p₁, by rw [f2]; exact p₂, ?_, by
    rw [hcell]; exact hsc _ hzne (fun _ h => h) w (by rw [f1, f2]; exact hd),
    (draws₁ n rows₁.length).map (fun row => pick (a₁.zip a₂) (positionsUsed (if s.cbb then Nat.sqrt rows₁.length else 1) row)),
    dist, by rw [List.length_map]; exact hid.1, ?_, ?_, by rw [hcell]; exact hc⟩
  · intro z hz
    obtain ⟨j, hj⟩ := List.getElem?_of_mem hz
    rw [List.getElem?_zip_eq_some] at hj
    have := congrArg (fun l => l[j]?) hcs
    simp only [List.getElem?_map, hj.1, hj.2, Option.map_some, Option.some.injEq] at this
    exact this
  · intro zs hz
    obtain ⟨row, hrow, rfl⟩ := List.mem_map.mp hz
    exact ⟨pick_length (by rw [hzl]; exact (hid.2 row hrow).1) (by rw [hzl]; exact (hid.2 row hrow).2), fun z hz => pick_mem hz⟩
  · rw [List.forall₂_map_left_iff]
    refine forall₂_imp_left hf ?_
    rintro row z hrow ⟨K, rfl, -, -, hz⟩
    refine hsc _ (pick_ne hzne _ (by rw [hzl]; exact (hid.2 row hrow).1) (by rw [hzl]; exact (hid.2 row hrow).2))
      (fun z hz => pick_mem hz) z ?_
    rw [pick_map, pick_map, f1, f2]
    exact hz

/-- C261, for a run on CTC lines: the lines of the two series can be listed in pairs of the same time and lead.  The value of
the curve is computed from the scores of the summed counts of both sides (missing if one of them is); every replicate is
computed from the scores of both sides of as many pairs of lines, drawn with repetition; the limits are those of the
replicates for the requested alpha and method. -/
theorem C261_ctc (etb : List PyNum → List PyNum → PyNum) (s : BootSettings) (hm : s.method ≠ .other)
    (draws₁ draws₂ : ℕ → ℕ → List (List ℕ)) (k : ℕ) (hdraw : ∀ i n, IndexMatrix n k (draws₁ i n))
    (out : List BootOut) (R : OneAxisRun f p init sv parts fix fv sts rest) (key : List Val → String)
    (hkey : ∀ r ∈ f.rows, IsCaseKey f p.indyVar true r (key r)) (hindy : CaseFixesIndependent f p.indyVar key)
    (htime : CaseFixesTime f key) (hread : ∀ x ∈ init ++ [sv], ∀ v ∈ x.2, ∀ w ∈ parts v, ReadAlike w)
    (counts : List Val → Ctc) (L : CtcLines f counts)
    (hs : ∀ st ∈ p.axis₁.stats, lower st ∈ ["baser", "acc", "fbias", "fmean", "pody", "pofd", "podn", "far", "csi", "orss", "gss",
      "hss", "hk", "odds", "odds1"])
    (pre post extra : List String) (x y st a b op name : String)
    (C : CurveRequest (p.config p.axis₁) pre post extra x y st a b op name)
    (h : bootRun (preparedStat .ctc f) etb s draws₁ draws₂ f p = .ok out) (hne : out ≠ []) (i : String) (hi : i ∈ p.indyVals)
    (rows₁ rows₂ : List (List Val))
    (hr₁ : rows₁ = comparedRows f (init ++ [sv]) parts fix fv p.indyVar key (pre ++ x :: post) i st)
    (hr₂ : rows₂ = comparedRows f (init ++ [sv]) parts fix fv p.indyVar key (pre ++ y :: post) i st)
    (hn : (rows₁.map key).Nodup ∧ (rows₂.map key).Nodup) (o : BootOut) (ho : o ∈ out)
    (hpt : o.point = pre ++ name :: post ++ [i, st]) (hr : rows₁ ≠ [])
    (countScore : List (List Val) → PyNum → Prop)
    (hcount : countScore = fun zs v => CountScore (lower st) (pooledCounts (zs.map counts)) v ∧
      ComposedScore (lower st) (pooledCounts (zs.map counts)) v)
    (score : List (List Val × List Val) → Option ℚ → Prop)
    (hscore : score = fun ps v => ∃ u₁ u₂, countScore (ps.map Prod.fst) u₁ ∧ countScore (ps.map Prod.snd) u₂ ∧
      CurveOf op u₁ u₂ v) :
    ∃ ps : List (List Val × List Val), (ps.map Prod.fst).Perm rows₁ ∧ (ps.map Prod.snd).Perm rows₂ ∧
      (∀ z ∈ ps, caseOf f z.1 = caseOf f z.2) ∧ score ps o.value.cell ∧
      ∃ (sims : List (List (List Val × List Val))) (dist : List (Option ℚ)), sims.length = k ∧
        (∀ zs ∈ sims, zs.length = ps.length ∧ ∀ z ∈ zs, z ∈ ps) ∧ List.Forall₂ score sims dist ∧
        confidenceInterval dist o.value.cell s.alpha s.method = .ok ⟨o.lower, o.value.cell, o.upper⟩ := by
  subst hcount
  exact curve_scores (preparedStat .ctc f)
    (fun s zs v => CountScore s (pooledCounts (zs.map counts)) v ∧ ComposedScore s (pooledCounts (zs.map counts)) v)
    etb s hm draws₁ draws₂ k hdraw out R key hkey hindy htime hread
    (fun st _ zs v z1 z2 hv => ⟨prepared_counts L z1 z2 hv, prepared_composed L z1 z2 hv⟩)
    (fun st hst zs z1 z2 => prepared_no_keyError L z1 z2 (hs st hst))
    pre post extra x y st a b op name C h hne i hi rows₁ rows₂ hr₁ hr₂ hn o ho hpt hr score hscore

/-- C261 for models verified against the same events: if lines of the same time and lead have the same number of observed
events and of pairs, the difference of two base rates is 0 in the table (or missing, without pairs) and has no limits. -/
theorem C261_same_events (etb : List PyNum → List PyNum → PyNum) (s : BootSettings) (hm : s.method = .perc)
    (draws₁ draws₂ : ℕ → ℕ → List (List ℕ)) (k : ℕ) (hdraw : ∀ i n, IndexMatrix n k (draws₁ i n))
    (out : List BootOut) (R : OneAxisRun f p init sv parts fix fv sts rest) (key : List Val → String)
    (hkey : ∀ r ∈ f.rows, IsCaseKey f p.indyVar true r (key r)) (hindy : CaseFixesIndependent f p.indyVar key)
    (htime : CaseFixesTime f key) (hread : ∀ x ∈ init ++ [sv], ∀ v ∈ x.2, ∀ w ∈ parts v, ReadAlike w)
    (counts : List Val → Ctc) (L : CtcLines f counts)
    (hs : ∀ st ∈ p.axis₁.stats, lower st ∈ ["baser", "acc", "fbias", "fmean", "pody", "pofd", "podn", "far", "csi", "orss", "gss",
      "hss", "hk", "odds", "odds1"])
    (hobs : ∀ r ∈ f.rows, ∀ r' ∈ f.rows, caseOf f r = caseOf f r' →
      (counts r).hits + (counts r).misses = (counts r').hits + (counts r').misses ∧ (counts r).total = (counts r').total)
    (pre post extra : List String) (x y st a b name : String)
    (C : CurveRequest (p.config p.axis₁) pre post extra x y st a b "DIFF" name)
    (h : bootRun (preparedStat .ctc f) etb s draws₁ draws₂ f p = .ok out) (hne : out ≠ []) (i : String) (hi : i ∈ p.indyVals)
    (rows₁ rows₂ : List (List Val))
    (hr₁ : rows₁ = comparedRows f (init ++ [sv]) parts fix fv p.indyVar key (pre ++ x :: post) i st)
    (hr₂ : rows₂ = comparedRows f (init ++ [sv]) parts fix fv p.indyVar key (pre ++ y :: post) i st)
    (hn : (rows₁.map key).Nodup ∧ (rows₂.map key).Nodup) (o : BootOut) (ho : o ∈ out)
    (hpt : o.point = pre ++ name :: post ++ [i, st]) (hr : rows₁ ≠ []) (hl : lower st = "baser") :
    (o.value.cell = some 0 ∨ o.value.cell = none) ∧ o.lower = none ∧ o.upper = none := by
  obtain ⟨ps, p₁, p₂, hcs, hsc, sims, dist, hlen, hsim, hf, hc⟩ := C261_ctc etb s (by rw [hm]; decide) draws₁ draws₂ k hdraw out
    R key hkey hindy htime hread counts L hs pre post extra x y st a b "DIFF" name C h hne i hi rows₁ rows₂ hr₁ hr₂ hn o ho hpt hr
    _ rfl _ rfl
  have hs₁ : ∀ r ∈ rows₁, r ∈ f.rows := by rw [hr₁]; exact comparedRows_sub
  have hs₂ : ∀ r ∈ rows₂, r ∈ f.rows := by rw [hr₂]; exact comparedRows_sub
  have hzero : ∀ (zs : List (List Val × List Val)) (v : Option ℚ), (∀ z ∈ zs, z ∈ ps) →
      (∃ u₁ u₂, (CountScore (lower st) (pooledCounts ((zs.map Prod.fst).map counts)) u₁ ∧
          ComposedScore (lower st) (pooledCounts ((zs.map Prod.fst).map counts)) u₁) ∧
        (CountScore (lower st) (pooledCounts ((zs.map Prod.snd).map counts)) u₂ ∧
          ComposedScore (lower st) (pooledCounts ((zs.map Prod.snd).map counts)) u₂) ∧ CurveOf "DIFF" u₁ u₂ v) →
      v = none ∨ v = some 0 := by
    rintro zs v hsub ⟨u₁, u₂, ⟨g₁, -⟩, ⟨g₂, -⟩, hv⟩
    have hsums : (zs.map fun z => (counts z.1).hits + (counts z.1).misses) =
        (zs.map fun z => (counts z.2).hits + (counts z.2).misses) ∧
        (zs.map fun z => (counts z.1).total) = (zs.map fun z => (counts z.2).total) := by
      have hz : ∀ z ∈ zs, _ := fun z hz => hobs z.1 (hs₁ _ (p₁.mem_iff.mp (List.mem_map_of_mem (hsub z hz)))) z.2
        (hs₂ _ (p₂.mem_iff.mp (List.mem_map_of_mem (hsub z hz)))) (hcs z (hsub z hz))
      exact ⟨List.map_congr_left (fun z h => (hz z h).1), List.map_congr_left (fun z h => (hz z h).2)⟩
    have hsum : ∀ (F G : List Val × List Val → ℚ) (l : List (List Val × List Val)),
        (l.map F).sum + (l.map G).sum = (l.map fun z => F z + G z).sum := by
      intro F G l
      induction l with
      | nil => simp
      | cons z l ih => simp only [List.map_cons, List.sum_cons, ← ih]; ring
    have hu : u₁ = u₂ := by
      have r₁ := g₁.baser hl
      have r₂ := g₂.baser hl
      have e : baserRatio (pooledCounts ((zs.map Prod.fst).map counts)).hits (pooledCounts ((zs.map Prod.fst).map counts)).misses
            (pooledCounts ((zs.map Prod.fst).map counts)).total =
          baserRatio (pooledCounts ((zs.map Prod.snd).map counts)).hits (pooledCounts ((zs.map Prod.snd).map counts)).misses
            (pooledCounts ((zs.map Prod.snd).map counts)).total := by
        unfold baserRatio pooledCounts
        simp only [List.map_map, Function.comp_def]
        rw [hsum, hsum, hsums.1, hsums.2]
      rw [e] at r₁
      by_cases h0 : (baserRatio (pooledCounts ((zs.map Prod.snd).map counts)).hits
          (pooledCounts ((zs.map Prod.snd).map counts)).misses (pooledCounts ((zs.map Prod.snd).map counts)).total).den = 0
      · rw [r₁.1 h0, r₂.1 h0]
      · rw [r₁.2 h0, r₂.2 h0]
    subst hu
    have hcase : u₁ = .none ∨ ∃ q, u₁ = .num q := by
      have r₁ := g₁.baser hl
      by_cases h0 : (baserRatio (pooledCounts ((zs.map Prod.fst).map counts)).hits
          (pooledCounts ((zs.map Prod.fst).map counts)).misses (pooledCounts ((zs.map Prod.fst).map counts)).total).den = 0
      · exact .inl (r₁.1 h0)
      · exact .inr ⟨_, r₁.2 h0⟩
    rcases hcase with h0 | ⟨q, h0⟩
    · exact .inl (hv.2 (.inl h0))
    · right
      rw [hv.1 q q h0 h0]
      simp [derivedOf]
  have hv := hzero ps _ (fun _ h => h) hsc
  have hd : ∀ d ∈ dist, d = none ∨ d = some 0 := by
    intro d hd
    obtain ⟨zs, hz, e⟩ := forall₂_right_mem hf hd
    exact hzero zs d (hsim zs hz).2 e
  rcases hv with hv | hv
  · refine ⟨.inr hv, ?_⟩
    rw [hv] at hc
    simp only [confidenceInterval, mkBoot, Except.ok.injEq, BootResult.mk.injEq] at hc
    exact ⟨hc.1.symm, hc.2.2.symm⟩
  · refine ⟨.inl hv, ?_⟩
    by_cases hne : some 0 ∈ dist
    · rw [hv, hm, (C31_no_bounds dist s.alpha 0 0 .perc).2 hd hne] at hc
      simp only [Except.ok.injEq, BootResult.mk.injEq] at hc
      exact ⟨hc.1.symm, hc.2.2.symm⟩
    · have hfm : dist.filterMap id = [] := by
        by_contra h0
        obtain ⟨x, hx⟩ := filterMap_ne.mp h0
        rcases hd _ hx with h1 | h1
        · cases h1
        · exact hne (h1 ▸ hx)
      rw [hv, hm] at hc
      simp only [confidenceInterval, hfm, bind, Except.bind] at hc
      split at hc
      · simp only [mkBoot, Except.ok.injEq, BootResult.mk.injEq] at hc
        exact ⟨hc.1.symm, hc.2.2.symm⟩
      · cases he : percentile [] (s.alpha / 2) with
        | error e => rw [he] at hc; simp at hc
        | ok x => exact absurd he (percentile_empty _ x)

/-! ### Example -/

/-- In the tables of `exLines` a model has each case once if its lines do. -/
theorem exLines_once {cols : List String} {stat : String} {l : List (String × String × List ℚ)} (m i : String)
    (hm : ':' ∉ m.toList ∧ ';' ∉ m.toList ∧ PlainText m)
    (hn : (((exLines cols stat l).rows.filter (fun r => cellAt r 2 == .str m)).map exRunKey).Nodup) :
    ((comparedRows (exLines cols stat l) ([] ++ [("model", ["A", "B"])]) (fun v => [v]) [] "TMP" "fcst_lead" exRunKey
      ([] ++ m :: []) i stat).map exRunKey).Nodup := by
  classical
  refine List.Nodup.sublist (List.Sublist.map exRunKey ?_) hn
  unfold comparedRows
  apply List.monotone_filter_right
  intro r hr
  simp only [decide_eq_true_eq] at hr
  obtain ⟨⟨hr, -⟩, -⟩ := hr
  obtain ⟨v, hv, hc⟩ := hr ("model", m) (by simp [pointRequest]) (by simp [exLines])
  obtain ⟨w', hw', rfl⟩ := (cellAmong_text (plain_standsFor hm.1 hm.2.1) (by simpa using hm.2.2)).mp hc
  obtain rfl : w' = m := by simpa using hw'
  obtain ⟨j, hj1, hj2, hj3⟩ := hv
  have : j = 2 := by
    rcases lt_trichotomy j 2 with hlt | heq | hgt
    · obtain rfl | rfl : j = 0 ∨ j = 1 := by omega
      · simp [exLines] at hj1
      · simp [exLines] at hj1
    · exact heq
    · exact absurd rfl (hj2 2 hgt)
  subst this
  unfold cellAt
  rw [hj3]
  simp

/-- CTC lines of two models verified against the same events: 5 of 10 at t1, 1 of 10 at t3; model B has no line at t2. -/
def exBaser : Frame := exLines ["total", "fy_oy", "fy_on", "fn_oy", "fn_on", "ec_value"] "BASER"
  [("t1", "A", [10, 3, 1, 2, 4, 1/2]), ("t2", "A", [10, 9, 0, 0, 1, 1/2]), ("t1", "B", [10, 1, 1, 4, 4, 1/2]),
   ("t3", "A", [10, 1, 1, 0, 8, 1/2]), ("t3", "B", [10, 0, 2, 1, 7, 1/2])]

/-- The difference of both models. -/
def exBaserParams : AggParams :=
  { exSlParams with axis₁ := ⟨[("model", ["A", "B"])], ["BASER"], [["A TMP BASER", "B TMP BASER", "DIFF"]], [("TMP", ["BASER"])]⟩ }

theorem exBaser_plain : ':' ∉ "BASER".toList ∧ ';' ∉ "BASER".toList ∧ PlainText "BASER" :=
  ⟨by decide, by decide, plainText_of (by decide) (by decide) (by decide)⟩

theorem exBaser_input :
    OneAxisRun exBaser exBaserParams [] ("model", ["A", "B"]) (fun v => [v]) [] "TMP" ["BASER"] [] :=
  have I := exLines_input (cols := ["total", "fy_oy", "fy_on", "fn_oy", "fn_on", "ec_value"]) (stat := "BASER")
    (l := [("t1", "A", [10, 3, 1, 2, 4, 1/2]), ("t2", "A", [10, 9, 0, 0, 1, 1/2]), ("t1", "B", [10, 1, 1, 4, 4, 1/2]),
      ("t3", "A", [10, 1, 1, 0, 8, 1/2]), ("t3", "B", [10, 0, 2, 1, 7, 1/2])]) (by unfold FrameWF; decide +kernel) (by decide)
    exBaser_plain (by decide +kernel)
  { input := I.input
    forecast := I.forecast
    statistic := I.statistic
    on := rfl
    series := rfl
    second := rfl
    fixed := rfl
    names := I.names
    columns := I.columns
    groups := I.groups
    texts := I.texts
    fcst := rfl
    pairs := I.pairs
    stats := I.stats
    indy := I.indy
    somestat := I.somestat
    distinct := I.distinct
    plain := I.plain }

theorem exBaser_boot : bootRun (preparedStat .ctc exBaser) (fun _ _ => .none) ⟨1 / 2, .perc, false⟩ threeDraws threeDraws
    exBaser exBaserParams = .ok
    [⟨["A", "6", "BASER"], some "TMP", .num (3 / 10), some (11 / 100), some (49 / 100), 2⟩,
     ⟨["B", "6", "BASER"], some "TMP", .num (3 / 10), some (11 / 100), some (49 / 100), 2⟩,
     ⟨["DIFF(A TMP BASER-B TMP BASER)", "6", "BASER"], some "TMP", .num 0, none, none, 0⟩] := by decide +kernel

theorem exBaser_curve : CurveRequest (exBaserParams.config exBaserParams.axis₁) [] [] ["TMP"] "A" "B" "BASER"
    "A TMP BASER" "B TMP BASER" "DIFF" "DIFF(A TMP BASER-B TMP BASER)" where
  operation := Or.inl rfl
  requested := by decide
  named := by decide +kernel
  only := by decide +kernel
  first := by unfold SeriesText; decide +kernel
  second := by unfold SeriesText; decide +kernel
  differs := ⟨[], "model", ["A", "B"], [], rfl, .nil, .nil, by decide, by decide, Or.inr rfl⟩
  disjoint := by decide
  groups := by decide

theorem exBaser_lines : CtcLines exBaser exCounts :=
  ⟨exLines_number 6 rfl (by decide) (by decide +kernel), exLines_number 7 rfl (by decide) (by decide +kernel),
    exLines_number 8 rfl (by decide) (by decide +kernel), exLines_number 9 rfl (by decide) (by decide +kernel),
    exLines_number 5 rfl (by decide) (by decide +kernel)⟩

theorem exBaser_time : CaseFixesTime exBaser exRunKey := by
  unfold CaseFixesTime
  decide +kernel

theorem exBaser_lead : ∀ r ∈ exBaser.rows, ∀ v, HasCell exBaser r "fcst_lead" v → v = .num 6 "6" := by
  intro r hr v hv
  obtain ⟨j, hj1, hj2, hj3⟩ := hv
  have : j = 1 := by
    rcases lt_trichotomy j 1 with hlt | heq | hgt
    · obtain rfl : j = 0 := by omega
      simp [exBaser, exLines] at hj1
    · exact heq
    · exact absurd rfl (hj2 1 hgt)
  subst this
  have : ∀ r ∈ exBaser.rows, r[1]? = some (.num 6 "6") := by decide +kernel
  rw [this r hr] at hj3
  simpa using hj3.symm

theorem exBaser_indy : CaseFixesIndependent exBaser "fcst_lead" exRunKey :=
  C201_case_fixes_independent "fcst_lead" exRunKey exBaser_input.input (exLines_key _ _ _) (Or.inl rfl)
    (fun r hr v hv => by rw [exBaser_lead r hr v hv]; decide)
    (fun r hr r' hr' v v' hv hv' _ => by rw [exBaser_lead r hr v hv, exBaser_lead r' hr' v' hv'])

theorem exBaser_once : ((comparedRows exBaser ([] ++ [("model", ["A", "B"])]) (fun v => [v]) [] "TMP" "fcst_lead" exRunKey
      ([] ++ "A" :: []) "6" "BASER").map exRunKey).Nodup ∧
    ((comparedRows exBaser ([] ++ [("model", ["A", "B"])]) (fun v => [v]) [] "TMP" "fcst_lead" exRunKey
      ([] ++ "B" :: []) "6" "BASER").map exRunKey).Nodup :=
  ⟨exLines_once "A" "6" ⟨by decide, by decide, plainText_of (by decide) (by decide) (by decide)⟩ (by decide +kernel),
    exLines_once "B" "6" ⟨by decide, by decide, plainText_of (by decide) (by decide) (by decide)⟩ (by decide +kernel)⟩

theorem exBaser_some : comparedRows exBaser ([] ++ [("model", ["A", "B"])]) (fun v => [v]) [] "TMP" "fcst_lead" exRunKey
    ([] ++ "A" :: []) "6" "BASER" ≠ [] := by
  intro h0
  obtain ⟨-, h2⟩ := C261_curve_limits (preparedStat .ctc exBaser) (fun _ _ => .none) ⟨1 / 2, .perc, false⟩ threeDraws threeDraws 3
    threeDraws_ok _ exBaser_input exRunKey (exLines_key _ _ _) exBaser_indy exBaser_time exSl_read
    (fun st hst zs z1 z2 => prepared_no_keyError exBaser_lines z1 z2 (by revert st; decide +kernel))
    [] [] ["TMP"] "A" "B" "BASER" "A TMP BASER" "B TMP BASER" "DIFF" "DIFF(A TMP BASER-B TMP BASER)"
    exBaser_curve exBaser_boot (by simp) "6" (by decide) _ _ rfl rfl exBaser_once
  have := ((h2 2 _ rfl rfl).2.1 h0).1
  simp at this

example := C261_ctc (fun _ _ => .none) ⟨1 / 2, .perc, false⟩ (by decide) threeDraws threeDraws 3
    threeDraws_ok _ exBaser_input exRunKey (exLines_key _ _ _) exBaser_indy exBaser_time exSl_read exCounts exBaser_lines
    (by decide +kernel) [] [] ["TMP"] "A" "B" "BASER" "A TMP BASER" "B TMP BASER" "DIFF" "DIFF(A TMP BASER-B TMP BASER)"
    exBaser_curve exBaser_boot (by simp) "6" (by decide) _ _ rfl rfl exBaser_once
    ⟨["DIFF(A TMP BASER-B TMP BASER)", "6", "BASER"], some "TMP", .num 0, none, none, 0⟩ (by simp) rfl exBaser_some _ rfl _ rfl

example := C261_same_events (fun _ _ => .none) ⟨1 / 2, .perc, false⟩ rfl threeDraws threeDraws 3
    threeDraws_ok _ exBaser_input exRunKey (exLines_key _ _ _) exBaser_indy exBaser_time exSl_read exCounts exBaser_lines
    (by decide +kernel) (by decide +kernel) [] [] ["TMP"] "A" "B" "BASER" "A TMP BASER" "B TMP BASER"
    "DIFF(A TMP BASER-B TMP BASER)" exBaser_curve exBaser_boot (by simp) "6" (by decide) _ _ rfl rfl exBaser_once
    ⟨["DIFF(A TMP BASER-B TMP BASER)", "6", "BASER"], some "TMP", .num 0, none, none, 0⟩ (by simp) rfl exBaser_some rfl

end Metcalcpy.Props
