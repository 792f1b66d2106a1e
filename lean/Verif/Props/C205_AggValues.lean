/-
C205 With event equalization, the scores of an aggregation table computed from SL1L2 lines are the scores of all matched
     pairs behind the common cases, pooled.
C206 Models verified against the same observations show the same observed mean.
C207 The scores computed from CTC lines are the textbook ratios of the summed counts of the common cases.
C208 CTC lines with different EC_VALUEs are never aggregated.
-/
import Verif.Model.AggValues
import Verif.Props.C15_Sl1l2
import Verif.Props.C09_C12_Ctc
import Verif.Props.C105_DerivedBoot
import Verif.Props.C174_MctcAggregate
import Verif.Props.C201_AggRun

namespace Metcalcpy.Props
open Metcalcpy Spec

/-! ### Specification -/

/-- Row `r` has the number `q` in column `c`. -/
def HasNumber (f : Frame) (r : List Val) (c : String) (q : ℚ) : Prop := ∃ text, HasCell f r c (.num q text)

/-- Every row of `f` is the SL1L2 line of the non-empty batch of matched pairs `pairs r`: their number and the means of
forecast, observation, and the products. -/
structure Sl1l2Lines (f : Frame) (pairs : List Val → List Pair) : Prop where
  batch : ∀ r ∈ f.rows, pairs r ≠ []
  total : ∀ r ∈ f.rows, HasNumber f r "total" (pairs r).length
  fbar : ∀ r ∈ f.rows, HasNumber f r "fbar" (avg Prod.fst (pairs r))
  obar : ∀ r ∈ f.rows, HasNumber f r "obar" (avg Prod.snd (pairs r))
  fobar : ∀ r ∈ f.rows, HasNumber f r "fobar" (avg (fun p => p.1 * p.2) (pairs r))
  ffbar : ∀ r ∈ f.rows, HasNumber f r "ffbar" (avg (fun p => p.1 * p.1) (pairs r))
  oobar : ∀ r ∈ f.rows, HasNumber f r "oobar" (avg (fun p => p.2 * p.2) (pairs r))

/-- `v` is the score called `s` of the pool of pairs, rounded to seven decimals. -/
structure PoolScore (s : String) (pool : List Pair) (v : PyNum) : Prop where
  fbar : s = "fbar" → v = .num (roundHalfUp (avg Prod.fst pool) 7)
  obar : s = "obar" → v = .num (roundHalfUp (avg Prod.snd pool) 7)
  fobar : s = "fobar" → v = .num (roundHalfUp (avg (fun p => p.1 * p.2) pool) 7)
  ffbar : s = "ffbar" → v = .num (roundHalfUp (avg (fun p => p.1 * p.1) pool) 7)
  oobar : s = "oobar" → v = .num (roundHalfUp (avg (fun p => p.2 * p.2) pool) 7)
  me : s = "me" → v = .num (roundHalfUp (meanError pool) 7)
  mse : s = "mse" → v = .num (roundHalfUp (meanSquaredError pool) 7)
  bcmse : s = "bcmse" → ∃ x, v = .num x ∧
    |x - biasCorrectedMse pool| ≤ (1 + |meanError pool|) / 10 ^ 7 + 1 / 10 ^ 14

/-- The counts of a contingency table. -/
structure Ctc where
  hits : ℚ
  falseAlarms : ℚ
  misses : ℚ
  correctNegatives : ℚ
  total : ℚ

/-- Every row of `f` is a CTC line with the counts `counts r`. -/
structure CtcLines (f : Frame) (counts : List Val → Ctc) : Prop where
  fy_oy : ∀ r ∈ f.rows, HasNumber f r "fy_oy" (counts r).hits
  fy_on : ∀ r ∈ f.rows, HasNumber f r "fy_on" (counts r).falseAlarms
  fn_oy : ∀ r ∈ f.rows, HasNumber f r "fn_oy" (counts r).misses
  fn_on : ∀ r ∈ f.rows, HasNumber f r "fn_on" (counts r).correctNegatives
  total : ∀ r ∈ f.rows, HasNumber f r "total" (counts r).total

/-- The counts of several lines added up. -/
def pooledCounts (l : List Ctc) : Ctc :=
  ⟨(l.map Ctc.hits).sum, (l.map Ctc.falseAlarms).sum, (l.map Ctc.misses).sum, (l.map Ctc.correctNegatives).sum,
    (l.map Ctc.total).sum⟩

/-- `v` is the ratio rounded to seven decimals, missing if its denominator vanishes. -/
def RatioIs (r : Ratio) (v : PyNum) : Prop :=
  (r.den = 0 → v = .none) ∧ (r.den ≠ 0 → v = .num (roundHalfUp (r.num / r.den) 7))

/-- `v` is the score called `s` of the contingency table. -/
structure CountScore (s : String) (t : Ctc) (v : PyNum) : Prop where
  baser : s = "baser" → RatioIs (baserRatio t.hits t.misses t.total) v
  acc : s = "acc" → RatioIs (accRatio t.hits t.correctNegatives t.total) v
  fbias : s = "fbias" → RatioIs (fbiasRatio t.hits t.falseAlarms t.misses) v
  fmean : s = "fmean" → RatioIs (fmeanRatio t.hits t.falseAlarms t.total) v
  pody : s = "pody" → RatioIs (podyRatio t.hits t.misses) v
  pofd : s = "pofd" → RatioIs (pofdRatio t.falseAlarms t.correctNegatives) v
  podn : s = "podn" → RatioIs (podnRatio t.falseAlarms t.correctNegatives) v
  far : s = "far" → RatioIs (farRatio t.hits t.falseAlarms) v
  csi : s = "csi" → RatioIs (csiRatio t.hits t.falseAlarms t.misses) v
  orss : s = "orss" → RatioIs (orssRatio t.hits t.falseAlarms t.misses t.correctNegatives) v
  gss : s = "gss" → t.total ≠ 0 → RatioIs (gssRatio t.hits t.falseAlarms t.misses t.total) v
  hss : s = "hss" → t.total ≠ 0 → RatioIs (hssRatio t.hits t.falseAlarms t.misses t.correctNegatives t.total) v

/-! ### Lemmas -/

theorem isColumn_numeric {f : Frame} {c : String} {rows : List (List Val)} {g : List Val → Cell} (hne : rows ≠ [])
    (h : ∀ r ∈ rows, ∃ v, HasCell f r c v ∧ numberOf v = g r) :
    IsColumn (numericTable f.cols rows) c (rows.map g) := by
  obtain ⟨r₀, h₀⟩ := List.exists_mem_of_ne_nil _ hne
  obtain ⟨v₀, ⟨i, hi, hj, -⟩, -⟩ := h r₀ h₀
  refine ⟨i, hi, hj, ?_⟩
  unfold numericTable
  simp only [List.map_map]
  apply List.map_congr_left
  intro r hr
  obtain ⟨v, ⟨k, hk, hl, hv⟩, e⟩ := h r hr
  have : k = i := by
    rcases lt_trichotomy k i with hlt | heq | hgt
    · exact absurd hk (hj k hlt)
    · exact heq
    · exact absurd hi (hl i hgt)
  subst this
  simp only [Function.comp, List.getElem?_map, hv, Option.map_some, e]

theorem completeColumn_numeric {f : Frame} {c : String} {rows : List (List Val)} {g : List Val → ℚ} (hne : rows ≠ [])
    (h : ∀ r ∈ rows, HasNumber f r c (g r)) : CompleteColumn (numericTable f.cols rows) c (rows.map g) := by
  have := isColumn_numeric (g := fun r => some (g r)) hne (fun r hr => by
    obtain ⟨t, ht⟩ := h r hr
    exact ⟨_, ht, rfl⟩)
  unfold CompleteColumn
  rw [List.map_map]
  exact this

theorem perm_avg {α : Type*} (g : α → ℚ) {a b : List α} (h : a.Perm b) : avg g a = avg g b := by
  unfold avg
  rw [(h.map g).sum_eq, h.length_eq]

theorem perm_bcmse {a b : List Pair} (h : a.Perm b) : biasCorrectedMse a = biasCorrectedMse b := by
  unfold biasCorrectedMse
  have e : meanError a = meanError b := perm_avg _ h
  rw [e]
  exact perm_avg _ h

theorem sortData_exists {f : Frame} {indy : String} {b : Bool} (I : EqInput f indy b) (rows : List (List Val)) :
    ∃ data, sortData f rows = .ok data := by
  have h1 : sortTime f.cols ∈ f.cols := by
    unfold sortTime
    split
    · assumption
    · next h =>
      have := I.valid.resolve_left h
      rw [if_pos this]
      exact this
  obtain ⟨i, hi⟩ := Frame.idx?_of_mem h1
  obtain ⟨j, hj⟩ := Frame.idx?_of_mem I.lead
  unfold sortData Frame.col
  rw [hi, hj]
  exact ⟨_, rfl⟩

theorem sl_table {f : Frame} {pairs : List Val → List Pair} (L : Sl1l2Lines f pairs) {rows : List (List Val)}
    (hne : rows ≠ []) (hsub : ∀ r ∈ rows, r ∈ f.rows) :
    Sl1l2Data (numericTable f.cols rows) (rows.map pairs) := by
  have key : ∀ c (g : List Pair → ℚ), (∀ r ∈ f.rows, HasNumber f r c (g (pairs r))) →
      CompleteColumn (numericTable f.cols rows) c ((rows.map pairs).map g) := by
    intro c g h
    rw [List.map_map]
    exact completeColumn_numeric hne (fun r hr => h r (hsub r hr))
  exact ⟨by simpa [numericTable] using hne, by
    intro b hb
    obtain ⟨r, hr, rfl⟩ := List.mem_map.mp hb
    exact L.batch r (hsub r hr), key _ _ L.total, key _ _ L.fbar, key _ _ L.obar, key _ _ L.fobar, key _ _ L.ffbar,
    key _ _ L.oobar⟩

theorem lineStat_sl {f : Frame} {s : String} {rows data : List (List Val)} {calculate : Table → Bool → Option ℚ}
    {x : Option ℚ} (hs : sortData f rows = .ok data)
    (hl : calculateFunctions.lookup s = some (fun t => .ok (calculate t true)))
    (ha : aggregated s calculate (numericTable f.cols data) = .ok x) :
    lineStat .sl1l2 f s rows = .ok (toPyNum x) := by
  unfold lineStat
  simp only [hs, bind, Except.bind, prepareLine, hl]
  unfold aggregated at ha
  simp only [bind, Except.bind, pure, Except.pure] at ha
  cases hp : prepareFields (numericTable f.cols data) (fieldsOf s) with
  | error e => rw [hp] at ha; cases ha
  | ok t =>
    rw [hp] at ha
    simp only [Except.ok.injEq] at ha
    simp only [ha, Except.map]

/-- The value of a set of SL1L2 lines. -/
theorem sl_value {f : Frame} {pairs : List Val → List Pair} (L : Sl1l2Lines f pairs) {rows data : List (List Val)}
    (hs : sortData f rows = .ok data) (hne : rows ≠ []) (hsub : ∀ r ∈ rows, r ∈ f.rows) {s : String} {v : PyNum}
    (h : lineStat .sl1l2 f s rows = .ok v) : PoolScore s (rows.flatMap pairs) v := by
  obtain ⟨hperm, -⟩ := sortData_spec hs
  have D := sl_table L (rows := data) (by
    intro e
    rw [e] at hperm
    exact hne (List.nil_perm.mp hperm)) (fun r hr => hsub r (hperm.mem_iff.mp hr))
  have hpool : (data.map pairs).flatten.Perm (rows.flatMap pairs) := by
    rw [← List.flatMap_def]
    exact hperm.flatMap_right pairs
  obtain ⟨m1, m2, m3, m4, m5⟩ := C15_means _ _ D
  obtain ⟨e1, e2⟩ := C15_me_mse _ _ D
  obtain ⟨x, b1, b2⟩ := C15_bcmse _ _ D
  rw [perm_avg _ hpool] at m1 m2 m3 m4 m5
  have hme : meanError (data.map pairs).flatten = meanError (rows.flatMap pairs) := perm_avg _ hpool
  have hmse : meanSquaredError (data.map pairs).flatten = meanSquaredError (rows.flatMap pairs) := perm_avg _ hpool
  rw [hme] at e1
  rw [hmse] at e2
  rw [hme, perm_bcmse hpool] at b2
  refine ⟨?_, ?_, ?_, ?_, ?_, ?_, ?_, ?_⟩ <;> rintro rfl
  · rw [lineStat_sl hs rfl m1] at h; exact (Except.ok.inj h).symm
  · rw [lineStat_sl hs rfl m2] at h; exact (Except.ok.inj h).symm
  · rw [lineStat_sl hs rfl m3] at h; exact (Except.ok.inj h).symm
  · rw [lineStat_sl hs rfl m4] at h; exact (Except.ok.inj h).symm
  · rw [lineStat_sl hs rfl m5] at h; exact (Except.ok.inj h).symm
  · rw [lineStat_sl hs rfl e1] at h; exact (Except.ok.inj h).symm
  · rw [lineStat_sl hs rfl e2] at h; exact (Except.ok.inj h).symm
  · rw [lineStat_sl hs rfl b1] at h; exact ⟨x, (Except.ok.inj h).symm, b2⟩

theorem ctc_table {f : Frame} {counts : List Val → Ctc} (L : CtcLines f counts) {rows : List (List Val)}
    (hne : rows ≠ []) (hsub : ∀ r ∈ rows, r ∈ f.rows) :
    CtcData (numericTable f.cols rows) (rows.map fun r => (counts r).hits) (rows.map fun r => (counts r).falseAlarms)
      (rows.map fun r => (counts r).misses) (rows.map fun r => (counts r).correctNegatives)
      (rows.map fun r => (counts r).total) :=
  ⟨by simpa [numericTable] using hne, completeColumn_numeric hne (fun r hr => L.fy_oy r (hsub r hr)),
    completeColumn_numeric hne (fun r hr => L.fy_on r (hsub r hr)),
    completeColumn_numeric hne (fun r hr => L.fn_oy r (hsub r hr)),
    completeColumn_numeric hne (fun r hr => L.fn_on r (hsub r hr)),
    completeColumn_numeric hne (fun r hr => L.total r (hsub r hr))⟩

theorem lineStat_ctc {f : Frame} {s : String} {rows data : List (List Val)} {v : PyNum}
    {calculate : Table → Except PyErr (Option ℚ)} {x : Option ℚ} (hs : sortData f rows = .ok data)
    (hl : calculateFunctions.lookup s = some calculate) (hx : calculate (numericTable f.cols data) = .ok x)
    (h : lineStat .ctc f s rows = .ok v) : v = toPyNum x := by
  unfold lineStat at h
  simp only [hs, bind, Except.bind, prepareLine, hl] at h
  cases hp : ecCheck (numericTable f.cols data) with
  | error e => rw [hp] at h; cases h
  | ok u =>
    rw [hp] at h
    simp only [hx, Except.map, Except.ok.injEq] at h
    exact h.symm

theorem ratioIs_rounded (r : Ratio) : RatioIs r (toPyNum r.rounded) := by
  unfold RatioIs Ratio.rounded
  constructor <;> intro h <;> simp [h, toPyNum]

/-- The value of a set of CTC lines. -/
theorem ctc_value {f : Frame} {counts : List Val → Ctc} (L : CtcLines f counts) {rows data : List (List Val)}
    (hs : sortData f rows = .ok data) (hne : rows ≠ []) (hsub : ∀ r ∈ rows, r ∈ f.rows) {s : String} {v : PyNum}
    (h : lineStat .ctc f s rows = .ok v) : CountScore s (pooledCounts (rows.map counts)) v := by
  obtain ⟨hperm, -⟩ := sortData_spec hs
  have D := ctc_table L (rows := data) (by
    intro e
    rw [e] at hperm
    exact hne (List.nil_perm.mp hperm)) (fun r hr => hsub r (hperm.mem_iff.mp hr))
  have hsum : ∀ g : Ctc → ℚ, (data.map fun r => g (counts r)).sum = ((rows.map counts).map g).sum := by
    intro g
    rw [List.map_map]
    exact (hperm.map (fun r => g (counts r))).sum_eq
  obtain ⟨r1, r2, r3, r4, r5, r6, r7, r8, r9, r10, -, -⟩ := C10_ratio_scores D
  obtain ⟨-, r11⟩ := C10_skill_scores D
  simp only [hsum Ctc.hits, hsum Ctc.falseAlarms, hsum Ctc.misses, hsum Ctc.correctNegatives, hsum Ctc.total]
    at r1 r2 r3 r4 r5 r6 r7 r8 r9 r10 r11
  unfold pooledCounts
  refine ⟨?_, ?_, ?_, ?_, ?_, ?_, ?_, ?_, ?_, ?_, ?_, ?_⟩ <;> rintro rfl
  · rw [lineStat_ctc hs rfl r1 h]; exact ratioIs_rounded _
  · rw [lineStat_ctc hs rfl rfl h, r2]; exact ratioIs_rounded _
  · rw [lineStat_ctc hs rfl rfl h, r3]; exact ratioIs_rounded _
  · rw [lineStat_ctc hs rfl rfl h, r4]; exact ratioIs_rounded _
  · rw [lineStat_ctc hs rfl rfl h, r5]; exact ratioIs_rounded _
  · rw [lineStat_ctc hs rfl rfl h, r6]; exact ratioIs_rounded _
  · rw [lineStat_ctc hs rfl rfl h, r7]; exact ratioIs_rounded _
  · rw [lineStat_ctc hs rfl rfl h, r8]; exact ratioIs_rounded _
  · rw [lineStat_ctc hs rfl rfl h, r9]; exact ratioIs_rounded _
  · rw [lineStat_ctc hs rfl rfl h, r10]; exact ratioIs_rounded _
  · intro h0; rw [lineStat_ctc hs rfl rfl h, (r11 h0).1]; exact ratioIs_rounded _
  · intro h0; rw [lineStat_ctc hs rfl rfl h, (r11 h0).2]; exact ratioIs_rounded _

/-! ### The run -/

section
variable {f : Frame} {p : AggParams} {init : List (String × List String)} {sv : String × List String}
  {parts : String → List String}
  {fix : List (String × List String)} {fv : String} {sts : List String} {rest : List (String × List String)}

open Classical in
/-- The input rows behind a point: those with the values of the point whose case is common to all series. -/
noncomputable def comparedRows (f : Frame) (series : List (String × List String)) (parts : String → List String)
    (fix : List (String × List String)) (fv indy : String) (key : List Val → String) (as : List String) (i st : String) :
    List (List Val) :=
  f.rows.filter (fun r => decide (RowOf f (pointRequest series indy as i st) (some fv) r ∧
    CommonToAll f series parts fix fv st key r))

theorem comparedRows_sub {series : List (String × List String)} {indy : String} {key : List Val → String}
    {as : List String} {i st : String} : ∀ r ∈ comparedRows f series parts fix fv indy key as i st, r ∈ f.rows := by
  intro r hr
  unfold comparedRows at hr
  exact (List.mem_filter.mp hr).1

/-- C205: in a run on SL1L2 lines with event equalization, every score in the table is the score of the matched pairs of
all common cases of its point, pooled (`PoolScore`: the means, ME and MSE exactly up to the final rounding, BCMSE within
the rounding of its parts). -/
theorem C205_scores (etb : List PyNum → List PyNum → PyNum) (out : List AggOut)
    (R : OneAxisRun f p init sv parts fix fv sts rest) (key : List Val → String)
    (hkey : ∀ r ∈ f.rows, IsCaseKey f p.indyVar true r (key r)) (pairs : List Val → List Pair)
    (L : Sl1l2Lines f pairs) (h : aggRun (lineStat .sl1l2 f) etb f p = .ok out) (hne : out ≠ []) :
    ∃ plain derived, out = plain ++ derived ∧
      (∀ pt, pt ∈ plain.map AggOut.point ↔
        ∃ as, List.Forall₂ (fun x q => x ∈ q.2) as (init ++ [sv]) ∧ ∃ i ∈ p.indyVals, ∃ st ∈ p.axis₁.stats,
          pt = as ++ [i, st]) ∧
      ∀ o ∈ plain, ∀ as i st, o.point = as ++ [i, st] →
        ∀ rows, rows = comparedRows f (init ++ [sv]) parts fix fv p.indyVar key as i st →
          (rows = [] → o.value = .none) ∧ (rows ≠ [] → PoolScore (lower st) (rows.flatMap pairs) o.value) := by
  rcases C201_values_partial _ etb out R key hkey h with ⟨h0, -⟩ | ⟨plain, derived, e, hpts, hval⟩
  · exact absurd h0 hne
  · refine ⟨plain, derived, e, hpts, ?_⟩
    rintro o ho as i st hpt rows rfl
    obtain ⟨-, h2, h3⟩ := hval o ho as i st hpt _ rfl
    refine ⟨h2, fun hr => ?_⟩
    obtain ⟨data, hs⟩ := sortData_exists R.input (comparedRows f (init ++ [sv]) parts fix fv p.indyVar key as i st)
    exact sl_value L hs hr comparedRows_sub (h3 hr)

/-- C205: such a run completes when no derived curves are requested and every statistic is one of the means, ME, MSE and
BCMSE. -/
theorem C205_completes (etb : List PyNum → List PyNum → PyNum)
    (R : OneAxisRun f p init sv parts fix fv sts rest) (pairs : List Val → List Pair)
    (L : Sl1l2Lines f pairs) (hd : p.axis₁.derived = [])
    (hs : ∀ s ∈ p.axis₁.stats, lower s ∈ ["fbar", "obar", "fobar", "ffbar", "oobar", "me", "mse", "bcmse"]) :
    ∃ out, aggRun (lineStat .sl1l2 f) etb f p = .ok out := by
  obtain ⟨key, hk⟩ := C01_case_key_exists R.input
  have hkey : ∀ r ∈ f.rows, IsCaseKey f p.indyVar true r (key r) := fun r hr => (hk r hr _).mpr rfl
  have hg := equalize_ok R key hkey
  have hfd := config_fields R
  have hrv := requested_eq R
  generalize hG : (p.axis₁.fcstVarVal.flatMap (fun q => q.2.map (fun s => (q.1, s)))).flatMap
      (keptRows f sv ((init ++ [sv]).map (fun x => (x.1, x.2.flatMap parts)) ++ fix) key) = G at hg
  have hsub : ∀ r ∈ G, r ∈ f.rows := by
    intro r hr
    rw [← hG] at hr
    unfold keptRows at hr
    simp only [List.mem_flatMap, List.mem_filter] at hr
    obtain ⟨_, _, h3⟩ := hr
    exact h3.1.1
  obtain ⟨out, ho⟩ := C99_completes (lineStat .sl1l2 f) etb ⟨f.cols, G⟩ (p.config p.axis₁) hfd R.statistic hd (by
      rw [hrv]
      intro q hq v hv
      rcases List.mem_append.mp hq with hq | hq
      · rcases List.mem_append.mp hq with hq | hq
        · exact R.plain.1 q hq v hv
        · simp only [List.mem_singleton] at hq
          subst hq
          exact R.plain.2.1 v hv
      · simp only [List.mem_singleton] at hq
        subst hq
        exact R.plain.2.2 v hv) (by
    intro s hsm rows hne hsb
    obtain ⟨data, hsd⟩ := sortData_exists R.input rows
    obtain ⟨hperm, -⟩ := sortData_spec hsd
    have D := sl_table L (rows := data) (by
      intro e
      rw [e] at hperm
      exact hne (List.nil_perm.mp hperm)) (fun r hr => hsub r (hsb.subset (hperm.mem_iff.mp hr)))
    obtain ⟨m1, m2, m3, m4, m5⟩ := C15_means _ _ D
    obtain ⟨e1, e2⟩ := C15_me_mse _ _ D
    obtain ⟨x, b1, -⟩ := C15_bcmse _ _ D
    have hsm' := hs s hsm
    generalize lower s = s' at hsm'
    simp only [List.mem_cons, List.not_mem_nil, or_false] at hsm'
    rcases hsm' with rfl | rfl | rfl | rfl | rfl | rfl | rfl | rfl
    · exact ⟨_, lineStat_sl hsd rfl m1⟩
    · exact ⟨_, lineStat_sl hsd rfl m2⟩
    · exact ⟨_, lineStat_sl hsd rfl m3⟩
    · exact ⟨_, lineStat_sl hsd rfl m4⟩
    · exact ⟨_, lineStat_sl hsd rfl m5⟩
    · exact ⟨_, lineStat_sl hsd rfl e1⟩
    · exact ⟨_, lineStat_sl hsd rfl e2⟩
    · exact ⟨_, lineStat_sl hsd rfl b1⟩)
  refine ⟨out, ?_⟩
  unfold aggRun
  rw [R.on, R.second]
  have ht : truthy (parseBool "True") = true := rfl
  rw [ht, if_pos rfl, hg]
  simp only [bind, Except.bind, List.isEmpty_nil, if_true]
  rw [ho]

/-- The cases behind two points of the same independent value and statistic. -/
theorem common_keys (R : OneAxisRun f p init sv parts fix fv sts rest) (key : List Val → String)
    (hindy : CaseFixesIndependent f p.indyVar key)
    (hread : ∀ x ∈ init ++ [sv], ∀ v ∈ x.2, ∀ w ∈ parts v, ReadAlike w) {as bs : List String} {i st : String}
    (ha : List.Forall₂ (fun x q => x ∈ q.2) as (init ++ [sv]))
    (hb : List.Forall₂ (fun x q => x ∈ q.2) bs (init ++ [sv])) (hst : st ∈ p.axis₁.stats)
    (hn : ∀ v ∈ [as, bs], ((comparedRows f (init ++ [sv]) parts fix fv p.indyVar key v i st).map key).Nodup) :
    ((comparedRows f (init ++ [sv]) parts fix fv p.indyVar key as i st).map key).Perm
      ((comparedRows f (init ++ [sv]) parts fix fv p.indyVar key bs i st).map key) := by
  refine (List.perm_ext_iff_of_nodup (hn as (by simp)) (hn bs (by simp))).mpr fun k => ?_
  exact ⟨same_cases_sub R key hindy hread (as := as) (bs := bs) (i := i) hb hst k,
    same_cases_sub R key hindy hread (as := bs) (bs := as) (i := i) ha hst k⟩

/-- Pools whose cases agree have the same observations. -/
theorem perm_pool {α β γ : Type} (key : α → String) (pairs : α → List β) (snd : β → γ) :
    ∀ (a b : List α), (a.map key).Perm (b.map key) →
      (∀ r ∈ a, ∀ r' ∈ b, key r = key r' → (pairs r).map snd = (pairs r').map snd) →
      ((a.flatMap pairs).map snd).Perm ((b.flatMap pairs).map snd) := by
  intro a
  induction a with
  | nil =>
    intro b h _
    have : b = [] := by simpa using h.symm
    subst this
    simp
  | cons x a ih =>
    intro b h hp
    have hx : key x ∈ b.map key := h.mem_iff.mp (by simp)
    obtain ⟨y, hy, e⟩ := List.mem_map.mp hx
    obtain ⟨b₁, b₂, rfl⟩ := List.append_of_mem hy
    have hb : (b₁ ++ y :: b₂).Perm (y :: (b₁ ++ b₂)) := List.perm_middle
    have h' : (a.map key).Perm ((b₁ ++ b₂).map key) := by
      have := h.trans (hb.map key)
      simp only [List.map_cons, e] at this
      exact this.cons_inv
    have hi := ih (b₁ ++ b₂) h' (fun r hr r' hr' => hp r (by simp [hr]) r' (by
      rcases List.mem_append.mp hr' with hr' | hr' <;> simp [hr']))
    have h2 : ((b₁ ++ y :: b₂).flatMap pairs).Perm ((y :: (b₁ ++ b₂)).flatMap pairs) := hb.flatMap_right pairs
    refine List.Perm.trans ?_ (h2.map snd).symm
    rw [List.flatMap_cons, List.flatMap_cons, List.map_append, List.map_append, hp x (by simp) y hy e.symm]
    exact hi.append_left _

/-- C206: if all rows of the same case were computed from the same observations, and no case occurs twice in a series,
then with event equalization all series have the same observed mean and the same mean squared observation at every
independent value. -/
theorem C206_same_observations (etb : List PyNum → List PyNum → PyNum) (out : List AggOut)
    (R : OneAxisRun f p init sv parts fix fv sts rest) (key : List Val → String)
    (hkey : ∀ r ∈ f.rows, IsCaseKey f p.indyVar true r (key r)) (hindy : CaseFixesIndependent f p.indyVar key)
    (hread : ∀ x ∈ init ++ [sv], ∀ v ∈ x.2, ∀ w ∈ parts v, ReadAlike w) (pairs : List Val → List Pair)
    (L : Sl1l2Lines f pairs)
    (hobs : ∀ r ∈ f.rows, ∀ r' ∈ f.rows, key r = key r' → (pairs r).map Prod.snd = (pairs r').map Prod.snd)
    (h : aggRun (lineStat .sl1l2 f) etb f p = .ok out) (hne : out ≠ []) :
    ∃ plain derived, out = plain ++ derived ∧
      (∀ pt, pt ∈ plain.map AggOut.point ↔
        ∃ as, List.Forall₂ (fun x q => x ∈ q.2) as (init ++ [sv]) ∧ ∃ i ∈ p.indyVals, ∃ st ∈ p.axis₁.stats,
          pt = as ++ [i, st]) ∧
      ∀ o₁ ∈ plain, ∀ o₂ ∈ plain, ∀ as bs i st, o₁.point = as ++ [i, st] → o₂.point = bs ++ [i, st] →
        lower st = "obar" ∨ lower st = "oobar" →
        (∀ v ∈ [as, bs], ((comparedRows f (init ++ [sv]) parts fix fv p.indyVar key v i st).map key).Nodup) →
        o₁.value = o₂.value := by
  obtain ⟨plain, derived, e, hpts, hval⟩ := C205_scores etb out R key hkey pairs L h hne
  refine ⟨plain, derived, e, hpts, ?_⟩
  intro o₁ m₁ o₂ m₂ as bs i st e₁ e₂ hst hn
  obtain ⟨a1, a2⟩ := hval o₁ m₁ as i st e₁ _ rfl
  obtain ⟨b1, b2⟩ := hval o₂ m₂ bs i st e₂ _ rfl
  obtain ⟨as', ha, i', hi, st', hst', e'⟩ := (hpts o₁.point).mp (List.mem_map_of_mem m₁)
  rw [e₁] at e'
  obtain ⟨rfl, e4⟩ := List.append_inj' e' (by simp)
  simp only [List.cons.injEq, and_true] at e4
  obtain ⟨rfl, rfl⟩ := e4
  obtain ⟨bs', hb, _, _, _, _, e''⟩ := (hpts o₂.point).mp (List.mem_map_of_mem m₂)
  rw [e₂] at e''
  obtain ⟨rfl, -⟩ := List.append_inj' e'' (by simp)
  have hperm := common_keys R key hindy hread ha hb hst' hn (i := i)
  have hpool := perm_pool key pairs Prod.snd _ _ hperm (fun r hr r' hr' =>
    hobs r (comparedRows_sub r hr) r' (comparedRows_sub r' hr'))
  by_cases hr : comparedRows f (init ++ [sv]) parts fix fv p.indyVar key as i st = []
  · have hr' : comparedRows f (init ++ [sv]) parts fix fv p.indyVar key bs i st = [] := by
      rw [hr] at hperm
      simpa using hperm.symm
    rw [a1 hr, b1 hr']
  · have hr' : comparedRows f (init ++ [sv]) parts fix fv p.indyVar key bs i st ≠ [] := by
      intro h0
      rw [h0] at hperm
      exact hr (by simpa using hperm)
    have A := a2 hr
    have B := b2 hr'
    generalize (comparedRows f (init ++ [sv]) parts fix fv p.indyVar key as i st).flatMap pairs = P at *
    generalize (comparedRows f (init ++ [sv]) parts fix fv p.indyVar key bs i st).flatMap pairs = Q at *
    have havg : ∀ g : ℚ → ℚ, avg (fun p : Pair => g p.2) P = avg (fun p : Pair => g p.2) Q := by
      intro g
      have := perm_avg g hpool
      unfold avg at this ⊢
      simpa [List.map_map, Function.comp_def] using this
    rcases hst with hs | hs
    · rw [A.obar hs, B.obar hs]
      have := havg id
      simp only [id] at this
      have e : (Prod.snd : Pair → ℚ) = fun p => p.2 := rfl
      rw [e, this]
    · rw [A.oobar hs, B.oobar hs, havg (fun x => x * x)]

/-- C207: in a run on CTC lines with event equalization, every score in the table is the textbook score of the summed
counts of the common cases of its point. -/
theorem C207_scores (etb : List PyNum → List PyNum → PyNum) (out : List AggOut)
    (R : OneAxisRun f p init sv parts fix fv sts rest) (key : List Val → String)
    (hkey : ∀ r ∈ f.rows, IsCaseKey f p.indyVar true r (key r)) (counts : List Val → Ctc)
    (L : CtcLines f counts) (h : aggRun (lineStat .ctc f) etb f p = .ok out) (hne : out ≠ []) :
    ∃ plain derived, out = plain ++ derived ∧
      (∀ pt, pt ∈ plain.map AggOut.point ↔
        ∃ as, List.Forall₂ (fun x q => x ∈ q.2) as (init ++ [sv]) ∧ ∃ i ∈ p.indyVals, ∃ st ∈ p.axis₁.stats,
          pt = as ++ [i, st]) ∧
      ∀ o ∈ plain, ∀ as i st, o.point = as ++ [i, st] →
        ∀ rows, rows = comparedRows f (init ++ [sv]) parts fix fv p.indyVar key as i st →
          (rows = [] → o.value = .none) ∧
          (rows ≠ [] → CountScore (lower st) (pooledCounts (rows.map counts)) o.value) := by
  rcases C201_values_partial _ etb out R key hkey h with ⟨h0, -⟩ | ⟨plain, derived, e, hpts, hval⟩
  · exact absurd h0 hne
  · refine ⟨plain, derived, e, hpts, ?_⟩
    rintro o ho as i st hpt rows rfl
    obtain ⟨-, h2, h3⟩ := hval o ho as i st hpt _ rfl
    refine ⟨h2, fun hr => ?_⟩
    obtain ⟨data, hs⟩ := sortData_exists R.input (comparedRows f (init ++ [sv]) parts fix fv p.indyVar key as i st)
    exact ctc_value L hs hr comparedRows_sub (h3 hr)

theorem lineStat_ec {f : Frame} {s : String} {rows data : List (List Val)} {v : PyNum} (hf : FrameWF f)
    (hs : sortData f rows = .ok data) (hne : rows ≠ []) (hsub : ∀ r ∈ rows, r ∈ f.rows) (hec : "ec_value" ∈ f.cols)
    (h : lineStat .ctc f s rows = .ok v) : ∃ ec, ∀ r ∈ rows, HasNumber f r "ec_value" ec := by
  obtain ⟨hperm, -⟩ := sortData_spec hs
  have hne' : data ≠ [] := by
    intro e
    rw [e] at hperm
    exact hne (List.nil_perm.mp hperm)
  have hcell : ∀ r ∈ data, ∃ v, HasCell f r "ec_value" v := by
    intro r hr
    obtain ⟨i, hi⟩ := Frame.idx?_of_mem hec
    exact ⟨_, hasCell_cellAt hi (hf r (hsub r (hperm.mem_iff.mp hr)))⟩
  have : Nonempty Val := ⟨.null⟩
  choose! g hg using hcell
  have hcol := isColumn_numeric (f := f) (c := "ec_value") (rows := data) (g := fun r => numberOf (g r)) hne'
    (fun r hr => ⟨g r, hg r hr, rfl⟩)
  have hcd := columnData_of_isColumn hcol
  unfold lineStat at h
  simp only [hs, bind, Except.bind, prepareLine] at h
  cases hp : ecCheck (numericTable f.cols data) with
  | error e => rw [hp] at h; cases h
  | ok u =>
    cases data with
    | nil => exact absurd rfl hne'
    | cons r₀ data =>
      obtain ⟨ec, hec⟩ := (ecCheck_ok_iff _ _ _ hcd).mp hp
      refine ⟨ec, fun r hr => ?_⟩
      have hr' := hperm.mem_iff.mpr hr
      have := hec (numberOf (g r)) (List.mem_map_of_mem (f := fun r => numberOf (g r)) hr')
      have hgr := hg r hr'
      cases hv : g r with
      | num q t =>
        rw [hv] at this hgr
        simp only [numberOf, Option.some.injEq] at this
        subst this
        exact ⟨t, hgr⟩
      | str s => rw [hv] at this; simp [numberOf] at this
      | null => rw [hv] at this; simp [numberOf] at this

/-- C208: if a run on CTC lines with the column EC_VALUE delivers a table, then all lines behind any one of its values have
the same EC_VALUE; in other words, a run that would mix them raises. -/
theorem C208_one_ec_value (etb : List PyNum → List PyNum → PyNum) (out : List AggOut)
    (R : OneAxisRun f p init sv parts fix fv sts rest) (key : List Val → String)
    (hkey : ∀ r ∈ f.rows, IsCaseKey f p.indyVar true r (key r)) (hec : "ec_value" ∈ f.cols)
    (h : aggRun (lineStat .ctc f) etb f p = .ok out) (hne : out ≠ []) (as : List String) (i st : String)
    (ha : List.Forall₂ (fun x q => x ∈ q.2) as (init ++ [sv])) (hi : i ∈ p.indyVals) (hst : st ∈ p.axis₁.stats) :
    ∃ ec, ∀ r ∈ comparedRows f (init ++ [sv]) parts fix fv p.indyVar key as i st, HasNumber f r "ec_value" ec := by
  rcases C201_values_partial _ etb out R key hkey h with ⟨h0, -⟩ | ⟨plain, derived, e, hpts, hval⟩
  · exact absurd h0 hne
  · obtain ⟨o, ho, hpt⟩ := List.mem_map.mp ((hpts (as ++ [i, st])).mpr ⟨as, ha, i, hi, st, hst, rfl⟩)
    obtain ⟨-, -, h3⟩ := hval o ho as i st hpt _ rfl
    by_cases hr : comparedRows f (init ++ [sv]) parts fix fv p.indyVar key as i st = []
    · rw [hr]
      exact ⟨0, by simp⟩
    · obtain ⟨data, hs⟩ := sortData_exists R.input (comparedRows f (init ++ [sv]) parts fix fv p.indyVar key as i st)
      exact lineStat_ec R.input.wf hs hr comparedRows_sub hec (h3 hr)

open Classical in
/-- C205, C207: without event equalization the scores are those of the matched pairs, or of the summed counts, of all input
rows that belong to the point. -/
theorem C205_scores_without_equalization (etb : List PyNum → List PyNum → PyNum) (out : List AggOut) (l : LineType)
    (hoff : p.eventEqual = "False" ∨ p.eventEqual = "") (h2 : p.axis₂.series = []) (I : EqInput f p.indyVar true)
    (hne : f.rows ≠ []) (hdist : FieldsDistinct (p.config p.axis₁))
    (hv : ∀ q ∈ requestedValues (p.config p.axis₁), ∀ v ∈ q.2,
      (∃ vals, StandsFor v vals) ∧ isDerivedPoint (some [v]) = false)
    (h : aggRun (lineStat l f) etb f p = .ok out) :
    ∃ plain derived, out = plain ++ derived ∧
      (∀ pt, pt ∈ plain.map AggOut.point ↔
        List.Forall₂ (fun x q => x ∈ q.2) pt (requestedValues (p.config p.axis₁))) ∧
      ∀ o ∈ plain, ∀ rows, rows = f.rows.filter (fun r => decide
          (RowOf f (((requestedValues (p.config p.axis₁)).map Prod.fst).zip o.point)
            (p.axis₁.fcstVarVal.map Prod.fst).head? r)) →
        (rows = [] → o.value = .none) ∧
        (rows ≠ [] → ∃ s, o.point.getLast? = some s ∧
          (∀ pairs, l = .sl1l2 → Sl1l2Lines f pairs → PoolScore (lower s) (rows.flatMap pairs) o.value) ∧
          (∀ counts, l = .ctc → CtcLines f counts → CountScore (lower s) (pooledCounts (rows.map counts)) o.value)) := by
  rw [(C204_off_partial _ etb f p [] hoff).2 out h2] at h
  obtain ⟨plain, derived, e, hpts, -, hrows, -⟩ := C99_rows _ etb f _ out I.wf
    ⟨hne, List.ne_nil_of_mem I.lead⟩ hdist hv h
  refine ⟨plain, derived, e, hpts, ?_⟩
  intro o ho rows hr
  obtain ⟨-, -, h3, h4⟩ := hrows o ho rows hr
  have hsub : ∀ r ∈ rows, r ∈ f.rows := by
    intro r hm
    rw [hr] at hm
    exact (List.mem_filter.mp hm).1
  refine ⟨h3, fun h0 => ?_⟩
  obtain ⟨s, hs, hval⟩ := h4 h0
  obtain ⟨data, hd⟩ := sortData_exists I rows
  refine ⟨s, hs, ?_, ?_⟩
  · rintro pairs rfl L
    exact sl_value L hd h0 hsub hval
  · rintro counts rfl L
    exact ctc_value L hd h0 hsub hval

end

/-! ### Examples -/

/-- Two models verified against the same observations (1, 3 at t1; 2 at t3); model B has no line for t2.  Each line is listed
for both statistics. -/
def exSlFrame : Frame :=
  { cols := ["fcst_valid_beg", "fcst_lead", "model", "fcst_var", "stat_name", "total", "fbar", "obar", "fobar", "ffbar",
      "oobar"],
    rows := ["ME", "OBAR"].flatMap fun s => [
      [.str "t1", .num 6 "6", .str "A", .str "TMP", .str s, .num 2 "2", .num 3 "3", .num 2 "2", .num 7 "7", .num 10 "10", .num 5 "5"],
      [.str "t2", .num 6 "6", .str "A", .str "TMP", .str s, .num 1 "1", .num 9 "9", .num 1 "1", .num 9 "9", .num 81 "81", .num 1 "1"],
      [.str "t1", .num 6 "6", .str "B", .str "TMP", .str s, .num 2 "2", .num 2 "2", .num 2 "2", .num 5 "5", .num 5 "5", .num 5 "5"],
      [.str "t3", .num 6 "6", .str "A", .str "TMP", .str s, .num 1 "1", .num 3 "3", .num 2 "2", .num 6 "6", .num 9 "9", .num 4 "4"],
      [.str "t3", .num 6 "6", .str "B", .str "TMP", .str s, .num 1 "1", .num 8 "8", .num 2 "2", .num 16 "16", .num 64 "64", .num 4 "4"]] }

def exSlParams : AggParams where
  eventEqual := "True"
  indyVar := "fcst_lead"
  indyVals := ["6"]
  fixed := []
  axis₁ := ⟨[("model", ["A", "B"])], ["ME", "OBAR"], [], [("TMP", ["ME", "OBAR"])]⟩
  axis₂ := ⟨[], [], [], []⟩

/-- The pairs behind the lines. -/
def exLinePairs (r : List Val) : List Pair :=
  if cellAt r 0 = .str "t2" then [(9, 1)]
  else if cellAt r 0 = .str "t1" then
    if cellAt r 2 = .str "A" then [(2, 1), (4, 3)] else [(1, 1), (3, 3)]
  else if cellAt r 2 = .str "A" then [(3, 2)] else [(8, 2)]

theorem exSl_lines : Sl1l2Lines exSlFrame exLinePairs := by
  have key : ∀ (i : ℕ) (c : String) (g : List Val → ℚ), exSlFrame.cols[i]? = some c →
      (∀ j < i, exSlFrame.cols[j]? ≠ some c) → (∀ r ∈ exSlFrame.rows, numberOf (cellAt r i) = some (g r)) →
      ∀ r ∈ exSlFrame.rows, HasNumber exSlFrame r c (g r) := by
    intro i c g h1 h2 h3 r hr
    have := h3 r hr
    unfold cellAt at this
    cases h : r[i]? with
    | none => rw [h] at this; simp [numberOf] at this
    | some v =>
      rw [h] at this
      cases v with
      | num q t =>
        simp only [Option.getD_some, numberOf, Option.some.injEq] at this
        exact ⟨t, i, h1, h2, this ▸ h⟩
      | str s => simp [numberOf] at this
      | null => simp [numberOf] at this
  exact ⟨by decide, key 5 _ _ (by decide) (by decide) (by decide +kernel),
    key 6 _ _ (by decide) (by decide) (by decide +kernel), key 7 _ _ (by decide) (by decide) (by decide +kernel),
    key 8 _ _ (by decide) (by decide) (by decide +kernel), key 9 _ _ (by decide) (by decide) (by decide +kernel),
    key 10 _ _ (by decide) (by decide) (by decide +kernel)⟩

theorem exSl_input :
    OneAxisRun exSlFrame exSlParams [] ("model", ["A", "B"]) (fun v => [v]) [] "TMP" ["ME", "OBAR"] [] where
  input := ⟨by unfold FrameWF; decide, by decide, by decide, by decide, by intro _ h; exact absurd (by decide) h⟩
  forecast := by decide
  statistic := by decide
  on := rfl
  series := rfl
  second := rfl
  fixed := rfl
  names := by decide
  columns := by decide
  groups := exRun_input.groups
  texts := exRun_input.texts
  fcst := rfl
  pairs := by decide
  stats := by
    intro st hst
    have : st = "ME" ∨ st = "OBAR" := by simpa [exSlParams] using hst
    rcases this with rfl | rfl <;>
      exact ⟨by simp, by decide, by decide, plainText_of (by decide) (by decide) (by decide)⟩
  indy := exRun_input.indy
  somestat := by decide
  distinct := by decide
  plain := by decide +kernel

/-- The run of the example: the error of model A is 1, that of model B is 2 (the mean of 0, 0 and 6); both have the
observed mean 2 of the pairs at t1 and t3.  The line at t2 is not used. -/
theorem exSl_result : aggRun (lineStat .sl1l2 exSlFrame) (fun _ _ => .none) exSlFrame exSlParams =
    .ok [⟨["A", "6", "ME"], some "TMP", .num 1, 2⟩, ⟨["A", "6", "OBAR"], some "TMP", .num 2, 2⟩,
      ⟨["B", "6", "ME"], some "TMP", .num 2, 2⟩, ⟨["B", "6", "OBAR"], some "TMP", .num 2, 2⟩] := by
  decide +kernel

theorem exSl_key : ∀ r ∈ exSlFrame.rows, IsCaseKey exSlFrame "fcst_lead" true r (exRunKey r) := by
  intro r hr
  have h0 : ∀ r ∈ exSlFrame.rows, r[0]? = some (r.getD 0 .null) ∧ r[1]? = some (r.getD 1 .null) := by decide
  obtain ⟨e0, e1⟩ := h0 r hr
  refine ⟨r.getD 0 .null, r.getD 1 .null, ⟨0, by decide, by simp, e0⟩, ⟨1, by decide, by decide, e1⟩, ?_⟩
  rw [if_neg (by decide)]
  rfl

theorem exSl_lead : ∀ r ∈ exSlFrame.rows, ∀ v, HasCell exSlFrame r "fcst_lead" v → v = .num 6 "6" := by
  intro r hr v hv
  have h : ∀ r ∈ exSlFrame.rows, r[1]? = some (.num 6 "6") := by decide
  exact hasCell_eq (f := exSlFrame) (by decide) hv ⟨1, by decide, by decide, h r hr⟩

theorem exSl_observed : ∀ r ∈ exSlFrame.rows, ∀ r' ∈ exSlFrame.rows, exRunKey r = exRunKey r' →
    (exLinePairs r).map Prod.snd = (exLinePairs r').map Prod.snd := by decide +kernel

/-- The hypotheses of C205 and C206 hold for the example. -/
example : ∃ plain derived : List AggOut,
    [⟨["A", "6", "ME"], some "TMP", .num 1, 2⟩, ⟨["A", "6", "OBAR"], some "TMP", .num 2, 2⟩,
      ⟨["B", "6", "ME"], some "TMP", .num 2, 2⟩, ⟨["B", "6", "OBAR"], some "TMP", .num 2, 2⟩] = plain ++ derived ∧
    ∀ pt, pt ∈ plain.map AggOut.point ↔ ∃ as,
      List.Forall₂ (fun x (q : String × List String) => x ∈ q.2) as [("model", ["A", "B"])] ∧
        ∃ i ∈ ["6"], ∃ st ∈ ["ME", "OBAR"], pt = as ++ [i, st] := by
  obtain ⟨plain, derived, h1, h2, -⟩ := C206_same_observations (fun _ _ => .none) _ exSl_input exRunKey exSl_key
    (C201_case_fixes_independent "fcst_lead" exRunKey exSl_input.input exSl_key (Or.inl rfl)
      (fun r hr v hv => by rw [exSl_lead r hr v hv]; decide)
      (fun r hr r' hr' v v' hv hv' _ => by rw [exSl_lead r hr v hv, exSl_lead r' hr' v' hv']))
    (fun x hx v hv w hw => by
      obtain rfl : x = ("model", ["A", "B"]) := by simpa using hx
      exact ⟨(exRun_input.texts v hv w hw).2.1, (exRun_input.texts v hv w hw).2.2⟩)
    exLinePairs exSl_lines exSl_observed exSl_result (by simp)
  exact ⟨plain, derived, h1, h2⟩

example : ∃ out, aggRun (lineStat .sl1l2 exSlFrame) (fun _ _ => .none) exSlFrame exSlParams = .ok out :=
  C205_completes _ exSl_input exLinePairs exSl_lines rfl (by decide +kernel)

/-- Without event equalization the hypotheses of `C205_scores_without_equalization` hold too, and the observed means differ. -/
example : aggRun (lineStat .sl1l2 exSlFrame) (fun _ _ => .none) exSlFrame { exSlParams with eventEqual := "False" } =
      .ok [⟨["A", "6", "ME"], some "TMP", .num (11/4), 3⟩, ⟨["A", "6", "OBAR"], some "TMP", .num (7/4), 3⟩,
        ⟨["B", "6", "ME"], some "TMP", .num 2, 2⟩, ⟨["B", "6", "OBAR"], some "TMP", .num 2, 2⟩] ∧
    ∃ plain derived : List AggOut,
      [⟨["A", "6", "ME"], some "TMP", .num (11/4), 3⟩, ⟨["A", "6", "OBAR"], some "TMP", .num (7/4), 3⟩,
        ⟨["B", "6", "ME"], some "TMP", .num 2, 2⟩, ⟨["B", "6", "OBAR"], some "TMP", .num 2, 2⟩] = plain ++ derived := by
  have h : aggRun (lineStat .sl1l2 exSlFrame) (fun _ _ => .none) exSlFrame { exSlParams with eventEqual := "False" } =
      .ok [⟨["A", "6", "ME"], some "TMP", .num (11/4), 3⟩, ⟨["A", "6", "OBAR"], some "TMP", .num (7/4), 3⟩,
        ⟨["B", "6", "ME"], some "TMP", .num 2, 2⟩, ⟨["B", "6", "OBAR"], some "TMP", .num 2, 2⟩] := by decide +kernel
  refine ⟨h, ?_⟩
  obtain ⟨plain, derived, e, -⟩ := C205_scores_without_equalization (f := exSlFrame)
    (p := { exSlParams with eventEqual := "False" }) (fun _ _ => .none) _ .sl1l2 (Or.inl rfl) rfl exSl_input.input (by decide) (by unfold FieldsDistinct; decide) (by
      intro q hq v hv
      have : q ∈ [("model", ["A", "B"]), ("fcst_lead", ["6"]), ("stat_name", ["ME", "OBAR"])] := hq
      have hv' : v ∈ ["A", "B", "6", "ME", "OBAR"] := by
        simp only [List.mem_cons, List.not_mem_nil, or_false] at this
        rcases this with rfl | rfl | rfl <;> simp at hv ⊢ <;> tauto
      simp only [List.mem_cons, List.not_mem_nil, or_false] at hv'
      rcases hv' with rfl | rfl | rfl | rfl | rfl <;>
        exact ⟨⟨_, plain_standsFor (by decide) (by decide)⟩, by decide +kernel⟩) h
  exact ⟨plain, derived, e⟩

/-- CTC lines of two models; the line of model A at t2 is not used. -/
def exCtcFrame (ec : ℚ) : Frame :=
  { cols := ["fcst_valid_beg", "fcst_lead", "model", "fcst_var", "stat_name", "total", "fy_oy", "fy_on", "fn_oy", "fn_on",
      "ec_value"],
    rows := [
      [.str "t1", .num 6 "6", .str "A", .str "TMP", .str "CSI", .num 10 "10", .num 3 "3", .num 1 "1", .num 2 "2", .num 4 "4", .num (1/2) "0.5"],
      [.str "t2", .num 6 "6", .str "A", .str "TMP", .str "CSI", .num 10 "10", .num 9 "9", .num 0 "0", .num 0 "0", .num 1 "1", .num (1/2) "0.5"],
      [.str "t1", .num 6 "6", .str "B", .str "TMP", .str "CSI", .num 10 "10", .num 1 "1", .num 1 "1", .num 4 "4", .num 4 "4", .num (1/2) "0.5"],
      [.str "t3", .num 6 "6", .str "A", .str "TMP", .str "CSI", .num 10 "10", .num 1 "1", .num 1 "1", .num 0 "0", .num 8 "8", .num ec "ec"],
      [.str "t3", .num 6 "6", .str "B", .str "TMP", .str "CSI", .num 10 "10", .num 0 "0", .num 2 "2", .num 2 "2", .num 6 "6", .num (1/2) "0.5"]] }

def exCtcParams : AggParams :=
  { exSlParams with axis₁ := ⟨[("model", ["A", "B"])], ["CSI"], [], [("TMP", ["CSI"])]⟩ }

/-- CSI of the summed counts: 4 of 8 for model A, 1 of 10 for model B. -/
theorem exCtc_result : aggRun (lineStat .ctc (exCtcFrame (1/2))) (fun _ _ => .none) (exCtcFrame (1/2)) exCtcParams =
    .ok [⟨["A", "6", "CSI"], some "TMP", .num (1/2), 2⟩, ⟨["B", "6", "CSI"], some "TMP", .num (1/10), 2⟩] := by
  decide +kernel

/-- With another EC_VALUE in one of the lines the run raises. -/
theorem exCtc_mixed : aggRun (lineStat .ctc (exCtcFrame (1/3))) (fun _ _ => .none) (exCtcFrame (1/3)) exCtcParams =
    .error .valueError := by
  decide +kernel

theorem exCtc_input :
    OneAxisRun (exCtcFrame (1/2)) exCtcParams [] ("model", ["A", "B"]) (fun v => [v]) [] "TMP" ["CSI"] [] where
  input := ⟨by unfold FrameWF; decide +kernel, by decide +kernel, by decide +kernel, by decide +kernel, by intro _ h; exact absurd (by decide) h⟩
  forecast := by decide +kernel
  statistic := by decide +kernel
  on := rfl
  series := rfl
  second := rfl
  fixed := rfl
  names := by decide
  columns := by decide +kernel
  groups := exRun_input.groups
  texts := exRun_input.texts
  fcst := rfl
  pairs := by decide
  stats := by
    intro st hst
    obtain rfl : st = "CSI" := by simpa [exCtcParams] using hst
    exact ⟨by simp, by decide, by decide, plainText_of (by decide) (by decide) (by decide)⟩
  indy := exRun_input.indy
  somestat := by decide
  distinct := by decide
  plain := by decide +kernel

theorem exCtc_key : ∀ r ∈ (exCtcFrame (1/2)).rows, IsCaseKey (exCtcFrame (1/2)) "fcst_lead" true r (exRunKey r) := by
  intro r hr
  have h0 : ∀ r ∈ (exCtcFrame (1/2)).rows, r[0]? = some (r.getD 0 .null) ∧ r[1]? = some (r.getD 1 .null) := by decide +kernel
  obtain ⟨e0, e1⟩ := h0 r hr
  refine ⟨r.getD 0 .null, r.getD 1 .null, ⟨0, rfl, by simp, e0⟩, ⟨1, rfl, by decide +kernel, e1⟩, ?_⟩
  rw [if_neg (by decide)]
  rfl

/-- The counts of a line. -/
def exCounts (r : List Val) : Ctc :=
  ⟨(numberOf (cellAt r 6)).getD 0, (numberOf (cellAt r 7)).getD 0, (numberOf (cellAt r 8)).getD 0,
    (numberOf (cellAt r 9)).getD 0, (numberOf (cellAt r 5)).getD 0⟩

theorem exCtc_lines : CtcLines (exCtcFrame (1/2)) exCounts := by
  have key : ∀ (i : ℕ) (c : String) (g : List Val → ℚ), (exCtcFrame (1/2)).cols[i]? = some c →
      (∀ j < i, (exCtcFrame (1/2)).cols[j]? ≠ some c) →
      (∀ r ∈ (exCtcFrame (1/2)).rows, numberOf (cellAt r i) = some (g r)) →
      ∀ r ∈ (exCtcFrame (1/2)).rows, HasNumber (exCtcFrame (1/2)) r c (g r) := by
    intro i c g h1 h2 h3 r hr
    have := h3 r hr
    unfold cellAt at this
    cases h : r[i]? with
    | none => rw [h] at this; simp [numberOf] at this
    | some v =>
      rw [h] at this
      cases v with
      | num q t =>
        simp only [Option.getD_some, numberOf, Option.some.injEq] at this
        exact ⟨t, i, h1, h2, this ▸ h⟩
      | str s => simp [numberOf] at this
      | null => simp [numberOf] at this
  exact ⟨key 6 _ _ rfl (by decide +kernel) (by decide +kernel), key 7 _ _ rfl (by decide +kernel) (by decide +kernel),
    key 8 _ _ rfl (by decide +kernel) (by decide +kernel), key 9 _ _ rfl (by decide +kernel) (by decide +kernel),
    key 5 _ _ rfl (by decide +kernel) (by decide +kernel)⟩

/-- The hypotheses of C207 and C208 hold for the example. -/
example : (∃ plain derived : List AggOut,
    [⟨["A", "6", "CSI"], some "TMP", .num (1/2), 2⟩, ⟨["B", "6", "CSI"], some "TMP", .num (1/10), 2⟩] = plain ++ derived) ∧
    ∃ ec, ∀ r ∈ comparedRows (exCtcFrame (1/2)) [("model", ["A", "B"])] (fun v => [v]) [] "TMP" "fcst_lead" exRunKey ["A"]
      "6" "CSI", HasNumber (exCtcFrame (1/2)) r "ec_value" ec := by
  constructor
  · obtain ⟨plain, derived, h1, -⟩ := C207_scores (fun _ _ => .none) _ exCtc_input exRunKey exCtc_key exCounts
      exCtc_lines exCtc_result (by simp)
    exact ⟨plain, derived, h1⟩
  · exact C208_one_ec_value (fun _ _ => .none) _ exCtc_input exRunKey exCtc_key (by decide +kernel) exCtc_result
      (by simp) ["A"] "6" "CSI" (by simp) (by decide) (by decide)

end Metcalcpy.Props
