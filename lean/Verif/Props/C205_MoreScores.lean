/-
C205, C207: further scores of the aggregation table.
-/
import Verif.Props.C205_AggValues
import Verif.Props.C95_Sl1l2Spread

namespace Metcalcpy.Props

open Metcalcpy Spec

variable {f : Frame} {p : AggParams} {init : List (String × List String)} {sv : String × List String}
  {parts : String → List String} {fix : List (String × List String)} {fv : String} {sts : List String}
  {rest : List (String × List String)}

/-- `v` is the bias `s` of the pool of pairs: MBIAS is the ratio of the means (missing when the mean observation is zero),
ME2 the square of the mean error (rounded before and after squaring). -/
structure PoolBias (s : String) (pool : List Pair) (v : PyNum) : Prop where
  mbias : s = "mbias" → RatioIs ⟨avg Prod.fst pool, avg Prod.snd pool⟩ v
  me2 : s = "me2" → v = .num (roundHalfUp (roundHalfUp (meanError pool) 7 ^ 2) 7)

theorem sl_bias {f : Frame} {pairs : List Val → List Pair} (L : Sl1l2Lines f pairs) {rows data : List (List Val)}
    (hs : sortData f rows = .ok data) (hne : rows ≠ []) (hsub : ∀ r ∈ rows, r ∈ f.rows) {s : String} {v : PyNum}
    (h : lineStat .sl1l2 f s rows = .ok v) : PoolBias s (rows.flatMap pairs) v := by
  obtain ⟨hperm, -⟩ := sortData_spec hs
  have D := sl_table L (rows := data) (by
    intro e
    rw [e] at hperm
    exact hne (List.nil_perm.mp hperm)) (fun r hr => hsub r (hperm.mem_iff.mp hr))
  have hpool : (data.map pairs).flatten.Perm (rows.flatMap pairs) := by
    rw [← List.flatMap_def]
    exact hperm.flatMap_right pairs
  obtain ⟨b1, b2⟩ := C95_bias _ _ D
  have hme : meanError (data.map pairs).flatten = meanError (rows.flatMap pairs) := perm_avg _ hpool
  rw [perm_avg Prod.fst hpool, perm_avg Prod.snd hpool] at b1
  rw [hme] at b2
  constructor <;> rintro rfl
  · rw [lineStat_sl hs rfl b1] at h
    rw [← Except.ok.inj h]
    constructor <;> intro h0 <;> simp only at h0 <;> simp [h0, toPyNum]
  · rw [lineStat_sl hs rfl b2] at h
    exact (Except.ok.inj h).symm

/-- C205: the same for MBIAS and ME2. -/
theorem C205_bias_scores (etb : List PyNum → List PyNum → PyNum) (out : List AggOut)
    (R : OneAxisRun f p init sv parts fix fv sts rest) (key : List Val → String)
    (hkey : ∀ r ∈ f.rows, IsCaseKey f p.indyVar true r (key r)) (pairs : List Val → List Pair)
    (L : Sl1l2Lines f pairs) (h : aggRun (lineStat .sl1l2 f) etb f p = .ok out) (hne : out ≠ []) :
    ∃ plain derived, out = plain ++ derived ∧
      (∀ pt, pt ∈ plain.map AggOut.point ↔
        ∃ as, List.Forall₂ (fun x q => x ∈ q.2) as (init ++ [sv]) ∧ ∃ i ∈ p.indyVals, ∃ st ∈ p.axis₁.stats,
          pt = as ++ [i, st]) ∧
      ∀ o ∈ plain, ∀ as i st, o.point = as ++ [i, st] →
        ∀ rows, rows = comparedRows f (init ++ [sv]) parts fix fv p.indyVar key as i st →
          (rows = [] → o.value = .none) ∧ (rows ≠ [] → PoolBias (lower st) (rows.flatMap pairs) o.value) := by
  rcases C201_values_partial _ etb out R key hkey h with ⟨h0, -⟩ | ⟨plain, derived, e, hpts, hval⟩
  · exact absurd h0 hne
  · refine ⟨plain, derived, e, hpts, ?_⟩
    rintro o ho as i st hpt rows rfl
    obtain ⟨-, h2, h3⟩ := hval o ho as i st hpt _ rfl
    refine ⟨h2, fun hr => ?_⟩
    obtain ⟨data, hs⟩ := sortData_exists R.input (comparedRows f (init ++ [sv]) parts fix fv p.indyVar key as i st)
    exact sl_bias L hs hr comparedRows_sub (h3 hr)

/-- `v` is the score `s` of the contingency table, computed from its rounded PODY and POFD: HK is their difference, ODDS and
ODDS1 the ratio of the odds of a hit and of a false alarm. -/
structure ComposedScore (s : String) (t : Ctc) (v : PyNum) : Prop where
  missing : s ∈ ["hk", "odds", "odds1"] → t.hits + t.misses = 0 ∨ t.falseAlarms + t.correctNegatives = 0 → v = .none
  present : t.hits + t.misses ≠ 0 → t.falseAlarms + t.correctNegatives ≠ 0 →
    ∀ a b, a = roundHalfUp (t.hits / (t.hits + t.misses)) 7 →
      b = roundHalfUp (t.falseAlarms / (t.falseAlarms + t.correctNegatives)) 7 →
      (s = "hk" → v = .num (roundHalfUp (a - b) 7)) ∧
      (s = "odds" → RatioIs ⟨a * (1 - b), b * (1 - a)⟩ v) ∧
      (s = "odds1" → v = if a = 1 ∨ b = 1 ∨ b = 0 then .none else .num (roundHalfUp ((a / (1 - a)) / (b / (1 - b))) 7))

theorem ctc_composed {f : Frame} {counts : List Val → Ctc} (L : CtcLines f counts) {rows data : List (List Val)}
    (hs : sortData f rows = .ok data) (hne : rows ≠ []) (hsub : ∀ r ∈ rows, r ∈ f.rows) {s : String} {v : PyNum}
    (h : lineStat .ctc f s rows = .ok v) : ComposedScore s (pooledCounts (rows.map counts)) v := by
  obtain ⟨hperm, -⟩ := sortData_spec hs
  have D := ctc_table L (rows := data) (by
    intro e
    rw [e] at hperm
    exact hne (List.nil_perm.mp hperm)) (fun r hr => hsub r (hperm.mem_iff.mp hr))
  have hsum : ∀ g : Ctc → ℚ, (data.map fun r => g (counts r)).sum = ((rows.map counts).map g).sum := by
    intro g
    rw [List.map_map]
    exact (hperm.map (fun r => g (counts r))).sum_eq
  obtain ⟨c1, c2⟩ := C10_composed_scores D
  simp only [hsum Ctc.hits, hsum Ctc.falseAlarms, hsum Ctc.misses, hsum Ctc.correctNegatives] at c1 c2
  unfold pooledCounts
  constructor
  · intro hm h0
    obtain ⟨d1, d2, d3⟩ := c1 h0
    simp only [List.mem_cons, List.not_mem_nil, or_false] at hm
    rcases hm with rfl | rfl | rfl
    · rw [lineStat_ctc hs rfl rfl h, d1]; rfl
    · rw [lineStat_ctc hs rfl rfl h, d2]; rfl
    · rw [lineStat_ctc hs rfl rfl h, d3]; rfl
  · rintro h1 h2 a b rfl rfl
    simp only at h1 h2 ⊢
    obtain ⟨d1, d2, d3⟩ := c2 _ _ (by unfold Ratio.rounded podyRatio; exact if_neg h1) (by
      unfold Ratio.rounded pofdRatio; exact if_neg h2)
    refine ⟨?_, ?_, ?_⟩ <;> rintro rfl
    · rw [lineStat_ctc hs rfl rfl h, d1]; rfl
    · rw [lineStat_ctc hs rfl rfl h, d2]; exact ratioIs_rounded _
    · rw [lineStat_ctc hs rfl rfl h, d3]; split <;> rfl

/-- C207: the same for HK, ODDS and ODDS1. -/
theorem C207_composed_scores (etb : List PyNum → List PyNum → PyNum) (out : List AggOut)
    (R : OneAxisRun f p init sv parts fix fv sts rest) (key : List Val → String)
    (hkey : ∀ r ∈ f.rows, IsCaseKey f p.indyVar true r (key r)) (counts : List Val → Ctc)
    (L : CtcLines f counts) (h : aggRun (lineStat .ctc f) etb f p = .ok out) (hne : out ≠ []) :
    ∃ plain derived, out = plain ++ derived ∧
      (∀ pt, pt ∈ plain.map AggOut.point ↔
        ∃ as, List.Forall₂ (fun x q => x ∈ q.2) as (init ++ [sv]) ∧ ∃ i ∈ p.indyVals, ∃ st ∈ p.axis₁.stats,
          pt = as ++ [i, st]) ∧
      ∀ o ∈ plain, ∀ as i st, o.point = as ++ [i, st] →
        ∀ rows, rows = comparedRows f (init ++ [sv]) parts fix fv p.indyVar key as i st →
          (rows = [] → o.value = .none) ∧
          (rows ≠ [] → ComposedScore (lower st) (pooledCounts (rows.map counts)) o.value) := by
  rcases C201_values_partial _ etb out R key hkey h with ⟨h0, -⟩ | ⟨plain, derived, e, hpts, hval⟩
  · exact absurd h0 hne
  · refine ⟨plain, derived, e, hpts, ?_⟩
    rintro o ho as i st hpt rows rfl
    obtain ⟨-, h2, h3⟩ := hval o ho as i st hpt _ rfl
    refine ⟨h2, fun hr => ?_⟩
    obtain ⟨data, hs⟩ := sortData_exists R.input (comparedRows f (init ++ [sv]) parts fix fv p.indyVar key as i st)
    exact ctc_composed L hs hr comparedRows_sub (h3 hr)

/-! ### Examples -/

/-- The lines of `exSlFrame` for other statistics. -/
def exBiasFrame : Frame :=
  { exSlFrame with rows := exSlFrame.rows.map fun r => r.set 4 (if cellAt r 4 = .str "ME" then .str "MBIAS" else .str "ME2") }

def exBiasParams : AggParams :=
  { exSlParams with axis₁ := ⟨[("model", ["A", "B"])], ["MBIAS", "ME2"], [], [("TMP", ["MBIAS", "ME2"])]⟩ }

theorem exBias_lines : Sl1l2Lines exBiasFrame exLinePairs := by
  have key : ∀ (i : ℕ) (c : String) (g : List Val → ℚ), exBiasFrame.cols[i]? = some c →
      (∀ j < i, exBiasFrame.cols[j]? ≠ some c) → (∀ r ∈ exBiasFrame.rows, numberOf (cellAt r i) = some (g r)) →
      ∀ r ∈ exBiasFrame.rows, HasNumber exBiasFrame r c (g r) := by
    intro i c g h1 h2 h3 r hr
    have := h3 r hr
    unfold cellAt at this
    cases h : r[i]? with
    | none => rw [h] at this; simp [numberOf] at this
    | some v =>
      rw [h] at this
      cases v with
      | num q t =>
        simp only [Option.getD_some, numberOf, Option.some.injEq] at this
        exact ⟨t, i, h1, h2, this ▸ h⟩
      | str s => simp [numberOf] at this
      | null => simp [numberOf] at this
  exact ⟨by decide, key 5 _ _ (by decide) (by decide) (by decide +kernel),
    key 6 _ _ (by decide) (by decide) (by decide +kernel), key 7 _ _ (by decide) (by decide) (by decide +kernel),
    key 8 _ _ (by decide) (by decide) (by decide +kernel), key 9 _ _ (by decide) (by decide) (by decide +kernel),
    key 10 _ _ (by decide) (by decide) (by decide +kernel)⟩

theorem exBias_input :
    OneAxisRun exBiasFrame exBiasParams [] ("model", ["A", "B"]) (fun v => [v]) [] "TMP" ["MBIAS", "ME2"] [] where
  input := ⟨by unfold FrameWF; decide, by decide, by decide, by decide, by intro _ h; exact absurd (by decide) h⟩
  forecast := by decide
  statistic := by decide
  on := rfl
  series := rfl
  second := rfl
  fixed := rfl
  names := by decide
  columns := by decide
  groups := exRun_input.groups
  texts := exRun_input.texts
  fcst := rfl
  pairs := by decide
  stats := by
    intro st hst
    have : st = "MBIAS" ∨ st = "ME2" := by simpa [exBiasParams] using hst
    rcases this with rfl | rfl <;>
      exact ⟨by simp, by decide, by decide, plainText_of (by decide) (by decide) (by decide)⟩
  indy := exRun_input.indy
  somestat := by decide
  distinct := by decide
  plain := by decide +kernel

theorem exBias_key : ∀ r ∈ exBiasFrame.rows, IsCaseKey exBiasFrame "fcst_lead" true r (exRunKey r) := by
  intro r hr
  have h0 : ∀ r ∈ exBiasFrame.rows, r[0]? = some (r.getD 0 .null) ∧ r[1]? = some (r.getD 1 .null) := by decide
  obtain ⟨e0, e1⟩ := h0 r hr
  refine ⟨r.getD 0 .null, r.getD 1 .null, ⟨0, by decide, by simp, e0⟩, ⟨1, by decide, by decide, e1⟩, ?_⟩
  rw [if_neg (by decide)]
  rfl

/-- The mean forecasts are 3 and 4, the mean observations are 2. -/
theorem exBias_result : aggRun (lineStat .sl1l2 exBiasFrame) (fun _ _ => .none) exBiasFrame exBiasParams =
    .ok [⟨["A", "6", "MBIAS"], some "TMP", .num (3 / 2), 2⟩, ⟨["A", "6", "ME2"], some "TMP", .num 1, 2⟩,
      ⟨["B", "6", "MBIAS"], some "TMP", .num 2, 2⟩, ⟨["B", "6", "ME2"], some "TMP", .num 4, 2⟩] := by
  decide +kernel

example := C205_bias_scores (fun _ _ => .none) _ exBias_input exRunKey exBias_key exLinePairs exBias_lines exBias_result (by simp)

/-- The lines of `exCtcFrame` for two statistics. -/
def exHkFrame : Frame :=
  { exCtcFrame (1/2) with rows := ["HK", "ODDS"].flatMap fun s => (exCtcFrame (1/2)).rows.map fun r => r.set 4 (.str s) }

def exHkParams : AggParams :=
  { exSlParams with axis₁ := ⟨[("model", ["A", "B"])], ["HK", "ODDS"], [], [("TMP", ["HK", "ODDS"])]⟩ }

theorem exHk_input :
    OneAxisRun exHkFrame exHkParams [] ("model", ["A", "B"]) (fun v => [v]) [] "TMP" ["HK", "ODDS"] [] where
  input := ⟨by unfold FrameWF; decide +kernel, by decide +kernel, by decide +kernel, by decide +kernel, by intro _ h; exact absurd (by decide) h⟩
  forecast := by decide +kernel
  statistic := by decide +kernel
  on := rfl
  series := rfl
  second := rfl
  fixed := rfl
  names := by decide
  columns := by decide +kernel
  groups := exRun_input.groups
  texts := exRun_input.texts
  fcst := rfl
  pairs := by decide
  stats := by
    intro st hst
    have : st = "HK" ∨ st = "ODDS" := by simpa [exHkParams] using hst
    rcases this with rfl | rfl <;> exact ⟨by simp, by decide, by decide, plainText_of (by decide) (by decide) (by decide)⟩
  indy := exRun_input.indy
  somestat := by decide
  distinct := by decide
  plain := by decide +kernel

theorem exHk_key : ∀ r ∈ exHkFrame.rows, IsCaseKey exHkFrame "fcst_lead" true r (exRunKey r) := by
  intro r hr
  have h0 : ∀ r ∈ exHkFrame.rows, r[0]? = some (r.getD 0 .null) ∧ r[1]? = some (r.getD 1 .null) := by decide +kernel
  obtain ⟨e0, e1⟩ := h0 r hr
  refine ⟨r.getD 0 .null, r.getD 1 .null, ⟨0, rfl, by simp, e0⟩, ⟨1, rfl, by decide +kernel, e1⟩, ?_⟩
  rw [if_neg (by decide)]
  rfl

theorem exHk_lines : CtcLines exHkFrame exCounts := by
  have key : ∀ (i : ℕ) (c : String) (g : List Val → ℚ), exHkFrame.cols[i]? = some c →
      (∀ j < i, exHkFrame.cols[j]? ≠ some c) →
      (∀ r ∈ exHkFrame.rows, numberOf (cellAt r i) = some (g r)) →
      ∀ r ∈ exHkFrame.rows, HasNumber exHkFrame r c (g r) := by
    intro i c g h1 h2 h3 r hr
    have := h3 r hr
    unfold cellAt at this
    cases h : r[i]? with
    | none => rw [h] at this; simp [numberOf] at this
    | some v =>
      rw [h] at this
      cases v with
      | num q t =>
        simp only [Option.getD_some, numberOf, Option.some.injEq] at this
        exact ⟨t, i, h1, h2, this ▸ h⟩
      | str s => simp [numberOf] at this
      | null => simp [numberOf] at this
  exact ⟨key 6 _ _ rfl (by decide +kernel) (by decide +kernel), key 7 _ _ rfl (by decide +kernel) (by decide +kernel),
    key 8 _ _ rfl (by decide +kernel) (by decide +kernel), key 9 _ _ rfl (by decide +kernel) (by decide +kernel),
    key 5 _ _ rfl (by decide +kernel) (by decide +kernel)⟩

/-- Model A hits 4 of 6 events and has 2 false alarms in 14 other cases. -/
theorem exHk_result : aggRun (lineStat .ctc exHkFrame) (fun _ _ => .none) exHkFrame exHkParams =
    .ok [⟨["A", "6", "HK"], some "TMP", .num (327381 / 625000), 2⟩, ⟨["A", "6", "ODDS"], some "TMP", .num (6000003 / 500000), 2⟩,
      ⟨["B", "6", "HK"], some "TMP", .num (-879121 / 10000000), 2⟩, ⟨["B", "6", "ODDS"], some "TMP", .num (1111111 / 2000000), 2⟩] := by
  decide +kernel

example := C207_composed_scores (fun _ _ => .none) _ exHk_input exRunKey exHk_key exCounts exHk_lines exHk_result (by simp)

end Metcalcpy.Props
