/-
C44  Matched and unmatched object percentages add up to one (false of some statistics).
C79  MODE percentages and ratios are the ones their descriptions announce (false of some).
C80  Object-based hits, misses, CSI, PODY and FAR follow their definitions (false of some).
C81  2d and 3d variants restrict the statistics to the objects of that dimension (false of the volumes).
-/
import Verif.Lemmas.Mode
import Mathlib.Tactic.FieldSimp
import Mathlib.Tactic.Linarith
import Mathlib.Tactic.Ring
import Mathlib.Tactic.NormNum

namespace Metcalcpy.Props
open Metcalcpy Spec

variable {f : Frame} {objs : List ModeObj}

theorem roundedQuot_some (a b : ℚ) : roundedQuot (some a) (some b) = quotient a b := by
  unfold roundedQuot quotient pyDiv
  by_cases h : b = 0 <;> simp [h, PRECISION]

theorem count_ratio (D : ModeData f objs) (num den : List (String × ℤ)) (h1 : ∀ p ∈ num, p.1 ∈ flagNames)
    (h2 : ∀ p ∈ den, p.1 ∈ flagNames) :
    modeCount (.ratio num den) f = .ok (numberRatio objs (objSat num) (objSat den)) := by
  simp only [modeCount, evalMode, nrow_modeData D num h1, nrow_modeData D den h2, bind, Except.bind,
    roundedQuot_some, numberRatio]

theorem area_ratio (D : ModeData f objs) (num den : List (String × ℤ)) (h1 : ∀ p ∈ num, p.1 ∈ flagNames)
    (h2 : ∀ p ∈ den, p.1 ∈ flagNames) :
    modeArea (.ratio num den) f = .ok (areaRatio objs (objSat num) (objSat den)) := by
  simp only [modeArea, evalMode, area_modeData D num h1, area_modeData D den h2, bind, Except.bind,
    areaRatio]
  by_cases e1 : objs.filter (objSat num) = []
  · simp [e1, roundedQuot]
  · by_cases e2 : objs.filter (objSat den) = []
    · simp [e1, e2, roundedQuot]
    · simp [e1, e2, roundedQuot_some]

/-- Evaluates a filter on flags. -/
theorem objSat_eq (fs : List (String × ℤ)) (p : ModeObj → Bool)
    (h : ∀ a b c : Bool, ∀ x : ℚ, objSat fs ⟨a, b, c, x⟩ = p ⟨a, b, c, x⟩) : objSat fs = p := by
  funext o; cases o; exact h _ _ _ _

theorem sat_f1s1 : objSat [("fcst_flag", 1), ("simple_flag", 1)] = FSA :=
  objSat_eq _ _ (by intro a b c x; cases a <;> cases b <;> cases c <;> rfl)
theorem sat_f0s1 : objSat [("fcst_flag", 0), ("simple_flag", 1)] = OSA :=
  objSat_eq _ _ (by intro a b c x; cases a <;> cases b <;> cases c <;> rfl)
theorem sat_s1 : objSat [("simple_flag", 1)] = ASA :=
  objSat_eq _ _ (by intro a b c x; cases a <;> cases b <;> cases c <;> rfl)
theorem sat_s0 : objSat [("simple_flag", 0)] = ACA :=
  objSat_eq _ _ (by intro a b c x; cases a <;> cases b <;> cases c <;> rfl)
theorem sat_f1s0 : objSat [("fcst_flag", 1), ("simple_flag", 0)] = FCA :=
  objSat_eq _ _ (by intro a b c x; cases a <;> cases b <;> cases c <;> rfl)
theorem sat_f0s0 : objSat [("fcst_flag", 0), ("simple_flag", 0)] = OCA :=
  objSat_eq _ _ (by intro a b c x; cases a <;> cases b <;> cases c <;> rfl)
theorem sat_f1 : objSat [("fcst_flag", 1)] = FAA :=
  objSat_eq _ _ (by intro a b c x; cases a <;> cases b <;> cases c <;> rfl)
theorem sat_f0 : objSat [("fcst_flag", 0)] = OAA :=
  objSat_eq _ _ (by intro a b c x; cases a <;> cases b <;> cases c <;> rfl)
theorem sat_nil : objSat [] = AAA := rfl
theorem sat_s1m1 : objSat [("simple_flag", 1), ("matched_flag", 1)] = ASM :=
  objSat_eq _ _ (by intro a b c x; cases a <;> cases b <;> cases c <;> rfl)
theorem sat_m1s1 : objSat [("matched_flag", 1), ("simple_flag", 1)] = ASM :=
  objSat_eq _ _ (by intro a b c x; cases a <;> cases b <;> cases c <;> rfl)
theorem sat_s1m0 : objSat [("simple_flag", 1), ("matched_flag", 0)] = ASU :=
  objSat_eq _ _ (by intro a b c x; cases a <;> cases b <;> cases c <;> rfl)
theorem sat_m0s1 : objSat [("matched_flag", 0), ("simple_flag", 1)] = ASU :=
  objSat_eq _ _ (by intro a b c x; cases a <;> cases b <;> cases c <;> rfl)
theorem sat_f1s1m1 : objSat [("fcst_flag", 1), ("simple_flag", 1), ("matched_flag", 1)] = FSM :=
  objSat_eq _ _ (by intro a b c x; cases a <;> cases b <;> cases c <;> rfl)
theorem sat_f1s1m0 : objSat [("fcst_flag", 1), ("simple_flag", 1), ("matched_flag", 0)] = FSU :=
  objSat_eq _ _ (by intro a b c x; cases a <;> cases b <;> cases c <;> rfl)
theorem sat_f0s1m1 : objSat [("fcst_flag", 0), ("simple_flag", 1), ("matched_flag", 1)] = OSM :=
  objSat_eq _ _ (by intro a b c x; cases a <;> cases b <;> cases c <;> rfl)
theorem sat_f0s1m0 : objSat [("fcst_flag", 0), ("simple_flag", 1), ("matched_flag", 0)] = OSU :=
  objSat_eq _ _ (by intro a b c x; cases a <;> cases b <;> cases c <;> rfl)

/-- Forecast objects that are matched, simple or not. -/
def anyFcstMatched (o : ModeObj) : Bool := o.fcst && o.matched
/-- Forecast objects that are unmatched, simple or not. -/
def anyFcstUnmatched (o : ModeObj) : Bool := o.fcst && !o.matched

theorem sat_f1m1 : objSat [("fcst_flag", 1), ("matched_flag", 1)] = anyFcstMatched :=
  objSat_eq _ _ (by intro a b c x; cases a <;> cases b <;> cases c <;> rfl)
theorem sat_f1m0 : objSat [("fcst_flag", 1), ("matched_flag", 0)] = anyFcstUnmatched :=
  objSat_eq _ _ (by intro a b c x; cases a <;> cases b <;> cases c <;> rfl)

/-! ### C79 -/

/-- C79, statistics by number that agree with their description ("% of B objects that are A" and "ratio of A
to B").  Missing: the four of `C79_count_deviations`, for which the description is wrong. -/
theorem C79_count_partial (D : ModeData f objs) :
    (modeCount ModeRatio.asm_asa f = .ok (numberRatio objs ASM ASA) ∧
     modeCount ModeRatio.fsa_asa f = .ok (numberRatio objs FSA ASA) ∧
     modeCount ModeRatio.osa_asa f = .ok (numberRatio objs OSA ASA) ∧
     modeCount ModeRatio.asu_asa f = .ok (numberRatio objs ASU ASA) ∧
     modeCount ModeRatio.osm_osa f = .ok (numberRatio objs OSM OSA) ∧
     modeCount ModeRatio.osu_osa f = .ok (numberRatio objs OSU OSA) ∧
     modeCount ModeRatio.fsu_asu f = .ok (numberRatio objs FSU ASU) ∧
     modeCount ModeRatio.osu_asu f = .ok (numberRatio objs OSU ASU)) ∧
    (modeCount ModeRatio.fsa_aaa f = .ok (numberRatio objs FSA AAA) ∧
     modeCount ModeRatio.osa_aaa f = .ok (numberRatio objs OSA AAA) ∧
     modeCount ModeRatio.fsa_faa f = .ok (numberRatio objs FSA FAA) ∧
     modeCount ModeRatio.fca_faa f = .ok (numberRatio objs FCA FAA) ∧
     modeCount ModeRatio.osa_oaa f = .ok (numberRatio objs OSA OAA) ∧
     modeCount ModeRatio.oca_oaa f = .ok (numberRatio objs OCA OAA) ∧
     modeCount ModeRatio.fca_aca f = .ok (numberRatio objs FCA ACA) ∧
     modeCount ModeRatio.oca_aca f = .ok (numberRatio objs OCA ACA)) ∧
    (modeCount ModeRatio.fsa_osa f = .ok (numberRatio objs FSA OSA) ∧
     modeCount ModeRatio.osa_fsa f = .ok (numberRatio objs OSA FSA) ∧
     modeCount ModeRatio.aca_asa f = .ok (numberRatio objs ACA ASA) ∧
     modeCount ModeRatio.asa_aca f = .ok (numberRatio objs ASA ACA) ∧
     modeCount ModeRatio.fca_fsa f = .ok (numberRatio objs FCA FSA) ∧
     modeCount ModeRatio.fsa_fca f = .ok (numberRatio objs FSA FCA) ∧
     modeCount ModeRatio.oca_osa f = .ok (numberRatio objs OCA OSA) ∧
     modeCount ModeRatio.osa_oca f = .ok (numberRatio objs OSA OCA)) := by
  refine ⟨⟨?_, ?_, ?_, ?_, ?_, ?_, ?_, ?_⟩, ⟨?_, ?_, ?_, ?_, ?_, ?_, ?_, ?_⟩, ?_, ?_, ?_, ?_, ?_, ?_, ?_, ?_⟩
  all_goals
    refine (count_ratio D _ _ (by decide) (by decide)).trans ?_
    simp only [sat_f1s1, sat_f0s1, sat_s1, sat_s0, sat_f1s0, sat_f0s0, sat_f1, sat_f0, sat_nil, sat_s1m1,
      sat_s1m0, sat_m0s1, sat_f1s1m0, sat_f0s1m1, sat_f0s1m0]

/-- C79, what the other four statistics by number really are: fsm_fsa also counts matched forecast clusters,
fsu_fsa is the share of the matched, fsm_asm and osm_asm put the unmatched into the numerator. -/
theorem C79_count_deviations (D : ModeData f objs) :
    modeCount ModeRatio.fsm_fsa f = .ok (numberRatio objs anyFcstMatched FSA) ∧
    modeCount ModeRatio.fsu_fsa f = .ok (numberRatio objs FSM FSA) ∧
    modeCount ModeRatio.fsm_asm f = .ok (numberRatio objs FSU ASM) ∧
    modeCount ModeRatio.osm_asm f = .ok (numberRatio objs OSU ASM) := by
  refine ⟨?_, ?_, ?_, ?_⟩
  all_goals
    refine (count_ratio D _ _ (by decide) (by decide)).trans ?_
    simp only [sat_f1s1, sat_f1m1, sat_f1s1m1, sat_f1s1m0, sat_f0s1m0, sat_m1s1]

/-- C79, statistics by area that agree with their description.  Missing: fsm_asm and osa_fsa, see
`C79_area_deviations`. -/
theorem C79_area_partial (D : ModeData f objs) :
    (modeArea ModeArea.fsa_asa f = .ok (areaRatio objs FSA ASA) ∧
     modeArea ModeArea.osa_asa f = .ok (areaRatio objs OSA ASA) ∧
     modeArea ModeArea.asm_asa f = .ok (areaRatio objs ASM ASA) ∧
     modeArea ModeArea.asu_asa f = .ok (areaRatio objs ASU ASA) ∧
     modeArea ModeArea.fsm_fsa f = .ok (areaRatio objs FSM FSA) ∧
     modeArea ModeArea.fsu_fsa f = .ok (areaRatio objs FSU FSA) ∧
     modeArea ModeArea.osm_osa f = .ok (areaRatio objs OSM OSA) ∧
     modeArea ModeArea.osu_osa f = .ok (areaRatio objs OSU OSA)) ∧
    (modeArea ModeArea.osm_asm f = .ok (areaRatio objs OSM ASM) ∧
     modeArea ModeArea.osu_asu f = .ok (areaRatio objs OSU ASU) ∧
     modeArea ModeArea.fsa_aaa f = .ok (areaRatio objs FSA AAA) ∧
     modeArea ModeArea.osa_aaa f = .ok (areaRatio objs OSA AAA) ∧
     modeArea ModeArea.fsa_faa f = .ok (areaRatio objs FSA FAA) ∧
     modeArea ModeArea.fca_faa f = .ok (areaRatio objs FCA FAA) ∧
     modeArea ModeArea.osa_oaa f = .ok (areaRatio objs OSA OAA) ∧
     modeArea ModeArea.oca_oaa f = .ok (areaRatio objs OCA OAA)) ∧
    (modeArea ModeArea.fca_aca f = .ok (areaRatio objs FCA ACA) ∧
     modeArea ModeArea.oca_aca f = .ok (areaRatio objs OCA ACA) ∧
     modeArea ModeArea.fsa_osa f = .ok (areaRatio objs FSA OSA) ∧
     modeArea ModeArea.aca_asa f = .ok (areaRatio objs ACA ASA) ∧
     modeArea ModeArea.asa_aca f = .ok (areaRatio objs ASA ACA) ∧
     modeArea ModeArea.fca_fsa f = .ok (areaRatio objs FCA FSA) ∧
     modeArea ModeArea.fsa_fca f = .ok (areaRatio objs FSA FCA) ∧
     modeArea ModeArea.oca_osa f = .ok (areaRatio objs OCA OSA) ∧
     modeArea ModeArea.osa_oca f = .ok (areaRatio objs OSA OCA)) := by
  refine ⟨⟨?_, ?_, ?_, ?_, ?_, ?_, ?_, ?_⟩, ⟨?_, ?_, ?_, ?_, ?_, ?_, ?_, ?_⟩, ?_, ?_, ?_, ?_, ?_, ?_, ?_, ?_, ?_⟩
  all_goals
    refine (area_ratio D _ _ (by decide) (by decide)).trans ?_
    simp only [sat_f1s1, sat_f0s1, sat_s1, sat_s0, sat_f1s0, sat_f0s0, sat_f1, sat_f0, sat_nil, sat_s1m1,
      sat_s1m0, sat_f1s1m0, sat_f1s1m1, sat_f0s1m1, sat_f0s1m0]

/-- C79, what the other two statistics by area really are: fsm_asm is the unmatched share of the simple
forecasts; osa_fsa divides the observations by themselves, so it is 1 or missing. -/
theorem C79_area_deviations (D : ModeData f objs) :
    modeArea ModeArea.fsm_asm f = .ok (areaRatio objs FSU FSA) ∧
    modeArea ModeArea.osa_fsa f = .ok (if totalArea objs OSA = 0 then none else some 1) := by
  constructor
  · refine (area_ratio D _ _ (by decide) (by decide)).trans ?_
    simp only [sat_f1s1, sat_f1s1m0]
  · refine (area_ratio D _ _ (by decide) (by decide)).trans ?_
    simp only [sat_f0s1, areaRatio, or_self, quotient]
    by_cases e : objs.filter OSA = []
    · simp [e, totalArea]
    · by_cases e' : totalArea objs OSA = 0
      · simp [e']
      · have h1 : roundHalfUp (1 : ℚ) 7 = 1 := round7_one
        simp [e, e', div_self e', h1]

/-! ### C44 -/

theorem filter_length_split (p q r : ModeObj → Bool) (h : ∀ o, p o = (q o || r o)) (hd : ∀ o, (q o && r o) = false) :
    number objs p = number objs q + number objs r := by
  unfold number
  induction objs with
  | nil => simp
  | cons o l ih =>
    have a := h o; have b := hd o
    revert a b
    cases hp : p o <;> cases hq : q o <;> cases hr : r o <;> simp [List.filter_cons, hp, hq, hr]
    all_goals (push_cast; linarith)

theorem area_split (p q r : ModeObj → Bool) (h : ∀ o, p o = (q o || r o)) (hd : ∀ o, (q o && r o) = false) :
    totalArea objs p = totalArea objs q + totalArea objs r := by
  unfold totalArea
  induction objs with
  | nil => simp
  | cons o l ih =>
    have a := h o; have b := hd o
    revert a b
    cases hp : p o <;> cases hq : q o <;> cases hr : r o <;> simp [List.filter_cons, hp, hq, hr]
    all_goals linarith

theorem round_complement (x : ℚ) :
    roundHalfUp x 7 + roundHalfUp (1 - x) 7 = 1 ∨ roundHalfUp x 7 + roundHalfUp (1 - x) 7 = 1 + 1 / 10 ^ 7 := by
  unfold roundHalfUp
  have hcast : ((10 : ℚ) ^ (7 : ℤ)) = 10 ^ 7 := by norm_cast
  rw [hcast]
  have f1 := Int.floor_le (x * 10 ^ 7 + 1 / 2)
  have f2 := Int.lt_floor_add_one (x * 10 ^ 7 + 1 / 2)
  have g1 := Int.floor_le ((1 - x) * 10 ^ 7 + 1 / 2)
  have g2 := Int.lt_floor_add_one ((1 - x) * 10 ^ 7 + 1 / 2)
  generalize ⌊x * 10 ^ 7 + 1 / 2⌋ = k at *
  generalize ⌊(1 - x) * 10 ^ 7 + 1 / 2⌋ = l at *
  have s1 : ((k + l : ℤ) : ℚ) ≤ ((10 ^ 7 + 1 : ℤ) : ℚ) := by push_cast; linarith
  have s2 : ((10 ^ 7 - 1 : ℤ) : ℚ) < ((k + l : ℤ) : ℚ) := by push_cast; linarith
  have s1' : k + l ≤ 10 ^ 7 + 1 := by exact_mod_cast s1
  have s2' : 10 ^ 7 - 1 < k + l := by exact_mod_cast s2
  rw [← add_div]
  have : k + l = 10 ^ 7 ∨ k + l = 10 ^ 7 + 1 := by omega
  rcases this with hs | hs
  · left
    have : ((k : ℚ) + l) = 10 ^ 7 := by
      have : ((k + l : ℤ) : ℚ) = ((10 ^ 7 : ℤ) : ℚ) := by rw [hs]
      push_cast at this; linarith
    rw [this]; norm_num
  · right
    have : ((k : ℚ) + l) = 10 ^ 7 + 1 := by
      have : ((k + l : ℤ) : ℚ) = ((10 ^ 7 + 1 : ℤ) : ℚ) := by rw [hs]
      push_cast at this; linarith
    rw [this]; norm_num

/-- What "the two percentages add up to one" means for two reported values: both missing, or both in [0,1]
with sum 1 (1 + 10^-7 when a tie in the seventh decimal is rounded up twice). -/
def AddUpToOne (a b : Option ℚ) : Prop :=
  (a = none ∧ b = none) ∨ ∃ v w, a = some v ∧ b = some w ∧ 0 ≤ v ∧ v ≤ 1 ∧ 0 ≤ w ∧ w ≤ 1 ∧
    (v + w = 1 ∨ v + w = 1 + 1 / 10 ^ 7)

theorem quotient_complement {x y z : ℚ} (hx : 0 ≤ x) (hy : 0 ≤ y) (h : z = x + y) :
    AddUpToOne (quotient x z) (quotient y z) := by
  unfold quotient AddUpToOne
  by_cases hz : z = 0
  · left; simp [hz]
  · right
    have hzp : 0 < z := lt_of_le_of_ne (by linarith) (Ne.symm hz)
    have e : y / z = 1 - x / z := by rw [h] at hz ⊢; field_simp; ring
    have a0 : 0 ≤ x / z := div_nonneg hx hzp.le
    have a1 : x / z ≤ 1 := by rw [div_le_one hzp]; linarith
    have b0 : 0 ≤ y / z := div_nonneg hy hzp.le
    have b1 : y / z ≤ 1 := by rw [div_le_one hzp]; linarith
    refine ⟨roundHalfUp (x / z) 7, roundHalfUp (y / z) 7, by simp [hz], by simp [hz], round7_nonneg a0,
      round7_le_one a1, round7_nonneg b0, round7_le_one b1, ?_⟩
    rw [e]; exact round_complement _

theorem number_nonneg (p : ModeObj → Bool) : 0 ≤ number objs p := Nat.cast_nonneg _

/-- C44, by number: all simple objects and the simple observations.  Missing: the simple forecasts, for
which the claim is false (`C44_counterexample`). -/
theorem C44_count_partial (D : ModeData f objs) :
    (∃ a b, modeCount ModeRatio.asm_asa f = .ok a ∧ modeCount ModeRatio.asu_asa f = .ok b ∧ AddUpToOne a b) ∧
    (∃ a b, modeCount ModeRatio.osm_osa f = .ok a ∧ modeCount ModeRatio.osu_osa f = .ok b ∧ AddUpToOne a b) := by
  have h := (C79_count_partial D).1
  refine ⟨⟨_, _, h.1, h.2.2.2.1, ?_⟩, ⟨_, _, h.2.2.2.2.1, h.2.2.2.2.2.1, ?_⟩⟩
  · exact quotient_complement (number_nonneg _) (number_nonneg _)
      (filter_length_split _ _ _ (by intro o; cases o with | mk a b c x => cases b <;> cases c <;> rfl)
        (by intro o; cases o with | mk a b c x => cases b <;> cases c <;> rfl))
  · exact quotient_complement (number_nonneg _) (number_nonneg _)
      (filter_length_split _ _ _
        (by intro o; cases o with | mk a b c x => cases a <;> cases b <;> cases c <;> rfl)
        (by intro o; cases o with | mk a b c x => cases a <;> cases b <;> cases c <;> rfl))

theorem area_nonneg (h : ∀ o ∈ objs, 0 ≤ o.area) (p : ModeObj → Bool) : 0 ≤ totalArea objs p := by
  unfold totalArea
  apply List.sum_nonneg
  intro x hx
  obtain ⟨o, ho, rfl⟩ := List.mem_map.mp hx
  exact h o (List.mem_of_mem_filter ho)

theorem areaRatio_complement (hpos : ∀ o ∈ objs, 0 ≤ o.area) {p q r : ModeObj → Bool}
    (h : ∀ o, p o = (q o || r o)) (hd : ∀ o, (q o && r o) = false)
    (hq : ∃ o ∈ objs, q o = true) (hr : ∃ o ∈ objs, r o = true) :
    AddUpToOne (areaRatio objs q p) (areaRatio objs r p) := by
  have ne : ∀ s : ModeObj → Bool, (∃ o ∈ objs, s o = true) → objs.filter s ≠ [] := by
    rintro s ⟨o, ho, hs⟩ e
    rw [List.filter_eq_nil_iff] at e
    exact e o ho hs
  have hp : objs.filter p ≠ [] := by
    obtain ⟨o, ho, hq⟩ := hq
    exact ne p ⟨o, ho, by rw [h, hq]; rfl⟩
  unfold areaRatio
  rw [if_neg (by simp only [not_or]; exact ⟨ne q hq, hp⟩), if_neg (by simp only [not_or]; exact ⟨ne r hr, hp⟩)]
  exact quotient_complement (area_nonneg hpos _) (area_nonneg hpos _) (area_split _ _ _ h hd)

/-- C44, by area, when the group contains both matched and unmatched objects.  Missing: groups that are
completely matched or completely unmatched, where one of the two is None (`C44_empty_part`). -/
theorem C44_area_partial (D : ModeData f objs) (hpos : ∀ o ∈ objs, 0 ≤ o.area) :
    ((∃ o ∈ objs, ASM o = true) → (∃ o ∈ objs, ASU o = true) →
      ∃ a b, modeArea ModeArea.asm_asa f = .ok a ∧ modeArea ModeArea.asu_asa f = .ok b ∧ AddUpToOne a b) ∧
    ((∃ o ∈ objs, FSM o = true) → (∃ o ∈ objs, FSU o = true) →
      ∃ a b, modeArea ModeArea.fsm_fsa f = .ok a ∧ modeArea ModeArea.fsu_fsa f = .ok b ∧ AddUpToOne a b) ∧
    ((∃ o ∈ objs, OSM o = true) → (∃ o ∈ objs, OSU o = true) →
      ∃ a b, modeArea ModeArea.osm_osa f = .ok a ∧ modeArea ModeArea.osu_osa f = .ok b ∧ AddUpToOne a b) := by
  have h := (C79_area_partial D).1
  refine ⟨fun h1 h2 => ⟨_, _, h.2.2.1, h.2.2.2.1, ?_⟩, fun h1 h2 => ⟨_, _, h.2.2.2.2.1, h.2.2.2.2.2.1, ?_⟩,
    fun h1 h2 => ⟨_, _, h.2.2.2.2.2.2.1, h.2.2.2.2.2.2.2, ?_⟩⟩
  all_goals
    refine areaRatio_complement hpos ?_ ?_ h1 h2 <;>
      (intro o; cases o with | mk a b c x => cases a <;> cases b <;> cases c <;> rfl)

/-- C44: in a group without matched objects the matched share by area is missing, not 0 (and likewise for the
unmatched share). -/
theorem C44_empty_part (D : ModeData f objs) :
    ((∀ o ∈ objs, ASM o = false) → modeArea ModeArea.asm_asa f = .ok none) ∧
    ((∀ o ∈ objs, ASU o = false) → modeArea ModeArea.asu_asa f = .ok none) := by
  have h := (C79_area_partial D).1
  have e : ∀ s : ModeObj → Bool, (∀ o ∈ objs, s o = false) → objs.filter s = [] := by
    intro s hs
    rw [List.filter_eq_nil_iff]
    intro o ho; simp [hs o ho]
  refine ⟨fun h1 => ?_, fun h1 => ?_⟩
  · rw [h.2.2.1, areaRatio, if_pos (Or.inl (e _ h1))]
  · rw [h.2.2.2.1, areaRatio, if_pos (Or.inl (e _ h1))]

/-! ### Examples -/

/-- One row of a MODE frame. -/
def modeRow (fcst simple matched area : ℚ) : List Val :=
  [.str "2d", .num fcst "", .num simple "", .num matched "", .num area ""]

/-- Two matched and one unmatched simple forecast, one matched forecast cluster, one matched and two
unmatched simple observations. -/
def exMode : Frame :=
  { cols := ["object_type", "fcst_flag", "simple_flag", "matched_flag", "area"]
    rows := [modeRow 1 1 1 10, modeRow 1 1 1 20, modeRow 1 1 0 30, modeRow 1 0 1 40, modeRow 0 1 1 15,
      modeRow 0 1 0 5, modeRow 0 1 0 8] }

def exModeObjs : List ModeObj :=
  [⟨true, true, true, 10⟩, ⟨true, true, true, 20⟩, ⟨true, true, false, 30⟩, ⟨true, false, true, 40⟩,
    ⟨false, true, true, 15⟩, ⟨false, true, false, 5⟩, ⟨false, true, false, 8⟩]

theorem exMode_row (a b c : Bool) (x : ℚ) :
    (∃ v, HasCell exMode (modeRow (if a then 1 else 0) (if b then 1 else 0) (if c then 1 else 0) x) "fcst_flag" v ∧
      IsFlag a v) ∧
    (∃ v, HasCell exMode (modeRow (if a then 1 else 0) (if b then 1 else 0) (if c then 1 else 0) x)
      "simple_flag" v ∧ IsFlag b v) ∧
    (∃ v, HasCell exMode (modeRow (if a then 1 else 0) (if b then 1 else 0) (if c then 1 else 0) x)
      "matched_flag" v ∧ IsFlag c v) ∧
    (∃ t, HasCell exMode (modeRow (if a then 1 else 0) (if b then 1 else 0) (if c then 1 else 0) x) "area"
      (.num x t)) :=
  ⟨⟨_, ⟨1, rfl, by decide, rfl⟩, _, rfl⟩, ⟨_, ⟨2, rfl, by decide, rfl⟩, _, rfl⟩,
    ⟨_, ⟨3, rfl, by decide, rfl⟩, _, rfl⟩, ⟨_, 4, rfl, by decide, rfl⟩⟩

theorem exMode_data : ModeData exMode exModeObjs where
  wf := by unfold FrameWF; decide
  rows := .cons (exMode_row true true true 10) (.cons (exMode_row true true true 20)
    (.cons (exMode_row true true false 30) (.cons (exMode_row true false true 40)
    (.cons (exMode_row false true true 15) (.cons (exMode_row false true false 5)
    (.cons (exMode_row false true false 8) .nil))))))
  cols := by decide

example : modeCount ModeRatio.asm_asa exMode = .ok (some (1 / 2)) := by decide +kernel
example : modeArea ModeArea.fsm_fsa exMode = .ok (some (1 / 2)) := by decide +kernel

/-- C44 is false for the simple forecasts by number: matched 3/3 (a cluster is counted) and "unmatched" 2/3. -/
theorem C44_counterexample :
    ¬ ∀ (f : Frame) (objs : List ModeObj), ModeData f objs →
      ∃ a b, modeCount ModeRatio.fsm_fsa f = .ok a ∧ modeCount ModeRatio.fsu_fsa f = .ok b ∧ AddUpToOne a b := by
  intro h
  obtain ⟨a, b, ha, hb, hab⟩ := h _ _ exMode_data
  have h1 : modeCount ModeRatio.fsm_fsa exMode = .ok (some 1) := by decide +kernel
  have h2 : modeCount ModeRatio.fsu_fsa exMode = .ok (some (6666667 / 10000000)) := by decide +kernel
  rw [h1] at ha; rw [h2] at hb
  simp only [Except.ok.injEq] at ha hb
  subst ha hb
  rcases hab with ⟨e, -⟩ | ⟨v, w, hv, hw, -, -, -, -, hs⟩
  · simp at e
  · simp only [Option.some.injEq] at hv hw
    subst hv hw
    norm_num at hs

/-- C79 is false for the six deviating statistics; here the unmatched share of the simple forecasts by number
and the area ratio of observations to forecasts. -/
theorem C79_counterexample :
    (¬ ∀ (f : Frame) (objs : List ModeObj), ModeData f objs →
      modeCount ModeRatio.fsu_fsa f = .ok (numberRatio objs FSU FSA)) ∧
    (¬ ∀ (f : Frame) (objs : List ModeObj), ModeData f objs →
      modeCount ModeRatio.fsm_fsa f = .ok (numberRatio objs FSM FSA)) ∧
    (¬ ∀ (f : Frame) (objs : List ModeObj), ModeData f objs →
      modeCount ModeRatio.fsm_asm f = .ok (numberRatio objs FSM ASM)) ∧
    (¬ ∀ (f : Frame) (objs : List ModeObj), ModeData f objs →
      modeCount ModeRatio.osm_asm f = .ok (numberRatio objs OSM ASM)) ∧
    (¬ ∀ (f : Frame) (objs : List ModeObj), ModeData f objs →
      modeArea ModeArea.fsm_asm f = .ok (areaRatio objs FSM ASM)) ∧
    (¬ ∀ (f : Frame) (objs : List ModeObj), ModeData f objs →
      modeArea ModeArea.osa_fsa f = .ok (areaRatio objs OSA FSA)) := by
  refine ⟨fun h => ?_, fun h => ?_, fun h => ?_, fun h => ?_, fun h => ?_, fun h => ?_⟩ <;>
    (have := h _ _ exMode_data; revert this; decide +kernel)

/-! ### C80 -/

/-- Hits: half the number of matched simple objects (each hit has a forecast and an observation). -/
def hits (objs : List ModeObj) : ℚ := number objs ASM / 2
def areaHits (objs : List ModeObj) : ℚ := totalArea objs ASM / 2

theorem quotient_scale (a b k : ℚ) (hk : k ≠ 0) : quotient (k * a) (k * b) = quotient a b := by
  unfold quotient
  by_cases hb : b = 0
  · simp [hb]
  · have : k * b ≠ 0 := mul_ne_zero hk hb
    rw [if_neg this, if_neg hb, mul_div_mul_left _ _ hk]

/-- C80, by number: hits, misses, false alarms and the false alarm ratio.  Missing: CSI and PODY, which are
wrong (`C80_count_deviations`). -/
theorem C80_count_partial (D : ModeData f objs) :
    modeCount ModeRatio.objhits f = .ok (some (roundHalfUp (hits objs) 7)) ∧
    modeCount ModeRatio.objmisses f = .ok (some (number objs OSU)) ∧
    modeCount ModeRatio.objfas f = .ok (some (number objs FSU)) ∧
    modeCount ModeRatio.objfar f = .ok (quotient (number objs FSU) (number objs FSU + hits objs)) := by
  have r : ∀ p, roundHalfUp (number objs p) PRECISION = number objs p := by
    intro p
    have := round7_int (K := ℚ) ((objs.filter p).length : ℤ)
    simpa [number] using this
  have n1 := nrow_modeData D [("simple_flag", 1), ("matched_flag", 1)] (by decide)
  have n2 := nrow_modeData D [("fcst_flag", 0), ("simple_flag", 1), ("matched_flag", 0)] (by decide)
  have n3 := nrow_modeData D [("fcst_flag", 1), ("simple_flag", 1), ("matched_flag", 0)] (by decide)
  rw [sat_s1m1] at n1; rw [sat_f0s1m0] at n2; rw [sat_f1s1m0] at n3
  refine ⟨?_, ?_, ?_, ?_⟩
  · simp only [modeCount, ModeRatio.objhits, evalMode, n1, bind, Except.bind, roundedQuot_some, hits, quotient]
    norm_num
  · simp only [modeCount, ModeRatio.objmisses, evalMode, n2, bind, Except.bind, Option.map_some, r]
  · simp only [modeCount, ModeRatio.objfas, evalMode, n3, bind, Except.bind, Option.map_some, r]
  · simp only [modeCount, ModeRatio.objfar, evalMode, n3, n1, bind, Except.bind, Option.bind_some,
      Option.bind_eq_bind, roundedQuot_some, hits]

/-- C80, what CSI and PODY by number really compute: CSI has the unmatched forecasts (clusters included) in
the numerator; PODY divides by hits plus false alarms instead of hits plus misses. -/
theorem C80_count_deviations (D : ModeData f objs) :
    modeCount ModeRatio.objcsi f =
      .ok (quotient (number objs anyFcstUnmatched) (number objs ASM + 2 * number objs ASU)) ∧
    modeCount ModeRatio.objpody f = .ok (quotient (hits objs) (hits objs + number objs FSU)) := by
  have n1 := nrow_modeData D [("simple_flag", 1), ("matched_flag", 1)] (by decide)
  have n2 := nrow_modeData D [("simple_flag", 1), ("matched_flag", 0)] (by decide)
  have n3 := nrow_modeData D [("fcst_flag", 1), ("simple_flag", 1), ("matched_flag", 0)] (by decide)
  have n4 := nrow_modeData D [("fcst_flag", 1), ("matched_flag", 0)] (by decide)
  rw [sat_s1m1] at n1; rw [sat_s1m0] at n2; rw [sat_f1s1m0] at n3; rw [sat_f1m0] at n4
  constructor
  · simp only [modeCount, ModeRatio.objcsi, evalMode, n1, n2, n4, bind, Except.bind, Option.bind_some,
      Option.bind_eq_bind, roundedQuot_some]
  · simp only [modeCount, ModeRatio.objpody, evalMode, n1, n3, bind, Except.bind, Option.bind_some,
      Option.bind_eq_bind, roundedQuot_some, hits]
    rw [← quotient_scale (number objs ASM / 2) _ 2 (by norm_num)]
    congr 2 <;> ring

/-- C80, by area, when there are matched simple objects, unmatched simple forecasts and unmatched simple
observations: hits, misses, false alarms, CSI and PODY.  Missing: empty groups (the statistic is None), and
FAR, which is wrong (`C80_area_deviations`). -/
theorem C80_area_partial (D : ModeData f objs) (h1 : ∃ o ∈ objs, ASM o = true) (h2 : ∃ o ∈ objs, OSU o = true)
    (h3 : ∃ o ∈ objs, FSU o = true) :
    modeArea ModeArea.objahits f = .ok (some (roundHalfUp (areaHits objs) 7)) ∧
    modeArea ModeArea.objamisses f = .ok (some (roundHalfUp (totalArea objs OSU) 7)) ∧
    modeArea ModeArea.objafas f = .ok (some (roundHalfUp (totalArea objs FSU) 7)) ∧
    modeArea ModeArea.objacsi f =
      .ok (quotient (areaHits objs) (areaHits objs + totalArea objs OSU + totalArea objs FSU)) ∧
    modeArea ModeArea.objapody f = .ok (quotient (areaHits objs) (areaHits objs + totalArea objs OSU)) := by
  have ne : ∀ s : ModeObj → Bool, (∃ o ∈ objs, s o = true) → objs.filter s ≠ [] := by
    rintro s ⟨o, ho, hs⟩ e
    rw [List.filter_eq_nil_iff] at e
    exact e o ho hs
  have h4 : ∃ o ∈ objs, ASU o = true := by
    obtain ⟨o, ho, h⟩ := h2
    refine ⟨o, ho, ?_⟩
    revert h; cases o with | mk a b c x => cases a <;> cases b <;> cases c <;> simp [OSU, ASU]
  have n1 := area_modeData D [("simple_flag", 1), ("matched_flag", 1)] (by decide)
  have n2 := area_modeData D [("fcst_flag", 0), ("simple_flag", 1), ("matched_flag", 0)] (by decide)
  have n3 := area_modeData D [("fcst_flag", 1), ("simple_flag", 1), ("matched_flag", 0)] (by decide)
  have n4 := area_modeData D [("simple_flag", 1), ("matched_flag", 0)] (by decide)
  rw [sat_s1m1, if_neg (ne _ h1)] at n1; rw [sat_f0s1m0, if_neg (ne _ h2)] at n2
  rw [sat_f1s1m0, if_neg (ne _ h3)] at n3; rw [sat_s1m0, if_neg (ne _ h4)] at n4
  have split : totalArea objs ASU = totalArea objs OSU + totalArea objs FSU := by
    apply area_split <;> (intro o; cases o with | mk a b c x => cases a <;> cases b <;> cases c <;> rfl)
  refine ⟨?_, ?_, ?_, ?_, ?_⟩
  · simp only [modeArea, ModeArea.objahits, evalMode, n1, bind, Except.bind, roundedQuot_some, areaHits, quotient]
    norm_num
  · simp only [modeArea, ModeArea.objamisses, evalMode, n2, bind, Except.bind, Option.map_some, PRECISION]
  · simp only [modeArea, ModeArea.objafas, evalMode, n3, bind, Except.bind, Option.map_some, PRECISION]
  · simp only [modeArea, ModeArea.objacsi, evalMode, n1, n4, bind, Except.bind, Option.bind_some,
      Option.bind_eq_bind, roundedQuot_some, areaHits, split]
    rw [← quotient_scale (totalArea objs ASM / 2) _ 2 (by norm_num)]
    congr 2 <;> ring
  · simp only [modeArea, ModeArea.objapody, evalMode, n1, n2, bind, Except.bind, Option.bind_some,
      Option.bind_eq_bind, roundedQuot_some, areaHits]
    rw [← quotient_scale (totalArea objs ASM / 2) _ 2 (by norm_num)]
    congr 2 <;> ring

/-- C80, what FAR by area really computes: false alarms over false alarms plus four times the hits. -/
theorem C80_area_deviations (D : ModeData f objs) (h1 : ∃ o ∈ objs, ASM o = true)
    (h3 : ∃ o ∈ objs, FSU o = true) :
    modeArea ModeArea.objafar f =
      .ok (quotient (totalArea objs FSU) (totalArea objs FSU + 4 * areaHits objs)) := by
  have ne : ∀ s : ModeObj → Bool, (∃ o ∈ objs, s o = true) → objs.filter s ≠ [] := by
    rintro s ⟨o, ho, hs⟩ e
    rw [List.filter_eq_nil_iff] at e
    exact e o ho hs
  have n1 := area_modeData D [("simple_flag", 1), ("matched_flag", 1)] (by decide)
  have n3 := area_modeData D [("fcst_flag", 1), ("simple_flag", 1), ("matched_flag", 0)] (by decide)
  rw [sat_s1m1, if_neg (ne _ h1)] at n1
  rw [sat_f1s1m0, if_neg (ne _ h3)] at n3
  simp only [modeArea, ModeArea.objafar, evalMode, n1, n3, bind, Except.bind, Option.bind_some,
    Option.bind_eq_bind, roundedQuot_some, areaHits]
  congr 2; ring

/-- C80 as stated is false: CSI, PODY (by number) and FAR (by area). -/
theorem C80_counterexample :
    (¬ ∀ (f : Frame) (objs : List ModeObj), ModeData f objs → modeCount ModeRatio.objcsi f =
      .ok (quotient (hits objs) (hits objs + number objs OSU + number objs FSU))) ∧
    (¬ ∀ (f : Frame) (objs : List ModeObj), ModeData f objs → modeCount ModeRatio.objpody f =
      .ok (quotient (hits objs) (hits objs + number objs OSU))) ∧
    (¬ ∀ (f : Frame) (objs : List ModeObj), ModeData f objs → modeArea ModeArea.objafar f =
      .ok (quotient (totalArea objs FSU) (totalArea objs FSU + areaHits objs))) := by
  have D : ModeData { exMode with rows := [modeRow 1 1 1 10, modeRow 0 1 1 10, modeRow 1 1 0 10, modeRow 1 1 0 10,
      modeRow 1 1 0 10, modeRow 0 1 0 10] } [⟨true, true, true, 10⟩, ⟨false, true, true, 10⟩, ⟨true, true, false, 10⟩,
      ⟨true, true, false, 10⟩, ⟨true, true, false, 10⟩, ⟨false, true, false, 10⟩] :=
    { wf := by unfold FrameWF; decide
      rows := .cons (exMode_row true true true 10) (.cons (exMode_row false true true 10)
        (.cons (exMode_row true true false 10) (.cons (exMode_row true true false 10)
        (.cons (exMode_row true true false 10) (.cons (exMode_row false true false 10) .nil)))))
      cols := by decide }
  refine ⟨fun h => ?_, fun h => ?_, fun h => ?_⟩ <;> (have := h _ _ D; revert this; decide +kernel)

/-! ### C81 -/

open Classical in
/-- C81: the 2d and 3d statistics by number and the 2d statistics by area are the general statistics of the
rows with that object type. -/
theorem C81_dimension_partial (f : Frame) (wf : FrameWF f) (s : ModeStat) (h : "object_type" ∈ f.cols)
    (dim : String) :
    modeCountDim dim s f = modeCount s { f with rows := f.rows.filter (fun r =>
      decide (∃ v, HasCell f r "object_type" v ∧ v.text = dim)) } ∧
    modeArea2d s f = modeArea s { f with rows := f.rows.filter (fun r =>
      decide (∃ v, HasCell f r "object_type" v ∧ v.text = "2d")) } := by
  obtain ⟨i, hi⟩ := Frame.idx?_of_mem h
  have key : ∀ d : String, dimFilter d f = some { f with rows := f.rows.filter (fun r =>
      decide (∃ v, HasCell f r "object_type" v ∧ v.text = d)) } := by
    intro d
    have hm : f.rows.mapM (fun r => (cellEq (cellAt r i) (.str d)).map (fun b => (r, b))) =
        some (f.rows.map (fun r => (r, (cellAt r i).text == d))) := by
      rw [mapM_eq_some_iff]
      simp [cellEq]
    simp only [dimFilter, filterData, filterStep, hi, hm, bind, Except.bind]
    congr 2
    rw [List.filter_map, List.map_map]
    have e : (Prod.fst ∘ fun r : List Val => (r, (cellAt r i).text == d)) = id := rfl
    rw [e, List.map_id]
    apply List.filter_congr
    intro r hr
    simp only [Function.comp]
    have : ((cellAt r i).text == d) = true ↔ ∃ v, HasCell f r "object_type" v ∧ v.text = d := by
      rw [beq_iff_eq]
      constructor
      · intro e; exact ⟨_, hasCell_cellAt hi (wf r hr), e⟩
      · rintro ⟨v, h1, h2⟩; rw [hasCell_unique hi h1]; exact h2
    by_cases hv : ∃ v, HasCell f r "object_type" v ∧ v.text = d
    · rw [this.mpr hv, decide_eq_true hv]
    · rw [decide_eq_false hv]
      exact Bool.eq_false_iff.mpr (fun e => hv (this.mp e))
  constructor
  · simp only [modeCountDim, key]
  · simp only [modeArea2d, key]

/-- C81 fails for the volume-weighted 3d statistics: all of them are always missing. -/
theorem C81_volume_missing (s : ModeStat) (f : Frame) : modeVolume3d s f = .ok none := rfl

/-- C81 as stated is false: three simple 3d objects with volumes 1, 2, 3, two of them matched. -/
theorem C81_counterexample :
    ¬ ∀ (s : ModeStat) (rows : List (List Val)),
      modeVolume3d s { cols := ["object_type", "fcst_flag", "simple_flag", "matched_flag", "volume"], rows := rows } =
      modeArea s { cols := ["object_type", "fcst_flag", "simple_flag", "matched_flag", "area"], rows := rows } := by
  intro h
  have := h ModeArea.asm_asa [[.str "3d", .num 1 "", .num 1 "", .num 1 "", .num 1 ""],
    [.str "3d", .num 0 "", .num 1 "", .num 1 "", .num 2 ""],
    [.str "3d", .num 0 "", .num 1 "", .num 0 "", .num 3 ""]]
  revert this
  decide +kernel

example : modeCountDim "2d" ModeRatio.asm_asa exMode = .ok (some (1 / 2)) := by decide +kernel
example : modeCountDim "3d" ModeRatio.asm_asa exMode = .ok none := by decide +kernel
example : modeArea ModeArea.objacsi exMode = .ok (some (3435115 / 10000000)) := by decide +kernel

end Metcalcpy.Props
