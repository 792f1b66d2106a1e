/-
C272 Scores of contingency tables under an exchange of forecast and observation, an exchange of event and non-event, and a
multiplication of all counts.
-/
import Verif.Props.C92_ExtremeDependency

namespace Metcalcpy.Props
open Metcalcpy Spec

theorem rounded_congr {r r' : Ratio} (h1 : r.num = r'.num) (h2 : r.den = r'.den) : r.rounded = r'.rounded := by
  cases r; cases r'; simp only at h1 h2; subst h1; subst h2; rfl

theorem rounded_scale {r r' : Ratio} {k : ℚ} (hk : k ≠ 0) (h1 : r'.num = k * r.num) (h2 : r'.den = k * r.den) : r'.rounded = r.rounded := by
  unfold Ratio.rounded
  rw [h1, h2]
  by_cases h : r.den = 0
  · simp [h]
  · rw [if_neg h, if_neg (mul_ne_zero hk h), mul_div_mul_left _ _ hk]

/-- A share and its complement, both rounded half up, add up to 1 or, in a tie, to 1 + 10⁻⁷. -/
theorem round_share (x : ℚ) : roundHalfUp (1 - x) 7 + roundHalfUp x 7 = 1 ∨ roundHalfUp (1 - x) 7 + roundHalfUp x 7 = 1 + 1 / 10 ^ 7 := by
  unfold roundHalfUp
  have hcast : ((10 : ℚ) ^ (7 : ℤ)) = 10 ^ 7 := by norm_cast
  rw [hcast]
  have f1 := Int.floor_le (x * 10 ^ 7 + 1 / 2)
  have f2 := Int.lt_floor_add_one (x * 10 ^ 7 + 1 / 2)
  have g1 := Int.floor_le ((1 - x) * 10 ^ 7 + 1 / 2)
  have g2 := Int.lt_floor_add_one ((1 - x) * 10 ^ 7 + 1 / 2)
  generalize ⌊x * 10 ^ 7 + 1 / 2⌋ = k at *
  generalize ⌊(1 - x) * 10 ^ 7 + 1 / 2⌋ = l at *
  have s1 : ((k + l : ℤ) : ℚ) ≤ ((10 ^ 7 + 1 : ℤ) : ℚ) := by push_cast; linarith
  have s2 : ((10 ^ 7 - 1 : ℤ) : ℚ) < ((k + l : ℤ) : ℚ) := by push_cast; linarith
  have s1' : k + l ≤ 10 ^ 7 + 1 := by exact_mod_cast s1
  have s2' : 10 ^ 7 - 1 < k + l := by exact_mod_cast s2
  have : k + l = 10 ^ 7 ∨ k + l = 10 ^ 7 + 1 := by omega
  rcases this with hs | hs
  · left
    have : ((k + l : ℤ) : ℚ) = ((10 ^ 7 : ℤ) : ℚ) := by rw [hs]
    push_cast at this
    rw [← add_div, add_comm, this]; norm_num
  · right
    have : ((k + l : ℤ) : ℚ) = ((10 ^ 7 + 1 : ℤ) : ℚ) := by rw [hs]
    push_cast at this
    rw [← add_div, add_comm, this]; norm_num

/-- Two scores are complementary: both are missing, or they add up to 1 (1 + 10⁻⁷ in a tie of the seventh decimal). -/
def Complementary (x y : Option ℚ) : Prop :=
  (x = none ↔ y = none) ∧ ∀ v w, x = some v → y = some w → v + w = 1 ∨ v + w = 1 + 1 / 10 ^ 7

theorem complementary_of {r r' : Ratio} (hd : r.den = r'.den) (hn : r.num + r'.num = r.den) : Complementary r.rounded r'.rounded := by
  unfold Complementary Ratio.rounded
  rw [← hd]
  by_cases h : r.den = 0
  · simp [h]
  · simp only [if_neg h]
    refine ⟨by simp, fun v w hv hw => ?_⟩
    simp only [Option.some.injEq] at hv hw
    have e : r.num / r.den = 1 - r'.num / r.den := by
      rw [eq_sub_iff_add_eq, ← add_div, hn, div_self h]
    rw [← hv, ← hw, e]
    exact round_share _

variable {t t' : Table} {h f m c n : List ℚ}

/-- C272: when forecast and observation are exchanged (misses become false alarms), ACC, CSI, GSS, HSS, ORSS, LODDS and SEDS do not
change; FMEAN becomes the base rate, PODY becomes 1 - FAR and FBIAS its reciprocal. -/
theorem C272_exchange_partial (D : CtcData t h f m c n) (D' : CtcData t' h m f c n) :
    (∀ s ∈ [ctcAcc, ctcCsi, ctcGss, ctcHss, ctcOrss], s t' = s t) ∧ ctcLodds t' = ctcLodds t ∧ ctcSeds t' = ctcSeds t ∧
    ctcBaser t' = .ok (ctcFmean t) ∧ ctcBaser t = .ok (ctcFmean t') ∧
    Complementary (ctcPody t') (ctcFar t) ∧ Complementary (ctcPody t) (ctcFar t') ∧
    (h.sum + f.sum ≠ 0 → h.sum + m.sum ≠ 0 → ∃ x : ℚ, ctcFbias t = some (roundHalfUp x 7) ∧ ctcFbias t' = some (roundHalfUp (1 / x) 7)) := by
  refine ⟨?_, ?_, ?_, ?_, ?_, ?_, ?_, ?_⟩
  · simp only [List.mem_cons, List.not_mem_nil, or_false, forall_eq_or_imp, forall_eq]
    refine ⟨?_, ?_, ?_, ?_, ?_⟩
    · rw [acc_eq D, acc_eq D']
    · rw [csi_eq D, csi_eq D']
      exact rounded_congr rfl (by simp only [csiRatio]; ring)
    · rw [gss_eq D, gss_eq D']
      rw [rounded_congr (r := gssRatio h.sum m.sum f.sum n.sum) (r' := gssRatio h.sum f.sum m.sum n.sum)]
      · simp only [gssRatio, chanceHits]; ring
      · simp only [gssRatio, chanceHits]; ring
    · rw [hss_eq D, hss_eq D']
      rw [rounded_congr (r := hssRatio h.sum m.sum f.sum c.sum n.sum) (r' := hssRatio h.sum f.sum m.sum c.sum n.sum)]
      · simp only [hssRatio, chanceCorrect]; ring
      · simp only [hssRatio, chanceCorrect]; ring
    · rw [orss_eq D, orss_eq D']
      exact rounded_congr (by simp only [orssRatio]; ring) (by simp only [orssRatio]; ring)
  · by_cases hp : 0 < h.sum ∧ 0 < f.sum ∧ 0 < m.sum ∧ 0 < c.sum
    · rw [(C10_lodds D).1 hp, (C10_lodds D').1 ⟨hp.1, hp.2.2.1, hp.2.1, hp.2.2.2⟩, mul_comm (f.sum : ℝ)]
    · rw [(C10_lodds D).2 hp, (C10_lodds D').2 (fun q => hp ⟨q.1, q.2.2.1, q.2.1, q.2.2.2⟩)]
  · simp only [ctcSeds, sumR _ _ _ (sum_fy_oy D), sumR _ _ _ (sum_fy_on D), sumR _ _ _ (sum_fn_oy D), sumR _ _ _ (sum_total D),
      sumR _ _ _ (sum_fy_oy D'), sumR _ _ _ (sum_fy_on D'), sumR _ _ _ (sum_fn_oy D'), sumR _ _ _ (sum_total D'),
      Option.bind_eq_bind, Option.bind_some]
    generalize pyDivR ((h.sum : ℝ) + f.sum) n.sum = x
    generalize pyDivR ((h.sum : ℝ) + m.sum) n.sum = y
    cases x with
    | none => cases y with
      | none => rfl
      | some y => simp
    | some x => cases y with
      | none => simp
      | some y =>
        simp only [Option.bind_some]
        generalize pyLog x = u
        generalize pyLog y = v
        cases u with
        | none => cases v <;> simp
        | some u => cases v with
          | none => simp
          | some v => simp [add_comm]
  · rw [baser_eq D', fmean_eq D]; rfl
  · rw [baser_eq D, fmean_eq D']; rfl
  · rw [pody_eq D', far_eq D]
    exact complementary_of rfl rfl
  · rw [pody_eq D, far_eq D']
    exact complementary_of rfl rfl
  · intro h1 h2
    refine ⟨(h.sum + f.sum) / (h.sum + m.sum), ?_, ?_⟩
    · rw [fbias_eq D]; exact if_neg h2
    · rw [fbias_eq D']; rw [one_div_div]; exact if_neg h1

/-- C272: when event and non-event are exchanged, ACC, HSS, ORSS and LODDS do not change, PODY and PODN change places, POFD becomes
1 - PODY, and HK changes by at most 10⁻⁷ (ties of the seventh decimal). -/
theorem C272_complement_partial (D : CtcData t h f m c n) (D' : CtcData t' c m f h n) :
    (∀ s ∈ [ctcAcc, ctcHss, ctcOrss], s t' = s t) ∧ ctcLodds t' = ctcLodds t ∧
    ctcPody t' = ctcPodn t ∧ ctcPodn t' = ctcPody t ∧ Complementary (ctcPody t) (ctcPofd t') ∧ Complementary (ctcPody t') (ctcPofd t) ∧
    (ctcHk t' = none ↔ ctcHk t = none) ∧ ∀ v w, ctcHk t = some v → ctcHk t' = some w → |w - v| ≤ 1 / 10 ^ 7 := by
  have cp : Complementary (ctcPody t) (ctcPofd t') := by
    rw [pody_eq D, pofd_eq D']
    exact complementary_of (by simp only [podyRatio, pofdRatio]; ring) rfl
  have cq : Complementary (ctcPody t') (ctcPofd t) := by
    rw [pody_eq D', pofd_eq D]
    exact complementary_of (by simp only [podyRatio, pofdRatio]; ring) rfl
  refine ⟨?_, ?_, ?_, ?_, cp, cq, ?_, ?_⟩
  · simp only [List.mem_cons, List.not_mem_nil, or_false, forall_eq_or_imp, forall_eq]
    refine ⟨?_, ?_, ?_⟩
    · rw [acc_eq D, acc_eq D']
      exact rounded_congr (by simp only [accRatio]; ring) rfl
    · rw [hss_eq D, hss_eq D']
      rw [rounded_congr (r := hssRatio c.sum m.sum f.sum h.sum n.sum) (r' := hssRatio h.sum f.sum m.sum c.sum n.sum)]
      · simp only [hssRatio, chanceCorrect]; ring
      · simp only [hssRatio, chanceCorrect]; ring
    · rw [orss_eq D, orss_eq D']
      exact rounded_congr (by simp only [orssRatio]; ring) (by simp only [orssRatio]; ring)
  · by_cases hp : 0 < h.sum ∧ 0 < f.sum ∧ 0 < m.sum ∧ 0 < c.sum
    · rw [(C10_lodds D).1 hp, (C10_lodds D').1 ⟨hp.2.2.2, hp.2.2.1, hp.2.1, hp.1⟩, mul_comm (f.sum : ℝ), mul_comm (c.sum : ℝ)]
    · rw [(C10_lodds D).2 hp, (C10_lodds D').2 (fun q => hp ⟨q.2.2.2, q.2.2.1, q.2.1, q.1⟩)]
  · rw [pody_eq D', podn_eq D]
    exact rounded_congr rfl (by simp only [podyRatio, podnRatio]; ring)
  · rw [podn_eq D', pody_eq D]
    exact rounded_congr rfl (by simp only [podyRatio, podnRatio]; ring)
  · have e : ∀ u : Table, ctcHk u = none ↔ ctcPody u = none ∨ ctcPofd u = none := by
      intro u
      unfold ctcHk
      cases ctcPody u <;> cases ctcPofd u <;> simp
    rw [e, e, cq.1, cp.1]
    tauto
  · intro v w hv hw
    obtain ⟨p, q, hp, hq, rfl⟩ := (C11_hk_is_difference t v).mp hv
    obtain ⟨p', q', hp', hq', rfl⟩ := (C11_hk_is_difference t' w).mp hw
    have h1 := cp.2 p q' hp hq'
    have h2 := cq.2 p' q hp' hq
    rw [abs_le]
    rcases h1 with h1 | h1 <;> rcases h2 with h2 | h2 <;> constructor <;> linarith [show (0 : ℚ) < 1 / 10 ^ 7 by norm_num]

theorem pyDivR_scale {k : ℝ} (hk : k ≠ 0) (x y : ℝ) : pyDivR (k * x) (k * y) = pyDivR x y := by
  unfold pyDivR
  by_cases h : y = 0
  · simp [h]
  · rw [if_neg h, if_neg (mul_ne_zero hk h), mul_div_mul_left _ _ hk]

/-- C272: multiplying all counts by the same positive number changes no score. -/
theorem C272_multiple {h' f' m' c' n' : List ℚ} (W : ℝ → ℝ) (D : CtcData t h f m c n) (D' : CtcData t' h' f' m' c' n') (k : ℚ) (hk : 0 < k)
    (e1 : h'.sum = k * h.sum) (e2 : f'.sum = k * f.sum) (e3 : m'.sum = k * m.sum) (e4 : c'.sum = k * c.sum) (e5 : n'.sum = k * n.sum) :
    ctcBaser t' = ctcBaser t ∧ (∀ s ∈ ctcScores, s t' = s t) ∧ ∀ s ∈ ctcLogScores W, s t' = s t := by
  have k0 := hk.ne'
  have kr : (k : ℝ) ≠ 0 := by exact_mod_cast k0
  have pody : ctcPody t' = ctcPody t := by
    rw [pody_eq D, pody_eq D', e1, e3]
    exact rounded_scale k0 rfl (by simp only [podyRatio]; ring)
  have yes : podYes t' = podYes t := by
    rw [podYes_eq D, podYes_eq D', e1, e3]
    exact rounded_scale k0 rfl (by simp only [podyRatio]; ring)
  have pofd : ctcPofd t' = ctcPofd t := by
    rw [pofd_eq D, pofd_eq D', e2, e4]
    exact rounded_scale k0 rfl (by simp only [pofdRatio]; ring)
  have hz : n'.sum = 0 ↔ n.sum = 0 := by rw [e5]; simp [k0]
  refine ⟨?_, ?_, ?_⟩
  · rw [baser_eq D, baser_eq D', e1, e3, e5]
    exact congrArg Except.ok (rounded_scale k0 (by simp only [baserRatio]; ring) rfl)
  · simp only [ctcScores, List.mem_cons, List.not_mem_nil, or_false, forall_eq_or_imp, forall_eq]
    refine ⟨?_, ?_, ?_, pody, pofd, ?_, ?_, ?_, ?_, ?_, ?_, ?_, yes, ?_, ?_, ?_⟩
    · rw [acc_eq D, acc_eq D', e1, e4, e5]
      exact rounded_scale k0 (by simp only [accRatio]; ring) rfl
    · rw [fbias_eq D, fbias_eq D', e1, e2, e3]
      exact rounded_scale k0 (by simp only [fbiasRatio]; ring) (by simp only [fbiasRatio]; ring)
    · rw [fmean_eq D, fmean_eq D', e1, e2, e5]
      exact rounded_scale k0 (by simp only [fmeanRatio]; ring) rfl
    · rw [podn_eq D, podn_eq D', e2, e4]
      exact rounded_scale k0 rfl (by simp only [podnRatio]; ring)
    · rw [far_eq D, far_eq D', e1, e2]
      exact rounded_scale k0 rfl (by simp only [farRatio]; ring)
    · rw [csi_eq D, csi_eq D', e1, e2, e3]
      exact rounded_scale k0 rfl (by simp only [csiRatio]; ring)
    · by_cases hn : n.sum = 0
      · rw [((C10_skill_scores D).1 hn).1, ((C10_skill_scores D').1 (hz.mpr hn)).1]
      · rw [((C10_skill_scores D).2 hn).1, ((C10_skill_scores D').2 (fun q => hn (hz.mp q))).1, e1, e2, e3, e5]
        refine rounded_scale k0 ?_ ?_ <;> simp only [gssRatio, chanceHits] <;> field_simp
    · unfold ctcHk; rw [pody, pofd]
    · by_cases hn : n.sum = 0
      · rw [((C10_skill_scores D).1 hn).2, ((C10_skill_scores D').1 (hz.mpr hn)).2]
      · rw [((C10_skill_scores D).2 hn).2, ((C10_skill_scores D').2 (fun q => hn (hz.mp q))).2, e1, e2, e3, e4, e5]
        refine rounded_scale k0 ?_ ?_ <;> simp only [hssRatio, chanceCorrect] <;> field_simp
    · unfold ctcOdds; rw [pody, pofd]
    · rw [podNo_eq D, podNo_eq D', e2, e4]
      exact rounded_scale k0 rfl (by simp only [podnRatio]; ring)
    · unfold ctcOdds1; rw [yes, pofd]
    · rw [orss_eq D, orss_eq D', e1, e2, e3, e4]
      refine rounded_scale (k := k * k) (mul_ne_zero k0 k0) ?_ ?_ <;> simp only [orssRatio] <;> ring
  · have s1 := sumR _ _ _ (sum_fy_oy D)
    have s2 := sumR _ _ _ (sum_fy_on D)
    have s3 := sumR _ _ _ (sum_fn_oy D)
    have s4 := sumR _ _ _ (sum_fn_on D)
    have s5 := sumR _ _ _ (sum_total D)
    have s1' := sumR _ _ _ (sum_fy_oy D')
    have s2' := sumR _ _ _ (sum_fy_on D')
    have s3' := sumR _ _ _ (sum_fn_oy D')
    have s4' := sumR _ _ _ (sum_fn_on D')
    have s5' := sumR _ _ _ (sum_total D')
    rw [e1] at s1'; rw [e2] at s2'; rw [e3] at s3'; rw [e4] at s4'; rw [e5] at s5'
    rw [Rat.cast_mul] at s1' s2' s3' s4' s5'
    simp only [ctcLogScores, List.mem_cons, List.not_mem_nil, or_false, forall_eq_or_imp, forall_eq]
    refine ⟨?_, ?_, ?_, ?_, ?_, ?_⟩
    · have pos : ∀ x : ℚ, 0 < k * x ↔ 0 < x := fun x => mul_pos_iff_of_pos_left hk
      by_cases hp : 0 < h.sum ∧ 0 < f.sum ∧ 0 < m.sum ∧ 0 < c.sum
      · rw [(C10_lodds D).1 hp, (C10_lodds D').1 (by rw [e1, e2, e3, e4, pos, pos, pos, pos]; exact hp), e1, e2, e3, e4]
        simp only [Rat.cast_mul]
        rw [show (k : ℝ) * h.sum * (k * c.sum) = (k * k) * (h.sum * c.sum) by ring,
          show (k : ℝ) * f.sum * (k * m.sum) = (k * k) * (f.sum * m.sum) by ring, mul_div_mul_left _ _ (mul_ne_zero kr kr)]
      · rw [(C10_lodds D).2 hp, (C10_lodds D').2 (by rw [e1, e2, e3, e4, pos, pos, pos, pos]; exact hp)]
    · simp only [ctcBagss, s1, s2, s3, s5, s1', s2', s3', s5', Option.bind_eq_bind, Option.bind_some, mul_eq_zero, kr, false_or, ← mul_add,
        pyDivR_scale kr]
      split_ifs with hc
      · rfl
      · cases pyDivR ((h.sum : ℝ) + m.sum) m.sum with
        | none => rfl
        | some x =>
          simp only [Option.bind_some]
          cases pyLog x with
          | none => rfl
          | some l =>
            simp only [Option.bind_some]
            cases pyDivR ((h.sum : ℝ) + m.sum) f.sum with
            | none => rfl
            | some y =>
              simp only [Option.bind_some]
              have d1 : pyDivR ((k : ℝ) * f.sum) l = (pyDivR ((f.sum : ℚ) : ℝ) l).map (fun z : ℝ => (k : ℝ) * z) := by
                unfold pyDivR
                by_cases hl : l = 0
                · simp [hl]
                · simp [hl, mul_div_assoc]
              rw [d1]
              cases pyDivR (f.sum : ℝ) l with
              | none => rfl
              | some z =>
                simp only [Option.bind_some, Option.map_some]
                have d2 : pyDivR (((k : ℝ) * (h.sum + m.sum)) ^ 2) (k * n.sum) = (pyDivR (((h.sum : ℝ) + m.sum) ^ 2) n.sum).map (fun z : ℝ => (k : ℝ) * z) := by
                  unfold pyDivR
                  by_cases hl : (n.sum : ℝ) = 0
                  · simp [hl]
                  · simp only [hl, mul_eq_zero, kr, or_self, if_false, Option.map_some]
                    congr 1
                    field_simp
                rw [d2]
                cases pyDivR (((h.sum : ℝ) + m.sum) ^ 2) n.sum with
                | none => rfl
                | some r =>
                  simp only [Option.bind_some, Option.map_some]
                  rw [show (k : ℝ) * (h.sum + m.sum) - k * z * W (y * l) - k * r = k * (h.sum + m.sum - z * W (y * l) - r) by ring,
                    show 2 * ((k : ℝ) * (h.sum + m.sum)) - (k * (h.sum + m.sum) - k * z * W (y * l)) - k * r =
                      k * (2 * (h.sum + m.sum) - (h.sum + m.sum - z * W (y * l)) - r) by ring, pyDivR_scale kr]
    · have e : pyDivR ((k : ℝ) * (f.sum : ℚ)) (k * (f.sum : ℚ) + k * (c.sum : ℚ)) = pyDivR (f.sum : ℚ) ((f.sum : ℚ) + (c.sum : ℚ)) := by
        rw [← mul_add, pyDivR_scale kr]
      unfold ctcSedi
      rw [s2, s4, s2', s4', yes]
      change ((pyDivR ((k : ℝ) * (f.sum : ℚ)) (k * (f.sum : ℚ) + k * (c.sum : ℚ))).bind _) = ((pyDivR (f.sum : ℚ) ((f.sum : ℚ) + (c.sum : ℚ))).bind _)
      rw [e]
    · simp only [ctcSeds, s1, s2, s3, s5, s1', s2', s3', s5', Option.bind_eq_bind, Option.bind_some, ← mul_add, pyDivR_scale kr]
    · simp only [ctcEdi, s2, s4, s2', s4', yes, Option.bind_eq_bind, Option.bind_some]
      rw [← mul_add, pyDivR_scale kr]
    · simp only [ctcEds, s1, s3, s5, s1', s3', s5', Option.bind_eq_bind, Option.bind_some, ← mul_add, pyDivR_scale kr]

/-! ### Concrete tables -/

def exRareSwapped : Table :=
  { cols := ["total", "fy_oy", "fy_on", "fn_oy", "fn_on"]
    rows := [[some 60000000, some 1, some 29999999, some 1, some 29999999]] }

theorem exRareSwapped_data : CtcData exRareSwapped [1] [29999999] [1] [29999999] [60000000] :=
  ⟨by simp [exRareSwapped], ⟨1, rfl, by decide, rfl⟩, ⟨2, rfl, by decide, rfl⟩, ⟨3, rfl, by decide, rfl⟩,
    ⟨4, rfl, by decide, rfl⟩, ⟨0, rfl, by decide, rfl⟩⟩

/-- C272 is false for ODDS, which is computed from rounded rates although the odds ratio of the counts, ad/bc, is symmetric: with one
hit, one false alarm and 29999999 misses it is missing, with forecast and observation exchanged it is 1. -/
theorem C272_odds_counterexample : ∃ t t' : Table, ∃ h f m c n : List ℚ, CtcData t h f m c n ∧ CtcData t' h m f c n ∧
    ctcOdds t = none ∧ ctcOdds t' = some 1 ∧ ctcLodds t' = ctcLodds t ∧ ctcLodds t ≠ none :=
  ⟨exRare, exRareSwapped, _, _, _, _, _, exRare_data, exRareSwapped_data, by decide +kernel, by decide +kernel,
    (C272_exchange_partial exRare_data exRareSwapped_data).2.1, by
      rw [(C10_lodds exRare_data).1 (by norm_num)]; simp⟩

example : ctcHss exRareSwapped = ctcHss exRare ∧ ctcCsi exRareSwapped = ctcCsi exRare :=
  have h := (C272_exchange_partial exRare_data exRareSwapped_data).1
  ⟨h _ (by simp), h _ (by simp)⟩

def exCtcComplement : Table :=
  { cols := ["total", "fy_oy", "fy_on", "fn_oy", "fn_on"]
    rows := [[some 10, some 4, some 1, some 2, some 3], [some 7, some 4, some 0, some 1, some 2]] }

theorem exCtcComplement_data : CtcData exCtcComplement [4, 4] [1, 0] [2, 1] [3, 2] [10, 7] :=
  ⟨by simp [exCtcComplement], ⟨1, rfl, by decide, rfl⟩, ⟨2, rfl, by decide, rfl⟩, ⟨3, rfl, by decide, rfl⟩,
    ⟨4, rfl, by decide, rfl⟩, ⟨0, rfl, by decide, rfl⟩⟩

example : ctcPody exCtcComplement = ctcPodn exCtc ∧ ctcHss exCtcComplement = ctcHss exCtc :=
  have h := C272_complement_partial exCtc_data exCtcComplement_data
  ⟨h.2.2.1, h.1 _ (by simp)⟩

/-- All lines listed twice. -/
def exCtcTwice : Table :=
  { cols := ["total", "fy_oy", "fy_on", "fn_oy", "fn_on"]
    rows := [[some 10, some 3, some 2, some 1, some 4], [some 10, some 3, some 2, some 1, some 4], [some 7, some 2, some 1, some 0, some 4],
      [some 7, some 2, some 1, some 0, some 4]] }

theorem exCtcTwice_data : CtcData exCtcTwice [3, 3, 2, 2] [2, 2, 1, 1] [1, 1, 0, 0] [4, 4, 4, 4] [10, 10, 7, 7] :=
  ⟨by simp [exCtcTwice], ⟨1, rfl, by decide, rfl⟩, ⟨2, rfl, by decide, rfl⟩, ⟨3, rfl, by decide, rfl⟩,
    ⟨4, rfl, by decide, rfl⟩, ⟨0, rfl, by decide, rfl⟩⟩

example (W : ℝ → ℝ) : ctcBagss W exCtcTwice = ctcBagss W exCtc ∧ ctcGss exCtcTwice = ctcGss exCtc :=
  have h := C272_multiple W exCtc_data exCtcTwice_data 2 (by norm_num) (by norm_num) (by norm_num) (by norm_num) (by norm_num) (by norm_num)
  ⟨h.2.2 _ (by simp [ctcLogScores]), h.2.1 _ (by simp [ctcScores])⟩

end Metcalcpy.Props
