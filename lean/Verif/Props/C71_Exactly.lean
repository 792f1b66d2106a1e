/-
C18  What aggregating SAL1L2 groups gives, in general.
C71  Exactly when the direction error of a group of wind pairs is missing.
C88  The pooled row of neighbourhood lines in general, with perfect lines.
-/
import Verif.Props.C69_VectorCorr
import Verif.Props.C88_PooledSkill

namespace Metcalcpy.Props
open Metcalcpy Spec

/-! ### C18 -/

/-- C18, SAL1L2, extent: for every group the summed total and the total-weighted means are right, but they stand under the names of the
SL1L2 fields. -/
theorem C18_sal1l2_actual (t : Table) (ws : List ℚ) (x : String → List Cell) (G : Group "sal1l2" t ws x) :
    calcSeriesSums "sal1l2" t = some (.ok
      { cols := ["total", "fbar", "obar", "fobar", "ffbar", "oobar"]
        rows := [some ws.sum :: ["fabar", "oabar", "foabar", "ffabar", "ooabar"].map fun c => some (weightedMean ws (x c))] }) := by
  have hm : meanColumns "sal1l2" = some [("fbar", "fabar"), ("obar", "oabar"), ("fobar", "foabar"), ("ffbar", "ffabar"),
      ("oobar", "ooabar")] := rfl
  simp only [calcSeriesSums, hm, show ¬ ("sal1l2" = "ctc" ∨ "sal1l2" = "nbrctc") by decide, if_false, Option.map_some, seriesMeans]
  rw [mapM_ok _ (fun c => some (weightedMean ws (x c.2)))]
  · simp [bind, Except.bind, pure, Except.pure, sumColumn_of_complete G.rows_ne G.total]
  · intro c hc
    refine weightedField_ok G.rows_ne G.total G.total_ne (G.field c.2 ?_)
    simp only [List.mem_cons, List.not_mem_nil, or_false] at hc
    rcases hc with rfl | rfl | rfl | rfl | rfl <;> decide

/-- C18, SAL1L2, failure in general: no group can be aggregated in two stages. -/
theorem C18_sal1l2_two_stage_counterexample (t : Table) (ws : List ℚ) (x : String → List Cell) (G : Group "sal1l2" t ws x) (out : Table)
    (h : calcSeriesSums "sal1l2" t = some (.ok out)) : calcSeriesSums "sal1l2" out = some (.error .keyError) := by
  rw [C18_sal1l2_actual t ws x G, Option.some.injEq, Except.ok.injEq] at h
  subst h
  rfl

example : ∃ (t : Table) (ws : List ℚ) (x : String → List Cell), Group "sal1l2" t ws x := by
  obtain ⟨t, _, G, _⟩ := C18_sal1l2_counterexample
  exact ⟨t, _, _, G⟩

/-! ### C88 -/

/-- Sum of the reference values of the lines that are not perfect, each times its number of points, over all points. -/
def keptReference (ls : List NbrLine) : ℚ :=
  ((ls.filter fun x => x.fbs ≠ 0).map fun x => x.n * x.ref).sum / (ls.map NbrLine.n).sum

theorem skillDenominator_kept (ls : List NbrLine) (h : ∀ x ∈ ls, x.ref ≠ 0) :
    nansumProd (skillDenominator ((ls.map NbrLine.fbs).map some) ((ls.map NbrLine.fss).map some)) ((ls.map NbrLine.n).map some) =
      ((ls.filter fun x => x.fbs ≠ 0).map fun x => x.n * x.ref).sum := by
  unfold nansumProd skillDenominator
  induction ls with
  | nil => rfl
  | cons x xs ih =>
    have ih := ih fun y hy => h y (by simp [hy])
    have hx := h x (by simp)
    have e : 1 - x.fss = x.fbs / x.ref := by unfold NbrLine.fss; ring
    by_cases h0 : x.fbs = 0
    · have e0 : 1 - x.fss = 0 := by rw [e, h0, zero_div]
      simp only [List.map_cons, List.zipWith_cons_cons, List.filter_cons]
      rw [if_pos e0, if_neg (by simpa using h0), ← ih]
      simp [mulCell]
    · have e0 : ¬ (1 - x.fss = 0) := by rw [e]; exact div_ne_zero h0 hx
      have e1 : x.fbs / (1 - x.fss) = x.ref := by rw [e]; field_simp
      simp only [List.map_cons, List.zipWith_cons_cons, List.filter_cons]
      rw [if_neg e0, e1, if_pos (by simpa using h0), List.map_cons, List.sum_cons, ← ih]
      simp [mulCell, mul_comm]

/-- C88, extent: with perfect lines in the group, number of points, Brier score and rates are those of the pooled sample; of the skill
score the reference values of the perfect lines are missing. -/
theorem C88_scores_actual (t : Table) (ls : List NbrLine) (H : HoldsNbr t ls)
    (hn : (ls.map NbrLine.n).sum ≠ 0) (h : ∀ x ∈ ls, x.ref ≠ 0) (href : keptReference ls ≠ 0)
    (hrate : pooledMean ls NbrLine.fRate ^ 2 + pooledMean ls NbrLine.oRate ^ 2 ≠ 0) :
    seriesSums "nbrcnt" t = .ok
      { cols := ["total", "fbs", "fss", "afss", "ufss", "f_rate", "o_rate"]
        rows := [[some (ls.map NbrLine.n).sum, some (pooledMean ls NbrLine.fbs),
          some (1 - pooledMean ls NbrLine.fbs / keptReference ls),
          some (2 * pooledMean ls NbrLine.fRate * pooledMean ls NbrLine.oRate /
            (pooledMean ls NbrLine.fRate ^ 2 + pooledMean ls NbrLine.oRate ^ 2)),
          some (1 / 2 + pooledMean ls NbrLine.oRate / 2),
          some (pooledMean ls NbrLine.fRate), some (pooledMean ls NbrLine.oRate)]] } := by
  change seriesSumsNbrcnt t = _
  unfold seriesSumsNbrcnt
  have hd : ∀ q : NbrLine → ℚ, divTotal (ls.map fun x => x.n * q x).sum (some (ls.map NbrLine.n).sum) =
      .ok (some (pooledMean ls q)) := by
    intro q; simp [divTotal, hn, pooledMean]
  have hk : divTotal ((ls.filter fun x => x.fbs ≠ 0).map fun x => x.n * x.ref).sum (some (ls.map NbrLine.n).sum) =
      .ok (some (keptReference ls)) := by
    simp only [divTotal, hn, if_false, keptReference]
  have hrate' : pooledMean ls NbrLine.fRate * pooledMean ls NbrLine.fRate +
      pooledMean ls NbrLine.oRate * pooledMean ls NbrLine.oRate ≠ 0 := by
    simpa [sq] using hrate
  simp only [sumColumn_of_complete H.ne H.total, getCol_of_complete H.total, getCol_of_complete H.fbs,
    getCol_of_complete H.fss, getCol_of_complete H.fRate, getCol_of_complete H.oRate, bind, Except.bind,
    skillDenominator_kept ls h, hk, nansumProd_map, hd, pure, Except.pure, divCell, mulCell, plusCell, href, hrate',
    if_false, Option.map_some, sq]

/-- C88, exactly: with positive numbers of points and reference values, and a line that is not perfect, the pooled skill score is that
of the pooled sample if and only if no line is perfect. -/
theorem C88_exactly_when_partial (ls : List NbrLine) (hpos : ∀ x ∈ ls, 0 < x.n ∧ 0 < x.ref ∧ 0 ≤ x.fbs) (hsome : ∃ x ∈ ls, x.fbs ≠ 0) :
    1 - pooledMean ls NbrLine.fbs / keptReference ls = 1 - pooledMean ls NbrLine.fbs / pooledMean ls NbrLine.ref ↔
      ∀ x ∈ ls, x.fbs ≠ 0 := by
  have key : ∀ ls : List NbrLine, (∀ x ∈ ls, 0 < x.n ∧ 0 < x.ref ∧ 0 ≤ x.fbs) →
      ((ls.filter fun x => x.fbs ≠ 0).map fun x => x.n * x.ref).sum ≤ (ls.map fun x => x.n * x.ref).sum ∧
      ((∃ x ∈ ls, x.fbs = 0) → ((ls.filter fun x => x.fbs ≠ 0).map fun x => x.n * x.ref).sum < (ls.map fun x => x.n * x.ref).sum) ∧
      ((∃ x ∈ ls, x.fbs ≠ 0) → 0 < ((ls.filter fun x => x.fbs ≠ 0).map fun x => x.n * x.ref).sum ∧
        0 < (ls.map fun x => x.n * x.fbs).sum) ∧
      0 ≤ ((ls.filter fun x => x.fbs ≠ 0).map fun x => x.n * x.ref).sum ∧ 0 ≤ (ls.map fun x => x.n * x.fbs).sum ∧
      (ls ≠ [] → 0 < (ls.map NbrLine.n).sum) ∧ 0 ≤ (ls.map NbrLine.n).sum := by
    intro ls
    clear * -
    induction ls with
    | nil => simp
    | cons x xs ih =>
      intro h
      obtain ⟨a1, a2, a3, a4, a5, a6, a7⟩ := ih fun y hy => h y (by simp [hy])
      obtain ⟨p1, p2, p3⟩ := h x (by simp)
      have pr : 0 < x.n * x.ref := mul_pos p1 p2
      by_cases h0 : x.fbs = 0
      · simp only [List.filter_cons, List.map_cons, List.sum_cons, List.mem_cons]
        rw [if_neg (by simpa using h0)]
        refine ⟨by linarith, fun _ => by linarith, ?_, a4, by rw [h0]; linarith, fun _ => by linarith, by linarith⟩
        rintro ⟨y, rfl | hy, hy0⟩
        · exact absurd h0 hy0
        · obtain ⟨b1, b2⟩ := a3 ⟨y, hy, hy0⟩
          exact ⟨b1, by rw [h0]; linarith⟩
      · have pf : 0 < x.n * x.fbs := mul_pos p1 (lt_of_le_of_ne p3 (Ne.symm h0))
        simp only [List.filter_cons, List.mem_cons]
        rw [if_pos (by simpa using h0)]
        simp only [List.map_cons, List.sum_cons]
        refine ⟨by linarith, ?_, fun _ => ⟨by linarith, by linarith⟩, by linarith, by linarith, fun _ => by linarith, by linarith⟩
        rintro ⟨y, rfl | hy, hy0⟩
        · exact absurd hy0 h0
        · have := a2 ⟨y, hy, hy0⟩
          linarith
  obtain ⟨k1, k2, k3, -, -, k6, -⟩ := key ls hpos
  obtain ⟨b1, b2⟩ := k3 hsome
  have hn := k6 (by rintro rfl; simp at hsome)
  have hF : 0 < pooledMean ls NbrLine.fbs := div_pos b2 hn
  have hK : 0 < keptReference ls := div_pos b1 hn
  have hR : 0 < pooledMean ls NbrLine.ref := div_pos (lt_of_lt_of_le b1 k1) hn
  have hiff : 1 - pooledMean ls NbrLine.fbs / keptReference ls = 1 - pooledMean ls NbrLine.fbs / pooledMean ls NbrLine.ref ↔
      keptReference ls = pooledMean ls NbrLine.ref := by
    constructor
    · intro h
      have h' : pooledMean ls NbrLine.fbs / keptReference ls = pooledMean ls NbrLine.fbs / pooledMean ls NbrLine.ref := by linarith
      rw [div_eq_div_iff hK.ne' hR.ne'] at h'
      exact (mul_left_cancel₀ hF.ne' h').symm
    · intro h
      rw [h]
  rw [hiff]
  constructor
  · intro h x hx h0
    have hlt := k2 ⟨x, hx, h0⟩
    unfold keptReference pooledMean at h
    rw [div_left_inj' hn.ne'] at h
    exact absurd h hlt.ne
  · intro h
    unfold keptReference pooledMean
    rw [List.filter_eq_self.mpr (by simpa using h)]

example : (∀ x ∈ exPerfectLine, 0 < x.n ∧ 0 < x.ref ∧ 0 ≤ x.fbs) ∧ (∃ x ∈ exPerfectLine, x.fbs ≠ 0) ∧
    HoldsNbr (nbrTable exPerfectLine) exPerfectLine ∧ keptReference exPerfectLine ≠ 0 := by
  refine ⟨by decide +kernel, by decide +kernel, nbrTable_holds _ (by simp [exPerfectLine]), by decide +kernel⟩

/-! ### C71 -/

/-- The rounded length of a vector. -/
noncomputable def roundedLength (u v : ℚ) : ℝ := roundHalfUp (Real.sqrt ((u : ℝ) ^ 2 + (v : ℝ) ^ 2)) 7

/-- C71, exactly: a group has no direction error if and only if the rounded length `F` of its mean forecast vector or the rounded length
`S` of the SUM of its observed vectors is 0, or both products of the mean vectors are below `F * S / 100000`. The sum grows with the
group, so that every group becomes one without direction error when it is repeated often enough. -/
theorem C71_missing_exactly_partial (t : Table) (bs : List (List WindPair)) (D : Vl1l2Data t bs) (F S : ℝ)
    (hF : F = roundedLength (avg WindPair.uf bs.flatten) (avg WindPair.vf bs.flatten))
    (hS : S = roundedLength (bs.flatten.map WindPair.uo).sum (bs.flatten.map WindPair.vo).sum) :
    aggregated "vcnt_dir_err" vcntDirErr t = .ok none ↔ F = 0 ∨ S = 0 ∨
      (|(avg WindPair.vf bs.flatten : ℝ) * (avg WindPair.uo bs.flatten : ℝ) -
          (avg WindPair.uf bs.flatten : ℝ) * (avg WindPair.vo bs.flatten : ℝ)| < F * S / 10 ^ 5 ∧
        |(avg WindPair.uf bs.flatten : ℝ) * (avg WindPair.uo bs.flatten : ℝ) +
          (avg WindPair.vf bs.flatten : ℝ) * (avg WindPair.vo bs.flatten : ℝ)| < F * S / 10 ^ 5) := by
  obtain ⟨t', h1, -, h2, h3, h4⟩ := batch_prepared D "vcnt_dir_err" ["ufbar", "vfbar", "uobar", "vobar"]
    rfl (by decide) (by decide) (by decide)
  rw [aggregated_eq h1, Except.ok.injEq]
  have hf : ∀ c ∈ ["ufbar", "vfbar", "uobar", "vobar"],
      colMean c t' false = some (bs.flatten.map (windSum c)).sum := by
    intro c hc
    simp [colMean, getTotalValues, h2 c hc, pyDiv]
  simp only [vcntDirErr, vlFspd, vlOspd, vlSpeed_of (h3 "ufbar" (by simp)) (h3 "vfbar" (by simp)),
    vlSpeed_of (hf "uobar" (by simp)) (hf "vobar" (by simp)), h3 "ufbar" (by simp), h3 "vfbar" (by simp),
    h3 "uobar" (by simp), h3 "vobar" (by simp), bind, Option.bind]
  have n1 : 0 ≤ F := hF ▸ round7_nonneg (Real.sqrt_nonneg _)
  have n2 : 0 ≤ S := hS ▸ round7_nonneg (Real.sqrt_nonneg _)
  have eF : roundHalfUp (Real.sqrt ((avg (windSum "ufbar") bs.flatten : ℝ) ^ 2 +
      (avg (windSum "vfbar") bs.flatten : ℝ) ^ 2)) 7 = F := hF.symm
  have eS : roundHalfUp (Real.sqrt (((bs.flatten.map (windSum "uobar")).sum : ℝ) ^ 2 +
      ((bs.flatten.map (windSum "vobar")).sum : ℝ) ^ 2)) 7 = S := hS.symm
  have e1 : avg WindPair.uf bs.flatten = avg (windSum "ufbar") bs.flatten := rfl
  have e2 : avg WindPair.vf bs.flatten = avg (windSum "vfbar") bs.flatten := rfl
  have e3 : avg WindPair.uo bs.flatten = avg (windSum "uobar") bs.flatten := rfl
  have e4 : avg WindPair.vo bs.flatten = avg (windSum "vobar") bs.flatten := rfl
  rw [e1, e2, e3, e4, eF, eS]
  clear hF hS eF eS e1 e2 e3 e4
  generalize avg (windSum "ufbar") bs.flatten = uf at *
  generalize avg (windSum "vfbar") bs.flatten = vf at *
  generalize avg (windSum "uobar") bs.flatten = uo at *
  generalize avg (windSum "vobar") bs.flatten = vo at *
  by_cases hz : F = 0 ∨ S = 0
  · rw [if_pos hz]
    simp only [true_iff]
    tauto
  · rw [if_neg hz]
    push Not at hz
    have p1 := lt_of_le_of_ne n1 (Ne.symm hz.1)
    have p2 := lt_of_le_of_ne n2 (Ne.symm hz.2)
    have k : 0 < F * S := by positivity
    have ea : (vf : ℝ) / F * ((uo : ℝ) / S) - (uf : ℝ) / F * ((vo : ℝ) / S) = ((vf : ℝ) * uo - uf * vo) / (F * S) := by field_simp
    have eb : (uf : ℝ) / F * ((uo : ℝ) / S) + (vf : ℝ) / F * ((vo : ℝ) / S) = ((uf : ℝ) * uo + vf * vo) / (F * S) := by field_simp
    rw [ea, eb]
    unfold calcDirection
    have hab : ∀ q : ℝ, |q / (F * S)| < 1 / 10 ^ 5 ↔ |q| < F * S / 10 ^ 5 := by
      intro q
      rw [abs_div, abs_of_pos k, div_lt_iff₀ k]
      constructor <;> intro h <;> linarith
    simp only [hab]
    by_cases hc : |(vf : ℝ) * uo - uf * vo| < F * S / 10 ^ 5 ∧ |(uf : ℝ) * uo + vf * vo| < F * S / 10 ^ 5
    · rw [if_pos hc]
      simp only [true_iff]
      exact Or.inr (Or.inr hc)
    · rw [if_neg hc]
      constructor
      · intro h; cases h
      · rintro (h | h | h)
        · exact absurd h hz.1
        · exact absurd h hz.2
        · exact absurd h hc

example : ∃ (t : Table) (bs : List (List WindPair)), Vl1l2Data t bs ∧ avg WindPair.uf bs.flatten = -1 := by
  obtain ⟨t, bs, D, h, -⟩ := C70_degrees_counterexample
  exact ⟨t, bs, D, h⟩

end Metcalcpy.Props
