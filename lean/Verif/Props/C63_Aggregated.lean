/-
C26  The result of create_permutations_mv from a position on.
C63  The error standard deviation of an aggregation run, exactly.
C64  The fractional error of an aggregation run, exactly.
C65  The scatter index of observations with mean 0.
C263 The bias-corrected RMSE of SSVAR lines in an aggregation run.
-/
import Verif.Props.C25_Permutations
import Verif.Props.C263_SpreadRun

namespace Metcalcpy.Props
open Metcalcpy Spec

/-! ### C26 -/

/-- C26: from position `i` on, the result is that of the remaining lists; a position behind the last list is an IndexError,
unless there are no lists at all. -/
theorem C26_index {α : Type} (ls : List (List α)) (i : ℕ) :
    (i < ls.length → createPermutationsMvList ls i = createPermutationsMvList (ls.drop i) 0) ∧
    (ls ≠ [] → ls.length ≤ i → createPermutationsMvList ls i = .error .indexError) ∧
    (ls = [] → createPermutationsMvList ls i = .ok []) := by
  refine ⟨fun h => ?_, fun h h' => ?_, fun h => ?_⟩
  · have h0 : ls ≠ [] := by rintro rfl; simp at h
    have h1 : ls.drop i ≠ [] := by simpa using h
    unfold createPermutationsMvList
    rw [if_neg h0, if_neg (by omega), if_neg h1, if_neg (by rw [List.length_drop]; omega), List.drop_zero]
  · unfold createPermutationsMvList
    rw [if_neg h, if_pos h']
  · unfold createPermutationsMvList
    rw [if_pos h]

example : createPermutationsMvList [["a"], ["b", "c"], ["d"]] 1 = createPermutationsMvList [["b", "c"], ["d"]] 0 ∧
    createPermutationsMvList [["a"], ["b", "c"]] 2 = .error .indexError :=
  ⟨(C26_index _ _).1 (by decide), (C26_index _ _).2.1 (by decide) (by decide)⟩

/-! ### C63 -/

/-- C63 is false in every aggregation run of at least two pairs in which this value is not the standard deviation: ESTDEV is computed
from the sum `e` of the errors and the sum `s` of their squares as if they were means.  It is missing when `s < e²` and the root of
`n (s - e²) / (n - 1)` otherwise; one pair gives an exception or nothing. -/
theorem C63_aggregated_counterexample (t : Table) (bs : List (List Pair)) (D : Sl1l2Data t bs) (n e s : ℚ) (hn : n = bs.flatten.length)
    (he : e = roundHalfUp (bs.flatten.map fun p => p.1 - p.2).sum 7)
    (hs : s = roundHalfUp (bs.flatten.map fun p => (p.1 - p.2) ^ 2).sum 7) :
    (s < e ^ 2 → aggregated "estdev" slEstdev t = .ok (.ok none)) ∧
    (e ^ 2 ≤ s → n ≠ 1 →
      aggregated "estdev" slEstdev t = .ok (.ok (some (roundHalfUp (Real.sqrt ((n * (s - e ^ 2) / (n - 1) : ℚ) : ℝ)) 7)))) ∧
    (s = e ^ 2 → n = 1 → aggregated "estdev" slEstdev t = .ok (.error .valueError)) ∧
    (e ^ 2 < s → n = 1 → aggregated "estdev" slEstdev t = .ok (.error .overflowError)) := by
  obtain ⟨t', h1, h2, h3, h4⟩ := sl_prepared D "estdev" ["ffbar", "oobar", "fobar", "fbar", "obar"] rfl (by simp) (by simp)
  have h5 : (1 : ℚ) ≤ n := by
    rw [hn]
    have : 0 < bs.flatten.length := by exact_mod_cast h4
    exact_mod_cast this
  rw [← hn] at h2 h4
  generalize bs.flatten = P at *
  have d1 : ∀ x : ℚ, pyDiv x 1 = some x := fun x => by simp [pyDiv]
  have a1 : (P.map fun p => p.1 - p.2).sum = (P.map (gSl "fbar")).sum - (P.map (gSl "obar")).sum := by
    clear * -
    induction P with
    | nil => simp
    | cons p P ih => simp only [List.map_cons, List.sum_cons, ih, gSl_f, gSl_o]; ring
  have a2 : (P.map fun p => (p.1 - p.2) ^ 2).sum =
      (P.map (gSl "ffbar")).sum + (P.map (gSl "oobar")).sum - 2 * (P.map (gSl "fobar")).sum := by
    clear * -
    induction P with
    | nil => simp
    | cons p P ih => simp only [List.map_cons, List.sum_cons, ih, gSl_ff, gSl_oo, gSl_fo]; ring
  have v1 : slMe t' false = some e := by
    rw [he, a1]
    simp [slMe, getTotalValues, h3 "fbar" (by simp), h3 "obar" (by simp), d1, PRECISION]
  have v2 : slMse t' false = some s := by
    rw [hs, a2]
    simp [slMse, getTotalValues, h3 "ffbar" (by simp), h3 "oobar" (by simp), h3 "fobar" (by simp), d1, PRECISION]
  have hx : s * n - e * n * (e * n) / n = n * (s - e ^ 2) := by
    have := h4.ne'
    field_simp
  rw [aggregated_ok h1]
  simp only [slEstdev, h2, v1, v2, hx]
  rw [if_neg (not_lt.mpr h5)]
  refine ⟨fun h => ?_, fun h h' => ?_, fun h h' => ?_, fun h h' => ?_⟩
  · have hneg : n * (s - e ^ 2) < 0 := mul_neg_of_pos_of_neg h4 (by linarith)
    by_cases h6 : n = 1
    · rw [if_pos h6, if_pos hneg]
    · have : 1 < n := lt_of_le_of_ne h5 (Ne.symm h6)
      rw [if_neg h6, if_pos (div_neg_of_neg_of_pos hneg (by linarith))]
  · have : 1 < n := lt_of_le_of_ne h5 (Ne.symm h')
    rw [if_neg h', if_neg]
    · rfl
    · exact not_lt.mpr (div_nonneg (mul_nonneg h4.le (by linarith)) (by linarith))
  · rw [if_pos h', if_neg (by rw [h]; simp), if_pos (by rw [h]; simp)]
  · have : 0 < n * (s - e ^ 2) := mul_pos h4 (by linarith)
    rw [if_pos h', if_neg (not_lt.mpr this.le), if_neg this.ne']

/-- Two errors 1 and 3: sum 4, sum of squares 10 < 16. -/
example : aggregated "estdev" slEstdev exEst = .ok (.ok none) :=
  (C63_aggregated_counterexample _ _ exEst_data 2 4 10 (by simp) (by norm_num [roundHalfUp]) (by norm_num [roundHalfUp])).1 (by norm_num)

/-! ### C64 -/

/-- The quotient of an aggregation run: the means of the lines are added without weights. -/
theorem C64_aggregated_counterexample (t : Table) (bs : List (List Pair)) (D : Sl1l2Data t bs) (F O : ℚ)
    (hF : F = (bs.map (avg Prod.fst)).sum) (hO : O = (bs.map (avg Prod.snd)).sum) :
    (F = 0 → aggregated "fe" slFe t = .ok none) ∧
    (F ≠ 0 → aggregated "fe" slFe t = .ok (some (roundHalfUp ((F - O) / F) 7))) := by
  obtain ⟨-, -, -, -, h4⟩ := sl_prepared D "fbar" ["fbar"] rfl (by simp) (by simp)
  have s0 : sumColumn t "total" = some (bs.flatten.length : ℚ) := by
    rw [sumColumn_of_complete D.rows_ne D.total, List.length_flatten]
    congr 1
    clear * -
    induction bs with
    | nil => simp
    | cons b bs ih => simp [Function.comp_def]
  have s1 := sumColumn_of_complete D.rows_ne D.fbar
  have s2 := sumColumn_of_complete D.rows_ne D.obar
  rw [← hF] at s1
  rw [← hO] at s2
  have hp : prepareFields t (fieldsOf "fe") = .ok t := rfl
  rw [aggregated_ok hp]
  have hne := h4.ne'
  constructor
  · intro h
    simp only [slFe, getTotalValues, if_true, s0, s1, s2, pyDiv, Option.bind_eq_bind, Option.bind_some, if_neg hne, h, zero_div]
    rfl
  · intro h
    have h' : F / (bs.flatten.length : ℚ) ≠ 0 := div_ne_zero h hne
    simp only [slFe, getTotalValues, if_true, s0, s1, s2, pyDiv, Option.bind_eq_bind, Option.bind_some, if_neg hne, if_neg h', PRECISION]
    congr 3
    field_simp

theorem sum_avg_equal (g : Pair → ℚ) (m : ℕ) (bs : List (List Pair)) (h : ∀ b ∈ bs, b.length = m) :
    (bs.map (avg g)).sum = (bs.flatten.map g).sum / m := by
  induction bs with
  | nil => simp
  | cons b bs ih =>
    rw [List.map_cons, List.sum_cons, ih (fun x hx => h x (by simp [hx])), List.flatten_cons, List.map_append, List.sum_append]
    unfold avg
    rw [h b (by simp)]
    ring

/-- C64, the part of the aggregation runs that holds: lines with the same number of pairs give the fractional error of all pairs. -/
theorem C64_equal_totals_partial (t : Table) (bs : List (List Pair)) (D : Sl1l2Data t bs) (m : ℕ) (hm : ∀ b ∈ bs, b.length = m)
    (hf : avg Prod.fst bs.flatten ≠ 0) :
    aggregated "fe" slFe t = .ok (some (roundHalfUp (meanError bs.flatten / avg Prod.fst bs.flatten) 7)) := by
  obtain ⟨-, -, -, -, h4⟩ := sl_prepared D "fbar" ["fbar"] rfl (by simp) (by simp)
  have hm0 : (m : ℚ) ≠ 0 := by
    rintro h0
    have h0 : m = 0 := by exact_mod_cast h0
    have : bs.flatten.length = 0 := by
      rw [List.length_flatten]
      refine List.sum_eq_zero ?_
      intro x hx
      obtain ⟨b, hb, rfl⟩ := List.mem_map.mp hx
      rw [hm b hb, h0]
    rw [this] at h4
    simp at h4
  have hne := h4.ne'
  have hs : (bs.flatten.map Prod.fst).sum ≠ 0 := by
    intro h0
    apply hf
    unfold avg
    rw [h0, zero_div]
  have hF0 : (bs.map (avg Prod.fst)).sum ≠ 0 := by
    rw [sum_avg_equal _ m _ hm]
    exact div_ne_zero hs hm0
  rw [(C64_aggregated_counterexample t bs D _ _ rfl rfl).2 hF0, sum_avg_equal _ m _ hm, sum_avg_equal _ m _ hm, meanError_eq]
  unfold avg
  congr 3
  field_simp

/-- Two lines of one pair each: the errors 1 and 2 of the forecasts 2 and 4. -/
def exEqual : Table :=
  { cols := ["total", "fbar", "obar", "fobar", "ffbar", "oobar"]
    rows := [[some 1, some 2, some 1, some 2, some 4, some 1], [some 1, some 4, some 2, some 8, some 16, some 4]] }

theorem exEqual_data : Sl1l2Data exEqual [[(2, 1)], [(4, 2)]] where
  rows_ne := by simp [exEqual]
  batch_ne := by simp
  total := ⟨0, rfl, by simp, by simp [exEqual]⟩
  fbar := ⟨1, rfl, by simp [exEqual] <;> decide, by simp [exEqual, avg]⟩
  obar := ⟨2, rfl, by simp [exEqual] <;> decide, by simp [exEqual, avg]⟩
  fobar := ⟨3, rfl, by simp [exEqual] <;> decide, by simp [exEqual, avg] <;> norm_num⟩
  ffbar := ⟨4, rfl, by simp [exEqual] <;> decide, by simp [exEqual, avg] <;> norm_num⟩
  oobar := ⟨5, rfl, by simp [exEqual] <;> decide, by simp [exEqual, avg] <;> norm_num⟩

example : aggregated "fe" slFe exEqual = .ok (some (1 / 2)) := by
  rw [C64_equal_totals_partial _ _ exEqual_data 1 (by simp) (by norm_num [avg])]
  norm_num [avg, meanError, roundHalfUp]

/-! ### C65 -/

/-- C65 is false whenever the mean observation is 0 to seven decimals: the run fails with a ZeroDivisionError. -/
theorem C65_zero_counterexample (t : Table) (bs : List (List Pair)) (D : Sl1l2Data t bs)
    (ho : roundHalfUp (avg Prod.snd bs.flatten) 7 = 0) :
    aggregated "si" slSi t = .ok (.error .zeroDivisionError) := by
  obtain ⟨t', h1, h2, h3, h4⟩ := sl_prepared D "si" ["ffbar", "oobar", "fobar", "obar"] rfl
    (by simp) (by simp)
  generalize bs.flatten = P at *
  have hm : 0 ≤ meanSquaredError P := avg_nonneg_sq _ _
  have hm' : 0 ≤ roundHalfUp (meanSquaredError P) 7 := round7_nonneg hm
  have v2 : slMse t' true = some (roundHalfUp (meanSquaredError P) 7) := by
    simp [slMse, getTotalValues, h2, h3 "ffbar" (by simp), h3 "oobar" (by simp), h3 "fobar" (by simp),
      pyDiv_ne h4.ne', PRECISION, mse_eq, avg, gSl_fo, gSl_ff, gSl_oo]
  have v3 : slMean "obar" t' true = some (roundHalfUp (avg Prod.snd P) 7) := by
    simp [slMean, getTotalValues, h2, h3 "obar" (by simp), pyDiv_ne h4.ne', PRECISION, avg, gSl_o]
  rw [aggregated_ok h1]
  simp only [slSi, slRmse, v2, v3, lenientSqrt, if_neg (not_lt.mpr hm'), Except.map, ho, if_true, bind, Except.bind]

example : aggregated "si" slSi exEst = .ok (.error .zeroDivisionError) :=
  C65_zero_counterexample _ _ exEst_data (by norm_num [avg, roundHalfUp])

/-! ### C263 -/

section
variable {f : Frame} {p : AggParams} {init : List (String × List String)} {sv : String × List String}
  {parts : String → List String}
  {fix : List (String × List String)} {fv : String} {sts : List String} {rest : List (String × List String)}

/-- The bias-corrected RMSE of SSVAR lines whose mean square is large enough for its rounding. -/
def CorrectedRoot (pool : List Pair) (v : PyNum) : Prop :=
  (1 + |meanError pool|) / 10 ^ 7 ≤ biasCorrectedMse pool → ∃ x : ℚ, 0 ≤ x ∧
    |x - biasCorrectedMse pool| ≤ (1 + |meanError pool|) / 10 ^ 7 + 1 / 10 ^ 14 ∧ RoundsTo (Real.sqrt (x : ℝ)) v

/-- C263: in such a run the bias-corrected RMSE is the root of the bias-corrected mean square of all points of the common cases,
within the rounding of its parts. -/
theorem C263_bcrmse (etb : List PyNum → List PyNum → PyNum) (out : List AggOut)
    (R : OneAxisRun f p init sv parts fix fv sts rest) (key : List Val → String)
    (hkey : ∀ r ∈ f.rows, IsCaseKey f p.indyVar true r (key r)) (points : List Val → List (Pair × ℚ))
    (L : SsvarLines f points) (h : aggRun (spreadStat f) etb f p = .ok out) (hne : out ≠ []) :
    ∃ plain derived, out = plain ++ derived ∧
      (∀ pt, pt ∈ plain.map AggOut.point ↔
        ∃ as, List.Forall₂ (fun x q => x ∈ q.2) as (init ++ [sv]) ∧ ∃ i ∈ p.indyVals, ∃ st ∈ p.axis₁.stats,
          pt = as ++ [i, st]) ∧
      ∀ o ∈ plain, ∀ as i st, o.point = as ++ [i, st] → lower st = "ssvar_bcrmse" →
        ∀ rows, rows = comparedRows f (init ++ [sv]) parts fix fv p.indyVar key as i st → rows ≠ [] →
          CorrectedRoot ((rows.flatMap points).map Prod.fst) o.value := by
  obtain ⟨plain, derived, e, hpts, hval⟩ := run_scores _
    (fun s rows v => s = "ssvar_bcrmse" → CorrectedRoot ((rows.flatMap points).map Prod.fst) v) etb out R key hkey
    (fun s rows v hr hsub hv es => by
      subst es
      obtain ⟨data, hs, hv⟩ := spreadStat_inv hv
      have D := ssvar_table L (perm_ne hs hr) (fun r hr => hsub r (hs.mem_iff.mp hr))
      have D' := ssvar_sl1l2 D
      have hp : ((data.map points).map (List.map Prod.fst)).flatten.Perm ((rows.flatMap points).map Prod.fst) := by
        rw [pooledPairs_eq]
        refine List.Perm.map Prod.fst ?_
        rw [← List.flatMap_def]
        exact hs.flatMap_right points
      have hme : meanError _ = meanError ((rows.flatMap points).map Prod.fst) := perm_avg _ hp
      have hbc := perm_bcmse hp
      intro hb
      rw [← hme, ← hbc] at hb
      obtain ⟨x, hx0, hx1, hx2⟩ := bcrmse_value D' hb
      rw [hme, hbc] at hx1
      have e11 := (C116_scalar_statistics _ _ D).2.2.2.2.2.2.2.2.2.2.1
      rw [spread_except rfl (e11.trans hx2)] at hv
      cases Except.ok.inj hv
      exact ⟨x, hx0, hx1, realNum_rounds _⟩) h hne
  exact ⟨plain, derived, e, hpts, fun o ho as i st hp es rows hrows hr => (hval o ho as i st hp rows hrows).2 hr es⟩

end

example : ∃ out, aggRun (spreadStat (exSpread "SSVAR_RMSE")) (fun _ _ => .none) (exSpread "SSVAR_RMSE")
    (exLinesParams "SSVAR_RMSE") = .ok out ∧ out ≠ [] ∧ ∃ plain derived, out = plain ++ derived := by
  have R := exSpread_input "SSVAR_RMSE" (by decide)
  have L := exSpread_lines "SSVAR_RMSE" (by decide)
  obtain ⟨out, h⟩ := C263_completes (fun _ _ => .none) R exSpreadPoints L rfl (by decide +kernel)
  have hne := run_nonempty _ _ _ R h _ rfl (by unfold FrameWF; decide +kernel) (by decide +kernel) (by decide +kernel)
  obtain ⟨plain, derived, e, -⟩ := C263_bcrmse _ _ R exRunKey (exLines_key _ _ _) _ L h hne
  exact ⟨out, h, hne, plain, derived, e⟩

end Metcalcpy.Props
