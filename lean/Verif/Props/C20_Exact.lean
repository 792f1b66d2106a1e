/-
C19 Contingency tables: which number every count of a group becomes.
C20, C66 The skill scores of groups with perfect lines, exactly.
C68 The mean wind speeds of VL1L2 groups, exactly.
C76 Exactly when autocor_coef is the least-squares slope.
-/
import Verif.Props.C07_Table
import Verif.Props.C20_Ensemble
import Verif.Props.C18_SeriesSums
import Verif.Props.C37_StdErr
import Verif.Props.C68_Vector

namespace Metcalcpy.Props
open Metcalcpy Spec

/-! ### C19 -/

/-- C19 is false for every group: each of the four counts becomes the sum of the first column of the input, whatever it is called. -/
theorem C19_first_column_counterexample (lineType : String) (hl : lineType = "ctc" ∨ lineType = "nbrctc") (t : Table) (c₀ : String)
    (rest : List String) (hc : t.cols = c₀ :: rest) (x : List ℚ) (hr : t.rows ≠ []) (hx : CompleteColumn t c₀ x) :
    ∃ out, calcSeriesSums lineType t = some (.ok out) ∧
      ∀ c ∈ ["fy_oy", "fy_on", "fn_oy", "fn_on"], CompleteColumn out c [x.sum] := by
  obtain ⟨i, h1, h2, h3⟩ := hx
  have hi : i = 0 := by
    rcases Nat.eq_zero_or_pos i with h | h
    · exact h
    · exact absurd (by rw [hc]; rfl) (h2 0 h)
  subst hi
  have hm : t.rows.mapM (fun r => r[0]?) = some (x.map some) := by
    have : ∀ (rows : List (List Cell)) (y : List Cell), rows.map (fun r => r[0]?) = y.map some →
        rows.mapM (fun r => r[0]?) = some y := by
      intro rows
      induction rows with
      | nil => intro y hy; cases y <;> simp_all
      | cons r rows ih =>
        intro y hy
        cases y with
        | nil => simp at hy
        | cons a y =>
          simp only [List.map_cons, List.cons.injEq] at hy
          rw [List.mapM_cons, hy.1, ih y hy.2]
          rfl
    exact this _ _ h3
  have hx0 : x ≠ [] := by
    rintro rfl
    simp only [List.map_nil, List.map_eq_nil_iff] at h3
    exact hr h3
  have hall : ¬ ((x.map some).all Option.isNone = true) := by
    cases x with
    | nil => exact absurd rfl hx0
    | cons a x => simp
  have hf : ((x.map (some : ℚ → Cell)).filterMap id).sum = x.sum := by
    congr 1
    clear * -
    induction x with
    | nil => rfl
    | cons a x ih => simp
  refine ⟨seriesSumsCtc t, by unfold calcSeriesSums; rw [if_pos hl], ?_⟩
  intro c hcm
  unfold seriesSumsCtc
  simp only [hm, if_neg hall, hf]
  simp only [List.mem_cons, List.not_mem_nil, or_false] at hcm
  rcases hcm with rfl | rfl | rfl | rfl
  · exact ⟨1, rfl, show ∀ j < 1, ["total", "fy_oy", "fy_on", "fn_oy", "fn_on"][j]? ≠ some "fy_oy" by decide, rfl⟩
  · exact ⟨2, rfl, show ∀ j < 2, ["total", "fy_oy", "fy_on", "fn_oy", "fn_on"][j]? ≠ some "fy_on" by decide, rfl⟩
  · exact ⟨3, rfl, show ∀ j < 3, ["total", "fy_oy", "fy_on", "fn_oy", "fn_on"][j]? ≠ some "fn_oy" by decide, rfl⟩
  · exact ⟨4, rfl, show ∀ j < 4, ["total", "fy_oy", "fy_on", "fn_oy", "fn_on"][j]? ≠ some "fn_on" by decide, rfl⟩

example : ∃ out, calcSeriesSums "ctc" ⟨["fcst_lead", "total", "fy_oy"], [[some 6, some 10, some 1], [some 12, some 12, some 2]]⟩ =
      some (.ok out) ∧ ∀ c ∈ ["fy_oy", "fy_on", "fn_oy", "fn_on"], CompleteColumn out c [[6, 12].sum] :=
  C19_first_column_counterexample "ctc" (Or.inl rfl) _ _ _ rfl [6, 12] (by simp) ⟨0, rfl, by simp, rfl⟩

/-! ### C20, C66 -/

/-- The reference values of the lines that are not perfect forecasts. -/
def usedReference (b d : List ℚ) : List ℚ := List.zipWith (fun x y => if x = 0 then 0 else y) b d

theorem perfect_cells (b d n : List ℚ) (hd : ∀ y ∈ d, y ≠ 0) (l1 : d.length = b.length) (l2 : n.length = b.length) (cells : List Cell)
    (hcells : cells = mulCols (skillDenominator (b.map some) ((List.zipWith (fun b d => 1 - b / d) b d).map some)) (n.map some)) :
    cells.map (fun c => c.getD 0) = List.zipWith (· * ·) n (usedReference b d) ∧
    ((∃ x ∈ b, x ≠ 0) → ∃ v, some v ∈ cells) ∧ ((∀ x ∈ b, x = 0) → ∀ c ∈ cells, c = none) := by
  subst hcells
  unfold skillDenominator usedReference mulCols
  induction b generalizing d n with
  | nil => cases d <;> cases n <;> simp at *
  | cons x b ih =>
    cases d with
    | nil => simp at l1
    | cons y d =>
      cases n with
      | nil => simp at l2
      | cons m n =>
        obtain ⟨i1, i2, i3⟩ := ih d n (fun z hz => hd z (by simp [hz])) (by simpa using l1) (by simpa using l2)
        have hy : y ≠ 0 := hd y (by simp)
        have e : (1 : ℚ) - (1 - x / y) = x / y := by ring
        simp only [List.map_cons, List.zipWith_cons_cons, e]
        by_cases hx : x = 0
        · have e0 : x / y = 0 := by rw [hx, zero_div]
          rw [if_pos e0, if_pos hx]
          refine ⟨?_, ?_, ?_⟩
          · rw [i1]; simp [mulCell]
          · rintro ⟨z, hz, hz0⟩
            rcases List.mem_cons.mp hz with rfl | hz
            · exact absurd hx hz0
            · obtain ⟨v, hv⟩ := i2 ⟨z, hz, hz0⟩
              exact ⟨v, List.mem_cons_of_mem _ hv⟩
          · intro h c hc
            rcases List.mem_cons.mp hc with rfl | hc
            · rfl
            · exact i3 (fun z hz => h z (by simp [hz])) c hc
        · have e0 : x / y ≠ 0 := div_ne_zero hx hy
          have e3 : x / (x / y) = y := by field_simp
          rw [if_neg e0, if_neg hx, e3]
          refine ⟨?_, fun _ => ⟨y * m, by simp [mulCell]⟩, fun h => absurd (h x (by simp)) hx⟩
          rw [i1]; simp [mulCell, mul_comm]

theorem skill_exact {t' : Table} {num den : String} {n b d : List ℚ} (hr : t'.rows ≠ []) (hn : CompleteColumn t' "total" n)
    (hp : 0 < n.sum) (hb : colMean num t' true = some (wmean n b))
    (hc : IsColumn t' den (mulCols (skillDenominator (b.map some) ((List.zipWith (fun b d => 1 - b / d) b d).map some)) (n.map some)))
    (hd : ∀ y ∈ d, y ≠ 0) (l1 : d.length = b.length) (l2 : n.length = b.length) :
    ((∀ x ∈ b, x = 0) ∨ wmean n (usedReference b d) = 0 → skillScore num den t' true = none) ∧
    (¬ ((∀ x ∈ b, x = 0) ∨ wmean n (usedReference b d) = 0) →
      skillScore num den t' true = some (roundHalfUp (1 - wmean n b / wmean n (usedReference b d)) 7)) := by
  obtain ⟨p1, p2, p3⟩ := perfect_cells b d n hd l1 l2 _ rfl
  obtain ⟨q1, -, q3⟩ := C07_column_sum _ _ _ true hc
  have hne := hp.ne'
  have key : (∃ x ∈ b, x ≠ 0) → colMean den t' true = some (wmean n (usedReference b d)) := by
    intro h
    have h1 := q3 (p2 h) (Or.inl rfl)
    rw [p1] at h1
    simp only [colMean, getTotalValues, if_true, sumColumn_of_complete hr hn, h1, pyDiv, Option.bind_eq_bind, Option.bind_some,
      if_neg hne]
    rfl
  constructor
  · intro h
    by_cases h0 : ∀ x ∈ b, x = 0
    · have : colMean den t' true = none := by
        simp only [colMean, getTotalValues, if_true, sumColumn_of_complete hr hn, q1 (p3 h0), Option.bind_eq_bind, Option.bind_some,
          Option.bind_none]
      simp only [skillScore, hb, this, Option.bind_eq_bind, Option.bind_some, Option.bind_none]
    · push Not at h0
      have h' := h.resolve_left (by push Not; exact h0)
      simp only [skillScore, hb, key h0, h', pyDiv, if_true, Option.bind_eq_bind, Option.bind_some, Option.bind_none]
  · intro h
    push Not at h
    simp only [skillScore, hb, key h.1, pyDiv, if_neg h.2, Option.bind_eq_bind, Option.bind_some, PRECISION]

/-- C20: the fractions skill score of a group, exactly: the reference values of perfect lines are missing from the denominator. -/
theorem C20_fss_actual (t : Table) (n b d f o : List ℚ) (D : NbrCntData t n b d f o) (hd : ∀ y ∈ d, y ≠ 0) :
    ((∀ x ∈ b, x = 0) ∨ wmean n (usedReference b d) = 0 → aggregatedNbrCnt (skillScore "fbs" "fss") t = .ok none) ∧
    (¬ ((∀ x ∈ b, x = 0) ∨ wmean n (usedReference b d) = 0) → aggregatedNbrCnt (skillScore "fbs" "fss") t =
      .ok (some (roundHalfUp (1 - wmean n b / wmean n (usedReference b d)) 7))) := by
  obtain ⟨t', h, hr, hn, h1, h2, -, -⟩ := nbr_prepared D.toWeightedRows D.fbs D.fss D.f_rate D.o_rate
  have l2 : n.length = b.length := by
    have h1 := IsColumn.length D.total
    have h2 := IsColumn.length D.fbs
    simp at h1 h2; omega
  rw [aggregatedNbrCnt_of h]
  obtain ⟨r1, r2⟩ := skill_exact hr hn D.total_pos (colMean_scaled hr hn D.total_pos h1) h2 hd D.len l2
  exact ⟨fun hh => by rw [r1 hh], fun hh => by rw [r2 hh]⟩

/-- C66: the ranked probability skill score of a group, exactly: the reference values of perfect lines are missing from the
denominator. -/
theorem C66_rpss_actual (t : Table) (n s c k : List ℚ) (D : RpsData t n s c k) (hc : ∀ y ∈ c, y ≠ 0) :
    ((∀ x ∈ s, x = 0) ∨ wmean n (usedReference s c) = 0 → aggregatedRps (skillScore "rps" "rps_climo") t = .ok none) ∧
    (¬ ((∀ x ∈ s, x = 0) ∨ wmean n (usedReference s c) = 0) → aggregatedRps (skillScore "rps" "rps_climo") t =
      .ok (some (roundHalfUp (1 - wmean n s / wmean n (usedReference s c)) 7))) := by
  obtain ⟨t', h, hr, hn, h1, h2, -⟩ := rps_prepared D.toWeightedRows D.rps D.rpss D.rps_comp
  have l2 : n.length = s.length := by
    have h1 := IsColumn.length D.total
    have h2 := IsColumn.length D.rps
    simp at h1 h2; omega
  rw [aggregatedRps_of h]
  obtain ⟨r1, r2⟩ := skill_exact hr hn D.total_pos (colMean_scaled' hr hn D.total_pos h1) h2 hc D.len l2
  exact ⟨fun hh => by rw [r1 hh], fun hh => by rw [r2 hh]⟩

/-- Of two lines with reference 1/5 the first is perfect. -/
theorem exPerfect_data : NbrCntData ⟨["total", "fbs", "fss", "f_rate", "o_rate"],
      [[some 1, some 0, some 1, some (1/2), some (1/2)], [some 1, some (1/10), some (1/2), some (1/2), some (1/2)]]⟩
    [1, 1] [0, 1/10] [1/5, 1/5] [1/2, 1/2] [1/2, 1/2] :=
  ⟨⟨by decide, by unfold WellFormed; decide +kernel, ⟨0, by decide, by decide, by decide +kernel⟩, by norm_num⟩,
   ⟨1, by decide, by decide, by decide +kernel⟩, ⟨2, by decide, by decide, by decide +kernel⟩,
   ⟨3, by decide, by decide, by decide +kernel⟩, ⟨4, by decide, by decide, by decide +kernel⟩, rfl⟩

example : aggregatedNbrCnt (skillScore "fbs" "fss") ⟨["total", "fbs", "fss", "f_rate", "o_rate"],
      [[some 1, some 0, some 1, some (1/2), some (1/2)], [some 1, some (1/10), some (1/2), some (1/2), some (1/2)]]⟩ =
    .ok (some (1 / 2)) := by
  rw [(C20_fss_actual _ _ _ _ _ _ exPerfect_data (by norm_num)).2 (by norm_num [wmean, usedReference])]
  norm_num [wmean, usedReference, roundHalfUp]

/-! ### C68 -/

/-- C68 is false: VL1L2_FSPD and VL1L2_OSPD of a group are the lengths of the vectors whose components are the sums of the means of the
lines, without weights, divided by the number of all pairs. -/
theorem C68_speed_actual (t : Table) (bs : List (List WindPair)) (D : Vl1l2Data t bs) (n : ℚ) (hn : n = bs.flatten.length) :
    aggregated "vl1l2_fspd" vlFspd t = .ok (some (roundHalfUp (Real.sqrt
      ((((bs.map (avg (windSum "ufbar"))).sum / n : ℚ) : ℝ) ^ 2 + (((bs.map (avg (windSum "vfbar"))).sum / n : ℚ) : ℝ) ^ 2)) 7)) ∧
    aggregated "vl1l2_ospd" vlOspd t = .ok (some (roundHalfUp (Real.sqrt
      ((((bs.map (avg (windSum "uobar"))).sum / n : ℚ) : ℝ) ^ 2 + (((bs.map (avg (windSum "vobar"))).sum / n : ℚ) : ℝ) ^ 2)) 7)) := by
  have e : (bs.map (fun b => (b.length : ℚ))).sum = n := by
    rw [hn, List.length_flatten]
    clear * -
    induction bs with
    | nil => simp
    | cons b bs ih => simp [Function.comp_def]
  have hb : bs ≠ [] := by
    rintro rfl
    have := IsColumn.length D.total
    simp at this
    exact D.rows_ne (List.eq_nil_of_length_eq_zero this.symm)
  have hp : 0 < (bs.map (fun b => (b.length : ℚ))).sum := by
    rw [e, hn]
    obtain ⟨b, hb⟩ := List.exists_mem_of_ne_nil _ hb
    obtain ⟨w, hw⟩ := List.exists_mem_of_ne_nil _ (D.batch_ne b hb)
    have : 0 < bs.flatten.length := List.length_pos_of_mem (List.mem_flatten.mpr ⟨b, hb, hw⟩)
    exact_mod_cast this
  have key : ∀ c ∈ vl1l2Columns, colMean c t true = some ((bs.map (avg (windSum c))).sum / n) := by
    intro c hc
    rw [colMean_of D.rows_ne D.total hp (D.field c hc), e]
  constructor
  · rw [aggregated_eq (show prepareFields t (fieldsOf "vl1l2_fspd") = .ok t from rfl), vlFspd,
      vlSpeed_of (key "ufbar" (by decide)) (key "vfbar" (by decide))]
  · rw [aggregated_eq (show prepareFields t (fieldsOf "vl1l2_ospd") = .ok t from rfl), vlOspd,
      vlSpeed_of (key "uobar" (by decide)) (key "vobar" (by decide))]

example := C68_speed_actual _ _ windTable_data _ rfl

/-! ### C76 -/

/-- C76: the coefficient is the least-squares slope exactly when the deviations from the mean of all values but the last sum to 0 or 1,
or those of all values but the first sum to 0. -/
theorem C76_exactly_when_partial (data : List ℚ) (b : ℚ) (h : autocorCoef data = .ok (some b)) :
    IsSlope (lagPairs data) b ↔
      (((lagPairs data).map (fun p => p.1 - mean data)).sum = 0 ∨ ((lagPairs data).map (fun p => p.1 - mean data)).sum = 1) ∨
      ((lagPairs data).map (fun p => p.2 - mean data)).sum = 0 := by
  refine ⟨fun hs => ?_, C76_slope_partial data b h⟩
  obtain ⟨sx, sy, sxx, sxy, n, e1, e2, e3, e4, e5, h0, h1, h2, hb⟩ := autocor_pairs h
  rw [slope_shift _ (by rw [← e5]; exact h0) (mean data), ← e1, ← e2, ← e3, ← e4, ← e5] at hs
  rw [← e1, ← e2]
  rw [← pow_two] at h2 hb
  rw [hb, add_mul, div_mul_cancel₀ _ h2] at hs
  have h3 : sx * sy / (sx - n * sxx) * (sxx - sx ^ 2 / n) = -(sx * sy / n) := by linarith
  have h4 : sx * sy * (n * sxx - sx ^ 2) = -(sx * sy * (sx - n * sxx)) := by
    field_simp at h3
    linarith
  have h5 : sx * (sx - 1) * (sx * sy) = 0 := by linear_combination -h4
  rcases mul_eq_zero.mp h5 with h6 | h6
  · rcases mul_eq_zero.mp h6 with h7 | h7
    · exact Or.inl (Or.inl h7)
    · exact Or.inl (Or.inr (by linarith))
  · rcases mul_eq_zero.mp h6 with h7 | h7
    · exact Or.inl (Or.inl h7)
    · exact Or.inr h7

/-- The series 1, 2, 4, 3: the coefficient is not the slope. -/
example : ¬ IsSlope (lagPairs [1, 2, 4, 3]) (699 / 3304) := by
  rw [C76_exactly_when_partial [1, 2, 4, 3] (699 / 3304) (by decide +kernel)]
  decide +kernel

end Metcalcpy.Props
