/-
C116  Spread/skill statistics of a group of bins are those of all their points.
C117  Spread/skill anomaly correlation and totals (false of the code).
-/
import Verif.Model.Ssvar
import Verif.Spec.Ssvar
import Verif.Props.C15_Sl1l2
import Verif.Props.C95_Sl1l2Spread

namespace Metcalcpy.Props
open Metcalcpy Spec

/-! ### Renaming columns -/

theorem isColumn_rename {t : Table} {c : String} {v : List Cell} (ρ : String → String) (h : IsColumn t c v)
    (hinj : ∀ d ∈ t.cols, ρ d = ρ c → d = c) : IsColumn { t with cols := t.cols.map ρ } (ρ c) v := by
  obtain ⟨i, h1, h2, h3⟩ := h
  refine ⟨i, by simp [h1], ?_, h3⟩
  intro j hj he
  simp only [List.getElem?_map, Option.map_eq_some_iff] at he
  obtain ⟨d, hd, he⟩ := he
  exact h2 j hj (by rw [hd, hinj d (List.mem_of_getElem? hd) he])

theorem sumColumn_rename {t : Table} {c : String} (ρ : String → String) (hinj : ∀ d ∈ t.cols, ρ d = ρ c → d = c) :
    sumColumn { t with cols := t.cols.map ρ } (ρ c) = sumColumn t c := by
  have h : columnData { t with cols := t.cols.map ρ } (ρ c) = columnData t c := by
    cases hc : columnData t c with
    | some v => exact columnData_eq_some_iff.mpr (isColumn_rename ρ (columnData_eq_some_iff.mp hc) hinj)
    | none =>
      have hidx : Table.colIdx? { t with cols := t.cols.map ρ } (ρ c) = t.colIdx? c := by
        cases hi : t.colIdx? c with
        | none =>
          rw [colIdx?_eq_none] at hi ⊢
          intro hm
          obtain ⟨d, hd, he⟩ := List.mem_map.mp hm
          exact hi (hinj d hd he ▸ hd)
        | some i =>
          rw [colIdx?_eq_some] at hi ⊢
          refine ⟨by simp [hi.1], fun j hj he => ?_⟩
          simp only [List.getElem?_map, Option.map_eq_some_iff] at he
          obtain ⟨d, hd, he⟩ := he
          exact hi.2 j hj (by rw [hd, hinj d (List.mem_of_getElem? hd) he])
      unfold columnData at hc ⊢
      rw [hidx]
      exact hc
  unfold sumColumn
  rw [h]

theorem ssvarName_inj {c d : String} (hc : c = "bin_n" ∨ (c ≠ "total" ∧ c ≠ "total_orig"))
    (h : ssvarName d = ssvarName c) : d = c := by
  unfold ssvarName at h
  rcases hc with rfl | ⟨h1, h2⟩
  · simp only [show ¬ ("bin_n" = "total") by decide, if_false, if_true] at h
    split at h
    · simp at h
    · split at h
      · assumption
      · contradiction
  · by_cases hb : c = "bin_n"
    · subst hb
      simp only [show ¬ ("bin_n" = "total") by decide, if_false, if_true] at h
      split at h
      · simp at h
      · split at h
        · assumption
        · contradiction
    · rw [if_neg h1, if_neg hb] at h
      split at h
      · exact absurd h.symm h2
      · split at h
        · exact absurd h.symm h1
        · exact h

/-- After the renaming the table is a table of partial sums of the points. -/
theorem ssvar_sl1l2 {t : Table} {bs : List (List (Pair × ℚ))} (D : SsvarData t bs) :
    Sl1l2Data (ssvarRename t) (bs.map (List.map Prod.fst)) := by
  have hav : ∀ (g : Pair → ℚ) (b : List (Pair × ℚ)), avg g (b.map Prod.fst) = avg (fun p => g p.1) b := by
    intro g b
    simp [avg, Function.comp_def]
  have key : ∀ (c : String) (g : Pair → ℚ), c ≠ "total" → c ≠ "total_orig" → c ≠ "bin_n" →
      CompleteColumn t c (bs.map (avg (fun p => g p.1))) →
      CompleteColumn (ssvarRename t) c ((bs.map (List.map Prod.fst)).map (avg g)) := by
    intro c g h1 h2 h3 h
    have := isColumn_rename ssvarName h (fun d _ he => ssvarName_inj (Or.inr ⟨h1, h2⟩) he)
    rw [show ssvarName c = c by simp [ssvarName, h1, h3]] at this
    simpa [CompleteColumn, ssvarRename, List.map_map, Function.comp_def, hav] using this
  refine ⟨D.rows_ne, ?_, ?_, ?_, ?_, ?_, ?_, ?_⟩
  · intro b hb
    obtain ⟨b', hb', rfl⟩ := List.mem_map.mp hb
    simpa using D.bin_ne b' hb'
  · have := isColumn_rename ssvarName D.count (fun d _ he => ssvarName_inj (Or.inl rfl) he)
    simpa [CompleteColumn, ssvarRename, List.map_map, Function.comp_def, ssvarName] using this
  · exact key "fbar" Prod.fst (by decide) (by decide) (by decide) D.fbar
  · exact key "obar" Prod.snd (by decide) (by decide) (by decide) D.obar
  · exact key "fobar" (fun p => p.1 * p.2) (by decide) (by decide) (by decide) D.fobar
  · exact key "ffbar" (fun p => p.1 * p.1) (by decide) (by decide) (by decide) D.ffbar
  · exact key "oobar" (fun p => p.2 * p.2) (by decide) (by decide) (by decide) D.oobar

theorem pooledPairs_eq (bs : List (List (Pair × ℚ))) : (bs.map (List.map Prod.fst)).flatten = pooledPairs bs := by
  rw [pooledPairs, List.map_flatten]

/-! ### The statistics depend on the sums only -/

/-- The prepared tables of a spread/skill statistic and of the corresponding scalar statistic have the same sums. -/
theorem ssvar_transfer {α : Type} {t : Table} {bs : List (List (Pair × ℚ))} (D : SsvarData t bs) (s s' : String)
    (fs fs' : List String) (h1 : (ssvarFields.find? (fun p => p.1 == s)).map Prod.snd = some fs) (h2 : fieldsOf s' = some fs')
    (hp : fs.Perm fs') (hnd : fs.Nodup) (hsub : ∀ c ∈ fs, c ∈ ["fbar", "obar", "fobar", "ffbar", "oobar"])
    (calculate : Table → Bool → α)
    (hcalc : ∀ u v : Table, sumColumn u "total" = sumColumn v "total" → (∀ c ∈ fs, sumColumn u c = sumColumn v c) →
      calculate u true = calculate v true) :
    ssvarAggregated s calculate t = aggregated s' calculate (ssvarRename t) := by
  have D' := ssvar_sl1l2 D
  obtain ⟨v, hv, v2, v3, -⟩ := sl_prepared D' s' fs' h2 (hp.nodup_iff.mp hnd) (fun c hc => hsub c (hp.mem_iff.mpr hc))
  obtain ⟨u, hu, -, u2, u3, -⟩ := prepared_sums D'.rows_ne D'.batch_ne D'.total gSl fs hnd
    (fun h => by have := hsub _ h; simp at this)
    (by
      intro c hc
      have := hsub c hc
      simp only [List.mem_cons, List.not_mem_nil, or_false] at this
      rcases this with rfl | rfl | rfl | rfl | rfl
      · exact D'.fbar
      · exact D'.obar
      · exact D'.fobar
      · exact D'.ffbar
      · exact D'.oobar)
  rw [aggregated_ok hv]
  have hprep : prepareSsvar t s = .ok u := by
    unfold prepareSsvar
    rw [h1]
    exact hu
  unfold ssvarAggregated
  rw [hprep]
  simp only [bind, Except.bind, pure, Except.pure]
  rw [hcalc u v (u2.trans v2.symm) (fun c hc => (u3 c hc).trans (v3 c (hp.mem_iff.mp hc)).symm)]

/-- C116: the spread/skill statistics of a group of bins are the scalar statistics of the same rows with the counts of the bins
as totals. -/
theorem C116_scalar_statistics (t : Table) (bs : List (List (Pair × ℚ))) (D : SsvarData t bs) :
    ssvarAggregated "ssvar_fbar" ssvarFbar t = aggregated "fbar" (slMean "fbar") (ssvarRename t) ∧
    ssvarAggregated "ssvar_obar" ssvarObar t = aggregated "obar" (slMean "obar") (ssvarRename t) ∧
    ssvarAggregated "ssvar_fstdev" ssvarFstdev t = aggregated "fstdev" slFstdev (ssvarRename t) ∧
    ssvarAggregated "ssvar_ostdev" ssvarOstdev t = aggregated "ostdev" slOstdev (ssvarRename t) ∧
    ssvarAggregated "ssvar_pr_corr" ssvarPrCorr t = aggregated "pr_corr" slPrCorr (ssvarRename t) ∧
    ssvarAggregated "ssvar_me" ssvarMe t = aggregated "me" slMe (ssvarRename t) ∧
    ssvarAggregated "ssvar_me2" ssvarMe2 t = aggregated "me2" slMe2 (ssvarRename t) ∧
    ssvarAggregated "ssvar_mse" ssvarMse t = aggregated "mse" slMse (ssvarRename t) ∧
    ssvarAggregated "ssvar_rmse" ssvarRmse t = aggregated "rmse" slRmse (ssvarRename t) ∧
    ssvarAggregated "ssvar_bcmse" ssvarBcmse t = aggregated "bcmse" slBcmse (ssvarRename t) ∧
    ssvarAggregated "ssvar_bcrmse" ssvarBcrmse t = aggregated "bcrmse" slBcrmse (ssvarRename t) ∧
    ssvarAggregated "ssvar_msess" ssvarMsess t = aggregated "msess" slMsess (ssvarRename t) ∧
    ssvarAggregated "ssvar_estdev" ssvarEstdev t = aggregated "estdev" slEstdev (ssvarRename t) := by
  have me : ∀ (b : Bool) (u v : Table), sumColumn u "total" = sumColumn v "total" → sumColumn u "fbar" = sumColumn v "fbar" →
      sumColumn u "obar" = sumColumn v "obar" → slMe u b = slMe v b := by
    intro b u v h1 h2 h3
    simp only [slMe, getTotalValues, h1, h2, h3]
  have mse : ∀ (b : Bool) (u v : Table), sumColumn u "total" = sumColumn v "total" →
      sumColumn u "ffbar" = sumColumn v "ffbar" → sumColumn u "oobar" = sumColumn v "oobar" →
      sumColumn u "fobar" = sumColumn v "fobar" → slMse u b = slMse v b := by
    intro b u v h1 h2 h3 h4
    simp only [slMse, getTotalValues, h1, h2, h3, h4]
  have sd : ∀ (m s : String) (u v : Table), sumColumn u "total" = sumColumn v "total" → sumColumn u m = sumColumn v m →
      sumColumn u s = sumColumn v s → slStdevOf m s u true = slStdevOf m s v true := by
    intro m s u v h1 h2 h3
    simp only [slStdevOf, h1, h2, h3]
  refine ⟨?_, ?_, ?_, ?_, ?_, ?_, ?_, ?_, ?_, ?_, ?_, ?_, ?_⟩
  · refine ssvar_transfer D "ssvar_fbar" "fbar" ["fbar"] ["fbar"] rfl rfl (by decide) (by decide) (by simp) _ ?_
    intro u v h1 h2
    simp only [ssvarFbar, slMean, getTotalValues, h1, h2 "fbar" (by simp)]
  · refine ssvar_transfer D "ssvar_obar" "obar" ["obar"] ["obar"] rfl rfl (by decide) (by decide) (by simp) _ ?_
    intro u v h1 h2
    simp only [ssvarObar, slMean, getTotalValues, h1, h2 "obar" (by simp)]
  · refine ssvar_transfer D "ssvar_fstdev" "fstdev" ["fbar", "ffbar"] ["fbar", "ffbar"] rfl rfl (by decide) (by decide)
      (by simp) _ ?_
    intro u v h1 h2
    exact sd _ _ u v h1 (h2 _ (by simp)) (h2 _ (by simp))
  · refine ssvar_transfer D "ssvar_ostdev" "ostdev" ["obar", "oobar"] ["obar", "oobar"] rfl rfl (by decide) (by decide)
      (by simp) _ ?_
    intro u v h1 h2
    exact sd _ _ u v h1 (h2 _ (by simp)) (h2 _ (by simp))
  · refine ssvar_transfer D "ssvar_pr_corr" "pr_corr" ["ffbar", "fbar", "oobar", "obar", "fobar"]
      ["ffbar", "oobar", "fobar", "fbar", "obar"] rfl rfl (by decide) (by decide) (by simp) _ ?_
    intro u v h1 h2
    simp only [ssvarPrCorr, slPrCorr, h1, h2 "ffbar" (by simp), h2 "fbar" (by simp), h2 "oobar" (by simp),
      h2 "obar" (by simp), h2 "fobar" (by simp)]
  · refine ssvar_transfer D "ssvar_me" "me" ["fbar", "obar"] ["fbar", "obar"] rfl rfl (by decide) (by decide) (by simp) _ ?_
    intro u v h1 h2
    exact me _ u v h1 (h2 _ (by simp)) (h2 _ (by simp))
  · refine ssvar_transfer D "ssvar_me2" "me2" ["fbar", "obar"] ["fbar", "obar"] rfl rfl (by decide) (by decide) (by simp) _ ?_
    intro u v h1 h2
    simp only [ssvarMe2, slMe2, me _ u v h1 (h2 _ (by simp)) (h2 _ (by simp))]
  · refine ssvar_transfer D "ssvar_mse" "mse" ["ffbar", "oobar", "fobar"] ["ffbar", "oobar", "fobar"] rfl rfl (by decide)
      (by decide) (by simp) _ ?_
    intro u v h1 h2
    exact mse _ u v h1 (h2 _ (by simp)) (h2 _ (by simp)) (h2 _ (by simp))
  · refine ssvar_transfer D "ssvar_rmse" "rmse" ["ffbar", "oobar", "fobar"] ["ffbar", "oobar", "fobar"] rfl rfl (by decide)
      (by decide) (by simp) _ ?_
    intro u v h1 h2
    simp only [ssvarRmse, slRmse, mse _ u v h1 (h2 _ (by simp)) (h2 _ (by simp)) (h2 _ (by simp))]
  · refine ssvar_transfer D "ssvar_bcmse" "bcmse" ["fbar", "obar", "ffbar", "oobar", "fobar"]
      ["ffbar", "oobar", "fobar", "fbar", "obar"] rfl rfl (by decide) (by decide) (by simp) _ ?_
    intro u v h1 h2
    simp only [ssvarBcmse, slBcmse, mse _ u v h1 (h2 "ffbar" (by simp)) (h2 "oobar" (by simp)) (h2 "fobar" (by simp)),
      me _ u v h1 (h2 "fbar" (by simp)) (h2 "obar" (by simp))]
  · refine ssvar_transfer D "ssvar_bcrmse" "bcrmse" ["fbar", "obar", "ffbar", "oobar", "fobar"]
      ["ffbar", "oobar", "fobar", "fbar", "obar"] rfl rfl (by decide) (by decide) (by simp) _ ?_
    intro u v h1 h2
    simp only [ssvarBcrmse, slBcrmse, slBcmse,
      mse _ u v h1 (h2 "ffbar" (by simp)) (h2 "oobar" (by simp)) (h2 "fobar" (by simp)),
      me _ u v h1 (h2 "fbar" (by simp)) (h2 "obar" (by simp))]
  · refine ssvar_transfer D "ssvar_msess" "msess" ["obar", "oobar", "ffbar", "fobar"]
      ["ffbar", "oobar", "fobar", "obar"] rfl rfl (by decide) (by decide) (by simp) _ ?_
    intro u v h1 h2
    simp only [ssvarMsess, slMsess, slOstdev, sd _ _ u v h1 (h2 "obar" (by simp)) (h2 "oobar" (by simp)),
      mse _ u v h1 (h2 "ffbar" (by simp)) (h2 "oobar" (by simp)) (h2 "fobar" (by simp))]
  · refine ssvar_transfer D "ssvar_estdev" "estdev" ["obar", "fbar", "ffbar", "oobar", "fobar"]
      ["ffbar", "oobar", "fobar", "fbar", "obar"] rfl rfl (by decide) (by decide) (by simp) _ ?_
    intro u v h1 h2
    simp only [ssvarEstdev, slEstdev, h1, mse _ u v h1 (h2 "ffbar" (by simp)) (h2 "oobar" (by simp)) (h2 "fobar" (by simp)),
      me _ u v h1 (h2 "fbar" (by simp)) (h2 "obar" (by simp))]

/-- C116: in terms of the points: the means, the mean error, the mean squared error and the correlation of all points of all
bins. -/
theorem C116_pooled (t : Table) (bs : List (List (Pair × ℚ))) (D : SsvarData t bs) :
    ssvarAggregated "ssvar_fbar" ssvarFbar t = .ok (some (roundHalfUp (avg Prod.fst (pooledPairs bs)) 7)) ∧
    ssvarAggregated "ssvar_obar" ssvarObar t = .ok (some (roundHalfUp (avg Prod.snd (pooledPairs bs)) 7)) ∧
    ssvarAggregated "ssvar_me" ssvarMe t = .ok (some (roundHalfUp (meanError (pooledPairs bs)) 7)) ∧
    ssvarAggregated "ssvar_mse" ssvarMse t = .ok (some (roundHalfUp (meanSquaredError (pooledPairs bs)) 7)) ∧
    (0 < variance Prod.fst (pooledPairs bs) ∧ 0 < variance Prod.snd (pooledPairs bs) →
      ssvarAggregated "ssvar_pr_corr" ssvarPrCorr t = .ok (some (roundHalfUp (pearson (pooledPairs bs)) 7))) ∧
    (¬ (0 < variance Prod.fst (pooledPairs bs) ∧ 0 < variance Prod.snd (pooledPairs bs)) →
      ssvarAggregated "ssvar_pr_corr" ssvarPrCorr t = .ok none) := by
  have D' := ssvar_sl1l2 D
  obtain ⟨e1, e2, -, -, e5, e6, -, e8, -⟩ := C116_scalar_statistics t bs D
  obtain ⟨m1, m2, -⟩ := C15_means _ _ D'
  obtain ⟨m3, m4⟩ := C15_me_mse _ _ D'
  obtain ⟨m5, m6⟩ := C17_pr_corr _ _ D'
  rw [pooledPairs_eq] at m1 m2 m3 m4 m5 m6
  exact ⟨e1.trans m1, e2.trans m2, e6.trans m3, e8.trans m4, fun h => e5.trans (m5 h).1, fun h => e5.trans (m6 h)⟩

theorem ssvar_prepared_other {t : Table} {bs : List (List (Pair × ℚ))} (D : SsvarData t bs) :
    ∃ u, prepareSsvar t "ssvar_spread" = .ok u ∧ sumColumn u "total" = some (bs.flatten.length : ℚ) ∧
      sumColumn u "var_mean" = some (bs.flatten.map Prod.snd).sum ∧ 0 < (bs.flatten.length : ℚ) := by
  have htot : CompleteColumn (ssvarRename t) "total" (bs.map (fun b => (b.length : ℚ))) := by
    have := isColumn_rename ssvarName D.count (fun d _ he => ssvarName_inj (Or.inl rfl) he)
    simpa [CompleteColumn, ssvarRename, ssvarName] using this
  have hv : CompleteColumn (ssvarRename t) "var_mean" (bs.map (avg Prod.snd)) := by
    have := isColumn_rename ssvarName D.var_mean (fun d _ he => ssvarName_inj (Or.inr ⟨by decide, by decide⟩) he)
    simpa [CompleteColumn, ssvarRename, ssvarName] using this
  obtain ⟨u, hu, -, u2, u3, u4⟩ := prepared_sums (t := ssvarRename t) D.rows_ne D.bin_ne htot (fun _ => Prod.snd) ["var_mean"]
    (by simp) (by decide) (by intro c hc; rw [List.mem_singleton.mp hc]; exact hv)
  exact ⟨u, hu, u2, u3 _ (by simp), u4⟩

/-- C116: the spread of a group of bins is the root of the mean variance of all their points. -/
theorem C116_spread (t : Table) (bs : List (List (Pair × ℚ))) (D : SsvarData t bs) (hpos : ∀ b ∈ bs, ∀ p ∈ b, 0 ≤ p.2) :
    ssvarAggregated "ssvar_spread" ssvarSpread t =
      .ok (some (roundHalfUp (Real.sqrt ((avg Prod.snd bs.flatten : ℚ) : ℝ)) 7)) := by
  obtain ⟨u, hu, u2, u3, u4⟩ := ssvar_prepared_other D
  unfold ssvarAggregated
  rw [hu]
  simp only [bind, Except.bind, pure, Except.pure]
  have h0 : ¬ ((bs.flatten.map Prod.snd).sum / (bs.flatten.length : ℚ) < 0) := by
    push Not
    apply div_nonneg _ u4.le
    apply List.sum_nonneg
    intro x hx
    obtain ⟨p, hp, rfl⟩ := List.mem_map.mp hx
    obtain ⟨b, hb, hpb⟩ := List.mem_flatten.mp hp
    exact hpos b hb p hpb
  simp only [ssvarSpread, getTotalValues, if_true, u2, u3, Option.bind_eq_bind, Option.bind_some, pyDiv_ne u4.ne', if_neg h0]
  rfl

/-- Names that an anomaly table would have. -/
def anomNames : List String := ["ffabar", "fabar", "ooabar", "oabar", "foabar"]

theorem anomName_inj {c d : String} (hc : c ∉ anomNames) (hd : d ∉ anomNames) (h : anomName d = anomName c) : d = c := by
  simp only [anomNames, List.mem_cons, List.not_mem_nil, or_false, not_or] at hc hd
  obtain ⟨c1, c2, c3, c4, c5⟩ := hc
  obtain ⟨d1, d2, d3, d4, d5⟩ := hd
  unfold anomName at h
  split_ifs at h <;> simp_all

theorem corr_guards (v : ℚ) (r : ℝ) (x : Option ℝ) : (if v ≤ 0 then none else if r > 1 then none else x) =
    (if v < 0 then none else if v = 0 then none else if v ≤ 0 ∨ r > 1 then none else x) := by
  by_cases h : v ≤ 0
  · rw [if_pos h]
    by_cases h' : v < 0
    · rw [if_pos h']
    · rw [if_neg h', if_pos (le_antisymm h (not_lt.mp h'))]
  · have h1 : ¬ v < 0 := fun h' => h h'.le
    have h2 : ¬ v = 0 := fun h' => h h'.le
    simp [h, h1, h2]

/-- C117: in an aggregation run the anomaly correlation of a group is the correlation of the pairs themselves, that is the
value of `ssvar_pr_corr`. -/
theorem C117_anom_corr_is_pr_corr (t : Table) (bs : List (List (Pair × ℚ))) (D : SsvarData t bs)
    (hc : ∀ c ∈ t.cols, c ∉ anomNames) :
    ssvarAggregated "ssvar_anom_corr" (ssvarAnomCorr false) t = ssvarAggregated "ssvar_pr_corr" ssvarPrCorr t := by
  have D' := ssvar_sl1l2 D
  have hcols : ∀ (fs : List String) (u : Table), prepareFields (ssvarRename t) (some fs) = .ok u →
      u.cols = t.cols.map ssvarName := by
    have : ∀ (fs : List String) (v u : Table), fs.foldlM (mulColumn "total") v = .ok u → u.cols = v.cols := by
      intro fs
      induction fs with
      | nil => intro v u h; cases h; rfl
      | cons a fs ih =>
        intro v u h
        rw [List.foldlM_cons] at h
        cases hm : mulColumn "total" v a with
        | error e => rw [hm] at h; cases h
        | ok w =>
          rw [hm] at h
          rw [ih w u h]
          unfold mulColumn at hm
          split at hm
          · cases hm; rfl
          · cases hm
    intro fs u h
    exact this fs _ u h
  obtain ⟨u, hu, hur, u2, u3, u4⟩ := prepared_sums D'.rows_ne D'.batch_ne D'.total gSl ["fbar", "obar", "ffbar", "oobar", "fobar"]
    (by decide) (by decide)
    (by
      intro c hc
      simp only [List.mem_cons, List.not_mem_nil, or_false] at hc
      rcases hc with rfl | rfl | rfl | rfl | rfl
      · exact D'.fbar
      · exact D'.obar
      · exact D'.ffbar
      · exact D'.oobar
      · exact D'.fobar)
  have hprep : prepareSsvar t "ssvar_anom_corr" = .ok u := hu
  have hnames : ∀ d ∈ u.cols, d ∉ anomNames := by
    rw [hcols _ u hu]
    intro d hd hm
    obtain ⟨c, hcc, rfl⟩ := List.mem_map.mp hd
    unfold ssvarName at hm
    split at hm
    · revert hm; decide
    · split at hm
      · revert hm; decide
      · exact hc c hcc hm
  have sums : ∀ c, c ∉ anomNames → sumColumn { u with cols := u.cols.map anomName } (anomName c) = sumColumn u c :=
    fun c hcn => sumColumn_rename anomName (fun d hd he => anomName_inj hcn (hnames d hd) he)
  have s0 := sums "total" (by decide)
  have s1 := sums "ffbar" (by decide)
  have s2 := sums "fbar" (by decide)
  have s3 := sums "oobar" (by decide)
  have s4 := sums "obar" (by decide)
  have s5 := sums "fobar" (by decide)
  simp only [show anomName "total" = "total" by decide, show anomName "ffbar" = "ffabar" by decide,
    show anomName "fbar" = "fabar" by decide, show anomName "oobar" = "ooabar" by decide,
    show anomName "obar" = "oabar" by decide, show anomName "fobar" = "foabar" by decide] at s0 s1 s2 s3 s4 s5
  have hval : ssvarAnomCorr false u true = slPrCorr u true := by
    unfold ssvarAnomCorr
    simp only [Bool.false_eq_true, if_false]
    simp only [salAnomCorr, slPrCorr, getTotalValues, s0, s1, s2, s3, s4, s5, u2, u3 "ffbar" (by simp), u3 "fbar" (by simp),
      u3 "oobar" (by simp), u3 "obar" (by simp), u3 "fobar" (by simp), Option.bind_eq_bind, Option.bind_some, if_true,
      pyDiv_ne u4.ne']
    exact corr_guards _ _ _
  rw [(C116_scalar_statistics t bs D).2.2.2.2.1]
  obtain ⟨v, hv, v2, v3, -⟩ := sl_prepared D' "pr_corr" ["ffbar", "oobar", "fobar", "fbar", "obar"] rfl (by decide) (by simp)
  rw [aggregated_ok hv]
  unfold ssvarAggregated
  rw [hprep]
  simp only [bind, Except.bind, pure, Except.pure]
  rw [hval]
  simp only [slPrCorr, u2, v2, u3 "ffbar" (by simp), u3 "fbar" (by simp), u3 "oobar" (by simp), u3 "obar" (by simp),
    u3 "fobar" (by simp), v3 "ffbar" (by simp), v3 "fbar" (by simp), v3 "oobar" (by simp), v3 "obar" (by simp),
    v3 "fobar" (by simp)]

theorem le_textWidth {names : List String} {c : String} (h : c ∈ names) : c.length ≤ textWidth names := by
  unfold textWidth
  induction names with
  | nil => simp at h
  | cons a l ih =>
    simp only [List.map_cons, List.foldr_cons]
    rcases List.mem_cons.mp h with rfl | h
    · exact le_max_left _ _
    · exact (ih h).trans (le_max_right _ _)

theorem textWidth_le {names : List String} {n : ℕ} (h : ∀ c ∈ names, c.length ≤ n) : textWidth names ≤ n := by
  unfold textWidth
  induction names with
  | nil => simp
  | cons a l ih =>
    simp only [List.map_cons, List.foldr_cons]
    exact max_le (h a (by simp)) (ih (fun c hc => h c (by simp [hc])))

/-- C117: called with an array of texts whose longest has at most five letters, the anomaly correlation is missing, whatever
the data: the longer new names are cut. -/
theorem C117_short_names (t : Table) (aggregation : Bool) (h : ∀ c ∈ t.cols, c.length ≤ 5) :
    ssvarAnomCorr true t aggregation = none := by
  have hs : sumColumn { t with cols := t.cols.map (fun c => if (true : Bool) then (if anomName c = c then c else
      cutTo (textWidth t.cols) (anomName c)) else anomName c) } "ffabar" = none := by
    unfold sumColumn columnData
    have : Table.colIdx? { t with cols := t.cols.map (fun c => if (true : Bool) then (if anomName c = c then c else
      cutTo (textWidth t.cols) (anomName c)) else anomName c) } "ffabar" = none := by
      rw [colIdx?_eq_none]
      intro hm
      obtain ⟨c, hc, he⟩ := List.mem_map.mp hm
      have hlen := congrArg String.length he
      simp only [if_true] at hlen
      have h6 : String.length "ffabar" = 6 := by decide
      rw [h6] at hlen
      split at hlen
      · have := h c hc; omega
      · have h1 : (cutTo (textWidth t.cols) (anomName c)).length ≤ textWidth t.cols := by
          simp [cutTo, String.length_ofList]
        have := textWidth_le h
        omega
    rw [this]
  unfold ssvarAnomCorr salAnomCorr
  dsimp only
  rw [hs]
  cases getTotalValues _ aggregation <;> rfl

/-- C117: the total of a group cannot be requested in an aggregation run. -/
theorem C117_total_fails {α : Type} (t : Table) (calculate : Table → Bool → α) :
    ssvarAggregated "ssvar_total" calculate t = .error .keyError := rfl

/-- C117: called directly on the prepared table, the total is the number of matched pairs of all rows. -/
theorem C117_total (t : Table) (totals : List ℚ) (h : CompleteColumn t "total" totals) (hr : t.rows ≠ [])
    (hc : "total_orig" ∉ t.cols) : ssvarTotal (ssvarRename t) = .ok (roundHalfUp totals.sum 7) := by
  have h1 := isColumn_rename ssvarName h (fun d hd he => by
    unfold ssvarName at he
    simp only [if_true] at he
    split at he
    · assumption
    · split at he
      · simp at he
      · exact absurd (he ▸ hd) hc)
  have h2 : CompleteColumn (ssvarRename t) "total_orig" totals := h1
  unfold ssvarTotal
  rw [sumColumn_of_complete (t := ssvarRename t) hr h2]
  rfl

/-! ### Examples -/

/-- Two bins of a case: two points and one point. -/
def exSsvar : Table :=
  { cols := ["total", "bin_n", "fbar", "obar", "fobar", "ffbar", "oobar", "var_mean"]
    rows := [[some 3, some 2, some 2, some 1, some 3, some 5, some 2, some 3],
             [some 3, some 1, some 2, some 1, some 2, some 4, some 1, some 6]] }

def exBins : List (List (Pair × ℚ)) := [[((1, 0), 2), ((3, 2), 4)], [((2, 1), 6)]]

theorem exSsvar_data : SsvarData exSsvar exBins where
  rows_ne := by simp [exSsvar]
  bin_ne := by simp [exBins]
  count := ⟨1, rfl, by simp [exSsvar], by simp [exSsvar, exBins]⟩
  fbar := ⟨2, rfl, by simp [exSsvar] <;> decide, by simp [exSsvar, exBins, avg] <;> norm_num⟩
  obar := ⟨3, rfl, by simp [exSsvar] <;> decide, by simp [exSsvar, exBins, avg] <;> norm_num⟩
  fobar := ⟨4, rfl, by simp [exSsvar] <;> decide, by simp [exSsvar, exBins, avg] <;> norm_num⟩
  ffbar := ⟨5, rfl, by simp [exSsvar] <;> decide, by simp [exSsvar, exBins, avg] <;> norm_num⟩
  oobar := ⟨6, rfl, by simp [exSsvar] <;> decide, by simp [exSsvar, exBins, avg] <;> norm_num⟩
  var_mean := ⟨7, rfl, by simp [exSsvar] <;> decide, by simp [exSsvar, exBins, avg] <;> norm_num⟩

/-- C116 (example): the mean squared error of the three points is 1 and their spread is 2. -/
example : ssvarAggregated "ssvar_mse" ssvarMse exSsvar = .ok (some 1) ∧
    ssvarAggregated "ssvar_spread" ssvarSpread exSsvar = .ok (some (roundHalfUp (2 : ℝ) 7)) := by
  constructor
  · rw [(C116_pooled exSsvar exBins exSsvar_data).2.2.2.1]
    decide +kernel
  · rw [C116_spread exSsvar exBins exSsvar_data (by decide +kernel)]
    have : ((avg Prod.snd exBins.flatten : ℚ) : ℝ) = 2 ^ 2 := by
      norm_num [avg, exBins]
    rw [this, Real.sqrt_sq (by norm_num)]

example : ssvarTotal (ssvarRename exSsvar) = .ok 6 := by
  rw [C117_total exSsvar [3, 3] ⟨0, rfl, by simp, rfl⟩ (by simp [exSsvar]) (by decide)]
  decide +kernel

/-- C117 (example): the names of this table are not anomaly names. -/
example : ∀ c ∈ exSsvar.cols, c ∉ anomNames := by decide

/-- C117 (counterexample): the data of one bin whose forecasts and observations are perfectly correlated; with the names as
objects the anomaly correlation is 1, with the same names as an array of texts it is missing. -/
theorem C117_counterexample :
    let t : Table := { cols := ["fbar", "obar", "fobar", "ffbar", "oobar"], rows := [[some 1, some 1, some 2, some 2, some 2]] }
    ssvarAnomCorr false t false = some (roundHalfUp (1 : ℝ) 7) ∧ ssvarAnomCorr true t false = none := by
  intro t
  refine ⟨?_, C117_short_names t false (by decide)⟩
  have hn : t.cols.map anomName = ["fabar", "oabar", "foabar", "ffabar", "ooabar"] := by decide
  unfold ssvarAnomCorr
  simp only [Bool.false_eq_true, if_false, hn]
  have e1 : sumColumn { t with cols := ["fabar", "oabar", "foabar", "ffabar", "ooabar"] } "ffabar" = some 2 := by decide +kernel
  have e2 : sumColumn { t with cols := ["fabar", "oabar", "foabar", "ffabar", "ooabar"] } "fabar" = some 1 := by decide +kernel
  have e3 : sumColumn { t with cols := ["fabar", "oabar", "foabar", "ffabar", "ooabar"] } "ooabar" = some 2 := by decide +kernel
  have e4 : sumColumn { t with cols := ["fabar", "oabar", "foabar", "ffabar", "ooabar"] } "oabar" = some 1 := by decide +kernel
  have e5 : sumColumn { t with cols := ["fabar", "oabar", "foabar", "ffabar", "ooabar"] } "foabar" = some 2 := by decide +kernel
  simp only [salAnomCorr, getTotalValues, e1, e2, e3, e4, e5, Option.bind_eq_bind, Option.bind_some, Bool.false_eq_true,
    if_false, pyDiv_ne (one_ne_zero)]
  norm_num [PRECISION]

end Metcalcpy.Props
