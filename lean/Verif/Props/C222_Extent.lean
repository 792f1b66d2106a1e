/-
C222 with the covariance matrix: how far it fails.
-/
import Verif.Props.C221_EofComp
import Mathlib.Tactic.LinearCombination

namespace Metcalcpy.Props
open Metcalcpy Spec Finset

/-- Two sets of data with the same result of eof_comp with the covariance matrix are multiples of each other. -/
theorem eof_same_result (svd : (ℕ → ℕ → ℝ) → (ℕ → ℕ → ℝ) × (ℕ → ℝ) × (ℕ → ℕ → ℝ)) (nt nlat nlon neof : ℕ)
    (data data' : ℕ → ℕ → ℕ → ℝ)
    (hsvd : ∀ d ∈ [data, data'], ∀ a, (∀ t < nt, ∀ i < nlat, ∀ j < nlon, a t (i * nlon + j) = d t i j) →
      IsSvd nt (nlat * nlon) a (svd a).1 (svd a).2.1 (svd a).2.2) (hneof : neof ≤ min nt (nlat * nlon))
    (h : eofComp svd nt nlat nlon neof true data' = eofComp svd nt nlat nlon neof true data) :
    ∃ c : ℝ, ∀ t < nt, ∀ i < nlat, ∀ j < nlon, data' t i j = c * data t i j := by
  have D := hsvd data (by simp) (flatPoints nlon data) (fun t _ i _ j hj => flat_at data t i hj)
  have D' := hsvd data' (by simp) (flatPoints nlon data') (fun t _ i _ j hj => flat_at data' t i hj)
  simp only [eofComp, eofMatrix, if_true, bind, Except.bind, if_neg (not_lt.mpr hneof), Except.ok.injEq, EofResult.mk.injEq] at h
  obtain ⟨hu, hs, hv⟩ := h
  set s := (svd (flatPoints nlon data)).2.1 with hsdef
  set s' := (svd (flatPoints nlon data')).2.1 with hsdef'
  set V := ∑ k ∈ range (min nt (nlat * nlon)), s k ^ 2 with hV
  set V' := ∑ k ∈ range (min nt (nlat * nlon)), s' k ^ 2 with hV'
  have h0 : ∀ t < nt, ∀ i < nlat, ∀ j < nlon, data t i j =
      ∑ k ∈ range (min nt (nlat * nlon)), (svd (flatPoints nlon data)).1 t k * s k * (svd (flatPoints nlon data)).2.2 k (i * nlon + j) := by
    intro t ht i hi j hj
    rw [← flat_at data t i hj]
    exact D.product t ht _ (point_lt hi hj)
  have h0' : ∀ t < nt, ∀ i < nlat, ∀ j < nlon, data' t i j =
      ∑ k ∈ range (min nt (nlat * nlon)), (svd (flatPoints nlon data)).1 t k * s' k * (svd (flatPoints nlon data)).2.2 k (i * nlon + j) := by
    intro t ht i hi j hj
    rw [← flat_at data' t i hj, D'.product t ht _ (point_lt hi hj), hu]
    apply sum_congr rfl
    intro k _
    have := congrFun (congrFun (congrFun hv k) i) j
    rw [this]
  suffices hc : ∃ c : ℝ, ∀ k < min nt (nlat * nlon), s' k = c * s k by
    obtain ⟨c, hc⟩ := hc
    refine ⟨c, fun t ht i hi j hj => ?_⟩
    rw [h0 t ht i hi j hj, h0' t ht i hi j hj, mul_sum]
    apply sum_congr rfl
    intro k hk
    rw [hc k (mem_range.mp hk)]
    ring
  by_cases hz : V' = 0
  · refine ⟨0, fun k hk => ?_⟩
    have := (sum_eq_zero_iff_of_nonneg (fun k _ => sq_nonneg (s' k))).mp hz k (mem_range.mpr hk)
    rw [zero_mul]
    exact pow_eq_zero_iff (by norm_num) |>.mp this
  · by_cases hz0 : V = 0
    · have := congrFun hs 0
      simp [hz, hz0] at this
    · have hVp : 0 < V := lt_of_le_of_ne (sum_nonneg fun k _ => sq_nonneg _) (Ne.symm hz0)
      have hVp' : 0 < V' := lt_of_le_of_ne (sum_nonneg fun k _ => sq_nonneg _) (Ne.symm hz)
      refine ⟨√(V' / V), fun k hk => ?_⟩
      have e := congrFun hs k
      simp only [hz, hz0, if_false, Option.some.injEq] at e
      have e2 : s' k ^ 2 = (V' / V) * s k ^ 2 := by
        field_simp at e ⊢
        linear_combination e
      rw [← Real.sqrt_sq (D'.nonneg k hk), ← Real.sqrt_sq (D.nonneg k hk), e2, Real.sqrt_mul (by positivity)]

/-- C222 with the covariance matrix: for every decomposition, adding `g` to the grid points leaves the result unchanged only if
nothing is added at all or the data do not change in time anywhere. -/
theorem C222_covariance_extent_partial (svd : (ℕ → ℕ → ℝ) → (ℕ → ℕ → ℝ) × (ℕ → ℝ) × (ℕ → ℕ → ℝ)) (nt nlat nlon neof : ℕ)
    (data data' : ℕ → ℕ → ℕ → ℝ) (g : ℕ → ℕ → ℝ) (hg : ∀ t i j, data' t i j = data t i j + g i j) (hnt : 0 < nt)
    (hsvd : ∀ d ∈ [data, data'], ∀ a, (∀ t < nt, ∀ i < nlat, ∀ j < nlon, a t (i * nlon + j) = d t i j) →
      IsSvd nt (nlat * nlon) a (svd a).1 (svd a).2.1 (svd a).2.2) (hneof : neof ≤ min nt (nlat * nlon))
    (h : eofComp svd nt nlat nlon neof true data' = eofComp svd nt nlat nlon neof true data) :
    (∀ i < nlat, ∀ j < nlon, g i j = 0) ∨
    (∀ t < nt, ∀ t' < nt, ∀ i < nlat, ∀ j < nlon, data t i j = data t' i j) := by
  obtain ⟨c, hc⟩ := eof_same_result svd nt nlat nlon neof data data' hsvd hneof h
  by_cases h1 : c = 1
  · left
    intro i hi j hj
    have := hc 0 hnt i hi j hj
    rw [hg, h1] at this
    linarith
  · right
    intro t ht t' ht' i hi j hj
    have e := hc t ht i hi j hj
    have e' := hc t' ht' i hi j hj
    rw [hg] at e e'
    have : (c - 1) * (data t i j - data t' i j) = 0 := by linear_combination e' - e
    rcases mul_eq_zero.mp this with h2 | h2
    · exact absurd (by linarith) h1
    · linarith

/-- With the decomposition of the counterexample: the constant 1 at the second point changes the result. -/
example : eofComp exSvd 4 1 2 1 true (exPair 1) ≠ eofComp exSvd 4 1 2 1 true (exPair 0) := by
  intro h
  have hsvd : ∀ d ∈ [exPair 0, exPair 1], ∀ a, (∀ t < 4, ∀ i < 1, ∀ j < 2, a t (i * 2 + j) = d t i j) →
      IsSvd 4 (1 * 2) a (exSvd a).1 (exSvd a).2.1 (exSvd a).2.2 := by
    intro d hd a ha
    simp only [List.mem_cons, List.not_mem_nil, or_false] at hd
    rcases hd with rfl | rfl
    · exact exSvd_ok 0 (Or.inl rfl) a ha
    · exact exSvd_ok 1 (Or.inr rfl) a ha
  rcases C222_covariance_extent_partial exSvd 4 1 2 1 (exPair 0) (exPair 1) (fun _ j => if j = 0 then 0 else 1)
    (by intro t i j; by_cases hj : j = 0 <;> simp [exPair, hj]) (by norm_num) hsvd (by norm_num) h with h1 | h1
  · have := h1 0 (by norm_num) 1 (by norm_num)
    norm_num at this
  · have := h1 0 (by norm_num) 3 (by norm_num) 0 (by norm_num) 0 (by norm_num)
    norm_num [exPair] at this

end Metcalcpy.Props
