/-
C221  The shares of eof_comp are the parts of the total that the patterns explain.
C222  The patterns do not depend on the mean state.
C223  zon_avg_variance measures the variability alone.
-/
import Verif.Model.EofComp
import Verif.Spec.EofComp
import Mathlib.Tactic.IntervalCases
import Mathlib.Tactic.FieldSimp
import Mathlib.Tactic.NormNum
import Mathlib.Tactic.Ring
import Mathlib.Data.List.ReduceOption

namespace Metcalcpy.Props
open Metcalcpy Spec Finset

/-- Scores of a decomposition: the data projected onto a pattern. -/
theorem svd_score {nt n : ℕ} {a u v : ℕ → ℕ → ℝ} {s : ℕ → ℝ} (h : IsSvd nt n a u s v) {t k : ℕ} (ht : t < nt)
    (hk : k < min nt n) : ∑ p ∈ range n, a t p * v k p = u t k * s k := by
  calc ∑ p ∈ range n, a t p * v k p = ∑ p ∈ range n, ∑ l ∈ range (min nt n), u t l * s l * (v l p * v k p) := by
        apply sum_congr rfl
        intro p hp
        rw [h.product t ht p (mem_range.mp hp), sum_mul]
        apply sum_congr rfl
        intro l _
        ring
    _ = ∑ l ∈ range (min nt n), u t l * s l * (if l = k then 1 else 0) := by
        rw [sum_comm]
        apply sum_congr rfl
        intro l hl
        rw [← mul_sum, h.right l (mem_range.mp hl) k hk]
    _ = u t k * s k := by
        simp [hk]

theorem svd_loading {nt n : ℕ} {a u v : ℕ → ℕ → ℝ} {s : ℕ → ℝ} (h : IsSvd nt n a u s v) {p k : ℕ} (hp : p < n)
    (hk : k < min nt n) : ∑ t ∈ range nt, u t k * a t p = s k * v k p := by
  calc ∑ t ∈ range nt, u t k * a t p = ∑ t ∈ range nt, ∑ l ∈ range (min nt n), s l * v l p * (u t l * u t k) := by
        apply sum_congr rfl
        intro t ht
        rw [h.product t (mem_range.mp ht) p hp, mul_sum]
        apply sum_congr rfl
        intro l _
        ring
    _ = ∑ l ∈ range (min nt n), s l * v l p * (if l = k then 1 else 0) := by
        rw [sum_comm]
        apply sum_congr rfl
        intro l hl
        rw [← mul_sum, h.left l (mem_range.mp hl) k hk]
    _ = s k * v k p := by
        simp [hk]

theorem svd_captured {nt n : ℕ} {a u v : ℕ → ℕ → ℝ} {s : ℕ → ℝ} (h : IsSvd nt n a u s v) {k : ℕ} (hk : k < min nt n) :
    ∑ t ∈ range nt, (∑ p ∈ range n, a t p * v k p) ^ 2 = s k ^ 2 := by
  have : ∀ t ∈ range nt, (∑ p ∈ range n, a t p * v k p) ^ 2 = s k ^ 2 * (u t k * u t k) := by
    intro t ht
    rw [svd_score h (mem_range.mp ht) hk]
    ring
  rw [sum_congr rfl this, ← mul_sum, h.left k hk k hk, if_pos rfl, mul_one]

theorem svd_column {nt n : ℕ} {a u v : ℕ → ℕ → ℝ} {s : ℕ → ℝ} (h : IsSvd nt n a u s v) {p : ℕ} (hp : p < n) :
    ∑ t ∈ range nt, a t p ^ 2 = ∑ k ∈ range (min nt n), (s k * v k p) ^ 2 := by
  calc ∑ t ∈ range nt, a t p ^ 2 = ∑ t ∈ range nt, ∑ k ∈ range (min nt n), (s k * v k p) * (u t k * a t p) := by
        apply sum_congr rfl
        intro t ht
        have := h.product t (mem_range.mp ht) p hp
        calc a t p ^ 2 = a t p * a t p := by ring
          _ = (∑ k ∈ range (min nt n), u t k * s k * v k p) * a t p := by rw [← this]
          _ = _ := by
            rw [sum_mul]
            apply sum_congr rfl
            intro k _
            ring
    _ = _ := by
        rw [sum_comm]
        apply sum_congr rfl
        intro k hk
        rw [← mul_sum, svd_loading h hp (mem_range.mp hk)]
        ring

theorem svd_total {nt n : ℕ} {a u v : ℕ → ℕ → ℝ} {s : ℕ → ℝ} (h : IsSvd nt n a u s v) :
    ∑ t ∈ range nt, ∑ p ∈ range n, a t p ^ 2 = ∑ k ∈ range (min nt n), s k ^ 2 := by
  rw [sum_comm]
  rw [sum_congr rfl (fun p hp => svd_column h (mem_range.mp hp)), sum_comm]
  apply sum_congr rfl
  intro k hk
  have : ∀ p ∈ range n, (s k * v k p) ^ 2 = s k ^ 2 * (v k p * v k p) := fun p _ => by ring
  rw [sum_congr rfl this, ← mul_sum, h.right k (mem_range.mp hk) k (mem_range.mp hk), if_pos rfl, mul_one]

/-- Sums over points are sums over latitudes and longitudes. -/
theorem sum_points (nlat nlon : ℕ) (F : ℕ → ℝ) :
    ∑ p ∈ range (nlat * nlon), F p = ∑ i ∈ range nlat, ∑ j ∈ range nlon, F (i * nlon + j) := by
  induction nlat with
  | zero => simp
  | succ m ih =>
    rw [sum_range_succ, ← ih, Nat.succ_mul, sum_range_add]

theorem flat_at {nlon j : ℕ} (data : ℕ → ℕ → ℕ → ℝ) (t i : ℕ) (hj : j < nlon) :
    flatPoints nlon data t (i * nlon + j) = data t i j := by
  unfold flatPoints
  rw [Nat.mul_comm i nlon, Nat.mul_add_div (by omega), Nat.mul_add_mod, Nat.mod_eq_of_lt hj, Nat.div_eq_of_lt hj, Nat.add_zero]

theorem point_lt {nlat nlon i j : ℕ} (hi : i < nlat) (hj : j < nlon) : i * nlon + j < nlat * nlon := by
  calc i * nlon + j < i * nlon + nlon := by omega
    _ = (i + 1) * nlon := by ring
    _ ≤ nlat * nlon := Nat.mul_le_mul_right _ hi

/-- C221: for every decomposition of the data, with the covariance matrix and at most min(times, points) patterns that are not all
for data 0: the patterns are orthonormal over the grid; share `k` is the sum of squares of the data projected onto pattern `k`,
divided by the sum of squares of the data; the shares are not negative and go down; together they are at most 1, and 1 for the full
number of patterns; the data sum up with a time series to a multiple of its pattern. -/
theorem C221_shares (svd : (ℕ → ℕ → ℝ) → (ℕ → ℕ → ℝ) × (ℕ → ℝ) × (ℕ → ℕ → ℝ)) (nt nlat nlon neof : ℕ)
    (data : ℕ → ℕ → ℕ → ℝ)
    (hsvd : ∀ a, (∀ t < nt, ∀ i < nlat, ∀ j < nlon, a t (i * nlon + j) = data t i j) →
      IsSvd nt (nlat * nlon) a (svd a).1 (svd a).2.1 (svd a).2.2) (hneof : neof ≤ min nt (nlat * nlon))
    (hpos : ∑ t ∈ range nt, ∑ i ∈ range nlat, ∑ j ∈ range nlon, data t i j ^ 2 ≠ 0) :
    ∃ r, eofComp svd nt nlat nlon neof true data = .ok r ∧ ∃ share : ℕ → ℝ, (∀ k < neof, r.shares k = some (share k)) ∧
      (∀ k < neof, ∀ l < neof, ∑ i ∈ range nlat, ∑ j ∈ range nlon, r.patterns k i j * r.patterns l i j = if k = l then 1 else 0) ∧
      (∀ k < neof, share k = (∑ t ∈ range nt, (∑ i ∈ range nlat, ∑ j ∈ range nlon, data t i j * r.patterns k i j) ^ 2) /
        ∑ t ∈ range nt, ∑ i ∈ range nlat, ∑ j ∈ range nlon, data t i j ^ 2) ∧
      (∀ k < neof, 0 ≤ share k) ∧ (∀ k l, k ≤ l → l < neof → share l ≤ share k) ∧
      ∑ k ∈ range neof, share k ≤ 1 ∧ (neof = min nt (nlat * nlon) → ∑ k ∈ range neof, share k = 1) ∧
      ∀ k < neof, ∃ c : ℝ, 0 ≤ c ∧ ∀ i < nlat, ∀ j < nlon, ∑ t ∈ range nt, r.series t k * data t i j = c * r.patterns k i j := by
  set n := nlat * nlon with hn
  set a := flatPoints nlon data with ha
  have h := hsvd a fun t _ i _ j hj => flat_at data t i hj
  set u := (svd a).1
  set s := (svd a).2.1
  set v := (svd a).2.2
  set total := ∑ t ∈ range nt, ∑ i ∈ range nlat, ∑ j ∈ range nlon, data t i j ^ 2 with htotal
  have hsum : total = ∑ k ∈ range (min nt n), s k ^ 2 := by
    rw [← svd_total h, htotal]
    apply sum_congr rfl
    intro t _
    rw [sum_points]
    apply sum_congr rfl
    intro i _
    apply sum_congr rfl
    intro j hj
    rw [ha, flat_at data t i (mem_range.mp hj)]
  have htp : 0 < total := by
    refine lt_of_le_of_ne ?_ (Ne.symm hpos)
    rw [hsum]
    exact sum_nonneg fun k _ => sq_nonneg _
  refine ⟨⟨u, fun k => some (s k ^ 2 / total), fun k i j => v k (i * nlon + j)⟩, ?_, fun k => s k ^ 2 / total, fun k _ => rfl, ?_, ?_,
    ?_, ?_, ?_, ?_, ?_⟩
  · unfold eofComp eofMatrix
    simp only [bind, Except.bind, if_true]
    rw [if_neg (by omega)]
    have : ¬ ∑ k ∈ range (min nt n), s k ^ 2 = 0 := by rw [← hsum]; exact hpos
    show Except.ok (EofResult.mk u (fun k => if ∑ k ∈ range (min nt n), s k ^ 2 = 0 then none else
      some (s k ^ 2 / ∑ k ∈ range (min nt n), s k ^ 2)) fun k i j => v k (i * nlon + j)) = _
    simp only [this, if_false]
    rw [hsum]
  · intro k hk l hl
    rw [← sum_points nlat nlon fun p => v k p * v l p]
    exact h.right k (by omega) l (by omega)
  · intro k hk
    show s k ^ 2 / total = _
    congr 1
    rw [← svd_captured h (by omega : k < min nt n)]
    apply sum_congr rfl
    intro t _
    congr 1
    rw [sum_points]
    apply sum_congr rfl
    intro i _
    apply sum_congr rfl
    intro j hj
    rw [ha, flat_at data t i (mem_range.mp hj)]
  · intro k _
    exact div_nonneg (sq_nonneg _) htp.le
  · intro k l hkl hl
    have h1 := h.sorted k l hkl (by omega)
    have h2 := h.nonneg l (by omega)
    exact div_le_div_of_nonneg_right (pow_le_pow_left₀ h2 h1 2) htp.le
  · rw [← sum_div, div_le_one htp, hsum]
    exact sum_le_sum_of_subset_of_nonneg (range_mono hneof) fun k _ _ => sq_nonneg _
  · intro he
    rw [← sum_div, hsum, he]
    exact div_self (by rw [← hsum]; exact hpos)
  · intro k hk
    refine ⟨s k, h.nonneg k (by omega), fun i hi j hj => ?_⟩
    rw [← svd_loading h (point_lt hi hj) (by omega : k < min nt n)]
    apply sum_congr rfl
    intro t _
    rw [ha, flat_at data t i hj]

/-- C221: more patterns than times or points are refused. -/
theorem C221_too_many (svd : (ℕ → ℕ → ℝ) → (ℕ → ℕ → ℝ) × (ℕ → ℝ) × (ℕ → ℕ → ℝ)) (nt nlat nlon neof : ℕ) (cov : Bool)
    (data : ℕ → ℕ → ℕ → ℝ) (h : nt < neof ∨ nlat * nlon < neof) :
    eofComp svd nt nlat nlon neof cov data = .error .valueError := by
  have hm : min nt (nlat * nlon) < neof := by omega
  unfold eofComp eofMatrix
  cases cov with
  | true => simp only [bind, Except.bind, if_true]; rw [if_pos hm]
  | false =>
    simp only [bind, Except.bind, Bool.false_eq_true, if_false]
    split
    · rename_i heq
      split at heq
      · rw [← Except.error.inj heq]
      · cases heq
    · rw [if_pos hm]

/-! ### C222 -/

theorem eofMean_affine {nt : ℕ} (hnt : 0 < nt) (a b : ℕ → ℕ → ℝ) (p : ℕ) (c g : ℝ) (h : ∀ t, b t p = c * a t p + g) :
    eofMean nt b p = c * eofMean nt a p + g := by
  have hn : (nt : ℝ) ≠ 0 := by exact_mod_cast hnt.ne'
  unfold eofMean
  rw [sum_congr rfl fun t _ => h t, sum_add_distrib, ← mul_sum]
  simp only [sum_const, card_range, nsmul_eq_mul]
  field_simp

theorem eofStd_affine {nt : ℕ} (hnt : 0 < nt) (a b : ℕ → ℕ → ℝ) (p : ℕ) (c g : ℝ) (hc : 0 < c) (h : ∀ t, b t p = c * a t p + g) :
    eofStd nt b p = c * eofStd nt a p := by
  unfold eofStd
  rw [eofMean_affine hnt a b p c g h]
  have : ∀ t ∈ range nt, (b t p - (c * eofMean nt a p + g)) ^ 2 = c ^ 2 * (a t p - eofMean nt a p) ^ 2 := by
    intro t _
    rw [h t]
    ring
  rw [sum_congr rfl this, ← mul_sum, mul_div_assoc, Real.sqrt_mul (sq_nonneg c), Real.sqrt_sq hc.le]

/-- C222 (partial): with the correlation matrix, other units and another mean state at every grid point lead to the same result. -/
theorem C222_correlation_partial (svd : (ℕ → ℕ → ℝ) → (ℕ → ℕ → ℝ) × (ℕ → ℝ) × (ℕ → ℕ → ℝ)) (nt nlat nlon neof : ℕ) (hnt : 0 < nt)
    (data data' : ℕ → ℕ → ℕ → ℝ) (c g : ℕ → ℕ → ℝ) (hc : ∀ i j, 0 < c i j)
    (h : ∀ t i j, data' t i j = c i j * data t i j + g i j) :
    eofComp svd nt nlat nlon neof false data' = eofComp svd nt nlat nlon neof false data := by
  have hf : ∀ p t, flatPoints nlon data' t p = c (p / nlon) (p % nlon) * flatPoints nlon data t p + g (p / nlon) (p % nlon) :=
    fun p t => h t _ _
  have hm : eofMatrix nt (nlat * nlon) false (flatPoints nlon data') = eofMatrix nt (nlat * nlon) false (flatPoints nlon data) := by
    unfold eofMatrix
    have hs : ∀ p, eofStd nt (flatPoints nlon data') p = c (p / nlon) (p % nlon) * eofStd nt (flatPoints nlon data) p := fun p =>
      eofStd_affine hnt _ _ p _ _ (hc _ _) (hf p)
    have hz : (∃ p < nlat * nlon, eofStd nt (flatPoints nlon data') p = 0) ↔
        ∃ p < nlat * nlon, eofStd nt (flatPoints nlon data) p = 0 := by
      apply exists_congr
      intro p
      rw [hs p, mul_eq_zero, or_iff_right (hc _ _).ne']
    simp only [Bool.false_eq_true, if_false, hz]
    split
    · rfl
    · congr 1
      funext t p
      rw [hs p, eofMean_affine hnt _ _ p _ _ (hf p), hf p t, add_sub_add_right_eq_sub, ← mul_sub,
        mul_div_mul_left _ _ (hc _ _).ne']
  unfold eofComp
  rw [hm]

/-- Degrees Celsius and Fahrenheit, with another offset at every longitude. -/
example (svd : (ℕ → ℕ → ℝ) → (ℕ → ℕ → ℝ) × (ℕ → ℝ) × (ℕ → ℕ → ℝ)) (data : ℕ → ℕ → ℕ → ℝ) :
    eofComp svd 4 1 2 1 false (fun t i j => 9 / 5 * data t i j + (32 + j)) = eofComp svd 4 1 2 1 false data :=
  C222_correlation_partial svd 4 1 2 1 (by decide) data _ (fun _ _ => 9 / 5) (fun _ j => 32 + j) (fun _ _ => by norm_num)
    fun _ _ _ => rfl

/-- The left and right vectors of the two examples: four times, two points. -/
noncomputable def exU (t k : ℕ) : ℝ := if k = 0 ∧ 2 ≤ t then -1 / 2 else 1 / 2
def exV (k p : ℕ) : ℝ := if k = p then 1 else 0
/-- Two values +1 and two values -1 at the first point, the constant `g` at the second. -/
def exPair (g : ℝ) (t _ j : ℕ) : ℝ := if j = 0 then (if t < 2 then 1 else -1) else g

open Classical in
noncomputable def exSvd (a : ℕ → ℕ → ℝ) : (ℕ → ℕ → ℝ) × (ℕ → ℝ) × (ℕ → ℕ → ℝ) :=
  (exU, fun k => if k = 0 then 2 else if a 0 1 = 0 then 0 else 2, exV)

theorem exSvd_ok (g : ℝ) (hg : g = 0 ∨ g = 1) (a : ℕ → ℕ → ℝ)
    (ha : ∀ t < 4, ∀ i < 1, ∀ j < 2, a t (i * 2 + j) = exPair g t i j) :
    IsSvd 4 2 a (exSvd a).1 (exSvd a).2.1 (exSvd a).2.2 := by
  have h0 : a 0 1 = g := by simpa [exPair] using ha 0 (by omega) 0 (by omega) 1 (by omega)
  have hs : ∀ k, (exSvd a).2.1 k = if k = 0 then 2 else if g = 0 then 0 else 2 := by
    intro k; simp only [exSvd, h0]
  refine ⟨?_, ?_, ?_, ?_, ?_⟩
  · intro t ht p hp
    have := ha t ht 0 (by omega) p hp
    rw [show 0 * 2 + p = p by omega] at this
    rw [this]
    show _ = ∑ k ∈ range 2, exU t k * (exSvd a).2.1 k * exV k p
    simp only [hs, sum_range_succ, range_zero, sum_empty]
    rcases hg with rfl | rfl <;> interval_cases t <;> interval_cases p <;> norm_num [exPair, exU, exV]
  · intro k hk l hl
    have hk : k < 2 := hk
    have hl : l < 2 := hl
    show ∑ t ∈ range 4, exU t k * exU t l = _
    interval_cases k <;> interval_cases l <;> norm_num [sum_range_succ, exU]
  · intro k hk l hl
    have hk : k < 2 := hk
    have hl : l < 2 := hl
    show ∑ t ∈ range 2, exV k t * exV l t = _
    interval_cases k <;> interval_cases l <;> norm_num [sum_range_succ, exV]
  · intro k hk
    rw [hs]
    split_ifs <;> norm_num
  · intro k l hkl hl
    have hl : l < 2 := hl
    rw [hs, hs]
    interval_cases l <;> interval_cases k <;> simp <;> split_ifs <;> norm_num

/-- A case that meets the hypotheses of `C221_shares`. -/
example : ∃ r, eofComp exSvd 4 1 2 2 true (exPair 1) = .ok r ∧ ∑ k ∈ range 2, (r.shares k).getD 0 = 1 := by
  obtain ⟨r, h, share, h1, -, -, -, -, -, h2, -⟩ := C221_shares exSvd 4 1 2 2 (exPair 1) (exSvd_ok 1 (Or.inr rfl)) (by decide)
    (by norm_num [sum_range_succ, exPair])
  refine ⟨r, h, ?_⟩
  rw [← h2 rfl]
  apply sum_congr rfl
  intro k hk
  rw [h1 k (mem_range.mp hk)]
  rfl

/-- C222 fails with the covariance matrix: data that differ by a constant at one grid point have other shares (all in the first
pattern; half in each pattern). -/
theorem C222_counterexample : ∃ (data data' : ℕ → ℕ → ℕ → ℝ) (g : ℕ → ℕ → ℝ)
    (svd : (ℕ → ℕ → ℝ) → (ℕ → ℕ → ℝ) × (ℕ → ℝ) × (ℕ → ℕ → ℝ)) (r r' : EofResult),
    (∀ t i j, data' t i j = data t i j + g i j) ∧
    (∀ d ∈ [data, data'], ∀ a, (∀ t < 4, ∀ i < 1, ∀ j < 2, a t (i * 2 + j) = d t i j) →
      IsSvd 4 (1 * 2) a (svd a).1 (svd a).2.1 (svd a).2.2) ∧
    eofComp svd 4 1 2 1 true data = .ok r ∧ eofComp svd 4 1 2 1 true data' = .ok r' ∧
    r.shares 0 = some 1 ∧ r'.shares 0 = some (1 / 2) := by
  refine ⟨exPair 0, exPair 1, fun _ j => if j = 0 then 0 else 1, exSvd, _, _, ?_, ?_, rfl, rfl, ?_, ?_⟩
  · intro t i j
    by_cases hj : j = 0 <;> simp [exPair, hj]
  · intro d hd a ha
    simp only [List.mem_cons, List.not_mem_nil, or_false] at hd
    rcases hd with rfl | rfl
    · exact exSvd_ok 0 (Or.inl rfl) a ha
    · exact exSvd_ok 1 (Or.inr rfl) a ha
  · norm_num [exSvd, flatPoints, exPair, sum_range_succ]
  · norm_num [exSvd, flatPoints, exPair, sum_range_succ]

/-! ### C223 -/

/-- The mean square deviation of some numbers from their mean. -/
def meanSqDev (ys : List ℚ) : ℚ := (ys.map fun y => (y - ys.sum / ys.length) ^ 2).sum / ys.length

theorem meanSqDev_nonneg (ys : List ℚ) : 0 ≤ meanSqDev ys := by
  unfold meanSqDev
  apply div_nonneg _ (by positivity)
  apply List.sum_nonneg
  intro x hx
  obtain ⟨y, _, rfl⟩ := List.mem_map.mp hx
  exact sq_nonneg _

theorem meanSqDev_affine (c g : ℚ) (ys : List ℚ) (h0 : ys ≠ []) : meanSqDev (ys.map fun y => c * y + g) = c ^ 2 * meanSqDev ys := by
  have hn : (ys.length : ℚ) ≠ 0 := by simpa using h0
  have hm : (ys.map fun y => c * y + g).sum / ys.length = c * (ys.sum / ys.length) + g := by
    rw [List.sum_map_add, List.sum_map_mul_left]
    simp only [List.map_id', List.map_const', List.sum_replicate, nsmul_eq_mul]
    field_simp
  unfold meanSqDev
  rw [List.length_map, hm, List.map_map, ← mul_div_assoc (c ^ 2), ← List.sum_map_mul_left]
  congr 2
  apply List.map_congr_left
  intro y _
  simp only [Function.comp]
  ring

theorem meanSqDev_zero (ys : List ℚ) : meanSqDev ys = 0 ↔ ∀ x ∈ ys, ∀ y ∈ ys, x = y := by
  rcases eq_or_ne ys [] with rfl | h0
  · simp [meanSqDev]
  have hn : (ys.length : ℚ) ≠ 0 := by simpa using h0
  constructor
  · intro h
    unfold meanSqDev at h
    rw [div_eq_zero_iff, or_iff_left hn] at h
    have hz : ∀ y ∈ ys, y = ys.sum / ys.length := by
      intro y hy
      have := (List.all_zero_of_le_zero_le_of_sum_eq_zero (l := ys.map fun y => (y - ys.sum / ys.length) ^ 2) (by
        intro x hx
        obtain ⟨y, _, rfl⟩ := List.mem_map.mp hx
        exact sq_nonneg _) h) (List.mem_map_of_mem hy)
      exact sub_eq_zero.mp (pow_eq_zero_iff (by norm_num) |>.mp this)
    intro x hx y hy
    rw [hz x hx, hz y hy]
  · intro h
    obtain ⟨a, l, rfl⟩ := List.exists_cons_of_ne_nil h0
    have hr : a :: l = List.replicate (a :: l).length a := by
      rw [List.eq_replicate_iff]
      exact ⟨rfl, fun b hb => h b hb a (by simp)⟩
    rw [hr]
    unfold meanSqDev
    simp only [List.map_replicate, List.sum_replicate, nsmul_eq_mul, List.length_replicate]
    rw [mul_div_cancel_left₀ _ hn, mul_div_cancel_left₀ _ hn]
    simp

/-- C223: with some value at each of at least one longitude, the result is the mean over the longitudes of the variances of the
values present there. -/
theorem C223_value (cols : List (List Cell)) (h : cols ≠ []) (hp : ∀ c ∈ cols, c.reduceOption ≠ []) :
    zonAvgVariance cols = some ((cols.map fun c => meanSqDev c.reduceOption).sum / cols.length) := by
  have hv : cols.map nanVar = cols.map fun c => some (meanSqDev c.reduceOption) := by
    apply List.map_congr_left
    intro c hc
    unfold nanVar meanSqDev
    rw [if_neg (by simpa using hp c hc)]
  unfold zonAvgVariance nanMean
  rw [hv]
  have : (cols.map fun c => some (meanSqDev c.reduceOption)).filterMap id = cols.map fun c => meanSqDev c.reduceOption := by
    rw [List.filterMap_map]
    exact congrFun (List.filterMap_eq_map (f := fun c : List Cell => meanSqDev c.reduceOption)) cols
  simp only [this, List.length_map]
  rw [if_neg (by simpa using h)]

/-- C223: the result is never negative, and it is 0 exactly when nothing varies at any longitude. -/
theorem C223_zero (cols : List (List Cell)) (h : cols ≠ []) (hp : ∀ c ∈ cols, c.reduceOption ≠ []) :
    ∃ v, zonAvgVariance cols = some v ∧ 0 ≤ v ∧ (v = 0 ↔ ∀ c ∈ cols, ∀ x y, some x ∈ c → some y ∈ c → x = y) := by
  have hn : (cols.length : ℚ) ≠ 0 := by simpa using h
  have hnn : ∀ x ∈ cols.map fun c => meanSqDev c.reduceOption, 0 ≤ x := by
    intro x hx
    obtain ⟨c, _, rfl⟩ := List.mem_map.mp hx
    exact meanSqDev_nonneg _
  refine ⟨_, C223_value cols h hp, div_nonneg (List.sum_nonneg hnn) (by positivity), ?_⟩
  rw [div_eq_zero_iff, or_iff_left hn]
  have hmem : ∀ (c : List Cell) (x : ℚ), x ∈ c.reduceOption ↔ some x ∈ c := fun c x => List.reduceOption_mem_iff
  constructor
  · intro h0 c hc x y hx hy
    have := List.all_zero_of_le_zero_le_of_sum_eq_zero hnn h0 (List.mem_map_of_mem hc)
    exact (meanSqDev_zero _).mp this x ((hmem c x).mpr hx) y ((hmem c y).mpr hy)
  · intro h0
    apply List.sum_eq_zero
    intro x hx
    obtain ⟨c, hc, rfl⟩ := List.mem_map.mp hx
    exact (meanSqDev_zero _).mpr fun x hx y hy => h0 c hc x y ((hmem c x).mp hx) ((hmem c y).mp hy)

/-- C223: values in other units (factor `a`), with another mean state at every longitude, have `a²` times the variance; so the
field divided by the square root of the result has the result 1. -/
theorem C223_units (cols cols' : List (List Cell)) (a : ℚ) (h : cols ≠ []) (hp : ∀ c ∈ cols, c.reduceOption ≠ [])
    (hc : List.Forall₂ (fun c c' => ∃ g : ℚ, c' = c.map (Option.map fun x : ℚ => a * x + g)) cols cols') :
    ∃ v, zonAvgVariance cols = some v ∧ zonAvgVariance cols' = some (a ^ 2 * v) ∧
      (v ≠ 0 → a ^ 2 = 1 / v → zonAvgVariance cols' = some 1) := by
  have hred : ∀ (g : ℚ) (c : List Cell), (c.map (Option.map fun x : ℚ => a * x + g)).reduceOption =
      c.reduceOption.map fun x => a * x + g := by
    intro g c
    exact List.reduceOption_map
  have key : zonAvgVariance cols' = some (a ^ 2 * ((cols.map fun c => meanSqDev c.reduceOption).sum / cols.length)) := by
    rw [C223_value cols' ?_ ?_, hc.length_eq]
    · congr 1
      rw [← mul_div_assoc, ← List.sum_map_mul_left]
      congr 2
      clear h
      induction hc with
      | nil => rfl
      | @cons c c' l l' hcc _ ih =>
        obtain ⟨g, rfl⟩ := hcc
        rw [List.map_cons, List.map_cons, ih fun x hx => hp x (by simp [hx]), hred, meanSqDev_affine a g _ (hp c (by simp))]
    · intro h0
      apply h
      rw [h0] at hc
      cases hc
      rfl
    · intro c' hc'
      obtain ⟨i, hi, rfl⟩ := List.mem_iff_getElem.mp hc'
      have hi' : i < cols.length := by rw [hc.length_eq]; exact hi
      obtain ⟨g, hg⟩ := hc.get hi' hi
      simp only [List.get_eq_getElem] at hg
      rw [hg, hred]
      simpa using hp _ (List.getElem_mem hi')
  refine ⟨_, C223_value cols h hp, key, fun hv ha => ?_⟩
  rw [key, ha, one_div, inv_mul_cancel₀ hv]

example : zonAvgVariance [[some 1, none, some 3], [some 5, some 5, some 5]] = some (1 / 2) := by
  decide +kernel

end Metcalcpy.Props
