/-
C144  The taper brings both ends to zero, leaves the middle alone and treats both ends alike.
C153  The cosine bell window is symmetric, between 0 and 1, and 1 in the middle.
-/
import Verif.Model.Taper
import Mathlib.Tactic.Linarith
import Mathlib.Tactic.Ring
import Mathlib.Tactic.NormNum
import Mathlib.Tactic.Positivity

namespace Metcalcpy.Props
open Metcalcpy

theorem taperWeight_neg (w : ℕ) (k : ℤ) : taperWeight w (-k) = taperWeight w k := by
  unfold taperWeight
  push_cast
  rw [show -(k : ℝ) * Real.pi / w = -(k * Real.pi / w) by ring, Real.cos_neg]

theorem taperWeight_zero (w : ℕ) : taperWeight w 0 = 0 := by simp [taperWeight]

theorem taperWeight_nonneg (w : ℕ) (k : ℤ) : 0 ≤ taperWeight w k := by
  unfold taperWeight
  have := Real.cos_le_one (k * Real.pi / w)
  nlinarith

theorem taperWeight_le_one (w : ℕ) (k : ℤ) : taperWeight w k ≤ 1 := by
  unfold taperWeight
  have := Real.neg_one_le_cos (k * Real.pi / w)
  nlinarith

/-- The factor at position `i` of a series of `n` values. -/
noncomputable def taperFactor (n w i : ℕ) : ℝ :=
  (if i < w then taperWeight w i else 1) * (if n - w ≤ i then taperWeight w ((n - 1 - i : ℕ) : ℤ) else 1)

theorem taper_eq (data : List ℝ) (w : ℕ) (hw : w ≤ data.length) :
    taperToZero data w = .ok (data.mapIdx fun i x => x * taperFactor data.length w i) := by
  unfold taperToZero
  rw [if_neg (by omega)]
  simp only [List.mapIdx_mapIdx]
  congr 1
  apply List.ext_getElem (by simp)
  intro i h1 h2
  simp only [List.getElem_mapIdx, Function.comp]
  have hi : i < data.length := by simpa using h2
  unfold taperFactor
  by_cases hb : data.length - w ≤ i
  · have e : -(w : ℤ) - 1 + ((i - (data.length - w) : ℕ) : ℤ) + 2 = -((data.length - 1 - i : ℕ) : ℤ) := by omega
    rw [if_pos hb, if_pos hb, e, taperWeight_neg]
    split <;> ring
  · rw [if_neg hb, if_neg hb]
    split <;> ring

/-- C144: the series has the same length; with a window of at least one value its ends become zero; values further than the
window from both ends are unchanged; no value grows or changes its sign. -/
theorem C144_taper (data : List ℝ) (w : ℕ) (hw : w ≤ data.length) :
    ∃ out, taperToZero data w = .ok out ∧ out.length = data.length ∧
      (0 < w → out[0]? = some 0 ∧ out[data.length - 1]? = some 0) ∧
      (∀ i : ℕ, w ≤ i → i + w < data.length → out[i]? = data[i]?) ∧
      (∀ (i : ℕ) (x : ℝ), data[i]? = some x → ∃ c, 0 ≤ c ∧ c ≤ 1 ∧ out[i]? = some (c * x)) := by
  refine ⟨_, taper_eq data w hw, by simp, ?_, ?_, ?_⟩
  · intro h0
    have hn : 0 < data.length := by omega
    constructor
    · rw [List.getElem?_mapIdx, List.getElem?_eq_getElem hn]
      unfold taperFactor
      rw [if_pos h0]
      simp [taperWeight_zero]
    · rw [List.getElem?_mapIdx, List.getElem?_eq_getElem (by omega : data.length - 1 < data.length)]
      unfold taperFactor
      rw [if_pos (by omega : data.length - w ≤ data.length - 1), Nat.sub_self]
      simp [taperWeight_zero]
  · intro i h1 h2
    rw [List.getElem?_mapIdx, List.getElem?_eq_getElem (by omega : i < data.length)]
    unfold taperFactor
    rw [if_neg (by omega), if_neg (by omega)]
    simp
  · intro i x hx
    have hi : i < data.length := by
      by_contra h
      rw [List.getElem?_eq_none (by omega)] at hx
      cases hx
    refine ⟨taperFactor data.length w i, ?_, ?_, ?_⟩
    · unfold taperFactor
      apply mul_nonneg <;> split <;> first | exact taperWeight_nonneg _ _ | exact zero_le_one
    · unfold taperFactor
      apply mul_le_one₀ <;> split <;>
        first | exact taperWeight_le_one _ _ | exact le_refl _ | exact taperWeight_nonneg _ _ | exact zero_le_one
    · rw [List.getElem?_mapIdx, hx]
      simp [mul_comm]

/-- C144: tapering the reversed series gives the reversed result. -/
theorem C144_symmetric (data : List ℝ) (w : ℕ) (hw : w ≤ data.length) :
    ∃ out, taperToZero data w = .ok out ∧ taperToZero data.reverse w = .ok out.reverse := by
  refine ⟨_, taper_eq data w hw, ?_⟩
  rw [taper_eq _ _ (by simpa using hw)]
  congr 1
  apply List.ext_getElem (by simp)
  intro i h1 h2
  have hi : i < data.length := by simpa using h1
  simp only [List.getElem_mapIdx, List.getElem_reverse, List.length_reverse, List.length_mapIdx]
  congr 1
  unfold taperFactor
  have e1 : (i < w) ↔ (data.length - w ≤ data.length - 1 - i) := by omega
  have e2 : (data.length - w ≤ i) ↔ (data.length - 1 - i < w) := by omega
  have e3 : data.length - 1 - (data.length - 1 - i) = i := by omega
  rw [e3]
  simp only [e2, ← e1]
  rw [mul_comm]

/-- A window longer than the series is refused. -/
theorem C144_too_long (data : List ℝ) (w : ℕ) (h0 : data ≠ []) (hw : data.length < w) :
    taperToZero data w = .error .valueError := by
  unfold taperToZero
  rw [if_pos ⟨hw, fun h => h0 h.1⟩]

example : ∃ out, taperToZero [4, 4, 4, 4, 4] 2 = .ok out ∧ out[1]? = some (2 : ℝ) ∧ out[2]? = some 4 := by
  refine ⟨_, taper_eq _ _ (by simp), ?_, ?_⟩
  · simp [taperFactor, taperWeight]
    norm_num
  · simp [taperFactor]

/-! ### cosine bell -/

theorem cosbellWeight_pos (M i : ℕ) (h1 : 1 ≤ i) (hM : i ≤ M) : 0 < cosbellWeight M i := by
  unfold cosbellWeight
  have hMpos : (0 : ℝ) < M := by exact_mod_cast (by omega : 0 < M)
  have hi : (1 : ℝ) ≤ i := by exact_mod_cast h1
  have hiM : (i : ℝ) ≤ M := by exact_mod_cast hM
  have h0 : 0 < Real.pi / M * ((i : ℝ) - 0.5) := by
    have := Real.pi_pos
    apply mul_pos (by positivity); linarith
  have h2 : Real.pi / M * ((i : ℝ) - 0.5) ≤ Real.pi := by
    rw [div_mul_eq_mul_div, div_le_iff₀ hMpos]
    have := Real.pi_pos
    nlinarith
  have := Real.cos_lt_cos_of_nonneg_of_le_pi (le_refl 0) h2 h0
  rw [Real.cos_zero] at this
  linarith

theorem cosbellWeight_le_one (M i : ℕ) : cosbellWeight M i ≤ 1 := by
  unfold cosbellWeight
  have := Real.neg_one_le_cos (Real.pi / M * ((i : ℝ) - 0.5))
  linarith

/-- The window after `k` turns. -/
noncomputable def bellAfter (N M k : ℕ) : List ℝ :=
  (List.range N).map fun j => if j < k then cosbellWeight M (j + 1) else if N - k ≤ j then cosbellWeight M (N - j) else 1

theorem cosbellStep_bell (N M k : ℕ) (hk : 2 * (k + 1) ≤ N) :
    cosbellStep M (bellAfter N M k) (k + 1) = .ok (bellAfter N M (k + 1)) := by
  unfold cosbellStep
  have hlen : (bellAfter N M k).length = N := by simp [bellAfter]
  rw [if_neg (by omega)]
  simp only [List.length_set, hlen, Nat.add_sub_cancel]
  have hg : ∀ j < N, (bellAfter N M k).getD j 0 =
      if j < k then cosbellWeight M (j + 1) else if N - k ≤ j then cosbellWeight M (N - j) else 1 := by
    intro j hj
    simp [bellAfter, List.getElem?_map, List.getElem?_range hj]
  rw [hg k (by omega), if_neg (by omega), if_neg (by omega), one_mul]
  have h2 : ((bellAfter N M k).set k (cosbellWeight M (k + 1))).getD (N - (k + 1)) 0 = 1 := by
    rw [List.getD_eq_getElem?_getD, List.getElem?_set_ne (by omega), ← List.getD_eq_getElem?_getD, hg _ (by omega),
      if_neg (by omega), if_neg (by omega)]
  rw [h2, one_mul]
  congr 1
  apply List.ext_getElem (by simp [bellAfter])
  intro j h1 h3
  have hj : j < N := by simpa [bellAfter] using h3
  rw [List.getElem_set, List.getElem_set]
  simp only [bellAfter, List.getElem_map, List.getElem_range]
  by_cases c1 : N - (k + 1) = j
  · rw [if_pos c1, if_neg (by omega), if_pos (by omega)]
    congr 1; omega
  · rw [if_neg c1]
    by_cases c2 : k = j
    · rw [if_pos c2, if_pos (by omega), c2]
    · rw [if_neg c2]
      by_cases c3 : j < k
      · rw [if_pos c3, if_pos (by omega)]
      · rw [if_neg c3]
        by_cases c4 : N - k ≤ j
        · rw [if_pos c4, if_neg (by omega), if_pos (by omega)]
        · rw [if_neg c4, if_neg (by omega), if_neg (by omega)]

theorem cosbell_fold (N M : ℕ) : ∀ k, 2 * k ≤ N →
    ((List.range k).map (· + 1)).foldlM (cosbellStep M) (List.replicate N 1) = .ok (bellAfter N M k) := by
  intro k
  induction k with
  | zero =>
    intro _
    have : bellAfter N M 0 = List.replicate N 1 := by
      apply List.ext_getElem (by simp [bellAfter])
      intro j h1 h2
      have hj : j < N := by simpa using h2
      simp [bellAfter]
      omega
    rw [this]; rfl
  | succ k ih =>
    intro hk
    rw [List.range_succ, List.map_append, List.foldlM_append, ih (by omega)]
    show (List.foldlM (cosbellStep M) (bellAfter N M k) [k + 1]) = _
    rw [List.foldlM_cons, cosbellStep_bell N M k hk]
    rfl

theorem cosbellM_bounds (N : ℕ) (pct : ℚ) (hN : 2 ≤ N) (h0 : 0 ≤ pct) (h1 : pct ≤ 1) :
    1 ≤ cosbellM N pct ∧ 2 * cosbellM N pct ≤ N ∧ |(cosbellM N pct : ℚ) - pct * N / 2| ≤ 1 := by
  have hNq : (0 : ℚ) ≤ N := Nat.cast_nonneg N
  have hx0 : 0 ≤ pct * N := mul_nonneg h0 hNq
  have hx1 : pct * N ≤ N := by nlinarith
  have hf0 : 0 ≤ ⌊(pct * N + 0.5) / 2⌋ := Int.floor_nonneg.mpr (by positivity)
  have hle := Int.floor_le ((pct * N + 0.5) / 2)
  have hlt := Int.lt_floor_add_one ((pct * N + 0.5) / 2)
  obtain ⟨m, hm⟩ := Int.eq_ofNat_of_zero_le hf0
  have hM : cosbellM N pct = if m < 1 then 1 else m := by
    unfold cosbellM
    simp only [hm]
    simp
  rw [hm] at hle hlt
  rw [hM]
  have hmN : 2 * m ≤ N := by
    have : ((2 * m : ℕ) : ℚ) < ((N + 1 : ℕ) : ℚ) := by push_cast at hle ⊢; linarith
    have : 2 * m < N + 1 := by exact_mod_cast this
    omega
  push_cast at hle hlt
  split
  · rename_i h
    have : m = 0 := by omega
    subst this
    refine ⟨le_refl _, by omega, ?_⟩
    rw [abs_le]
    push_cast at hle hlt ⊢
    constructor <;> linarith
  · refine ⟨by omega, hmN, ?_⟩
    rw [abs_le]
    constructor <;> linarith

/-- C153: for a series of at least two values and a fraction up to 1, the window reads the same from both ends, has values
above 0 and up to 1, and differs from 1 only in `m` values at each end, `m` being half of the requested share up to rounding (but at
least one value). -/
theorem C153_window (N : ℕ) (pct : ℚ) (hN : 2 ≤ N) (h0 : 0 ≤ pct) (h1 : pct ≤ 1) :
    ∃ win m, windowCosbell N pct = .ok win ∧ win.length = N ∧ win.reverse = win ∧
      1 ≤ m ∧ 2 * m ≤ N ∧ |(m : ℚ) - pct * N / 2| ≤ 1 ∧
      (∀ x ∈ win, 0 < x ∧ x ≤ 1) ∧ (∀ j : ℕ, m ≤ j → j + m < N → win[j]? = some 1) := by
  obtain ⟨hm1, hm2, hm3⟩ := cosbellM_bounds N pct hN h0 h1
  refine ⟨bellAfter N (cosbellM N pct) (cosbellM N pct), cosbellM N pct, cosbell_fold N _ _ hm2, by simp [bellAfter], ?_,
    hm1, hm2, hm3, ?_, ?_⟩
  · generalize cosbellM N pct = M at *
    apply List.ext_getElem (by simp)
    intro j hj1 hj2
    have hj : j < N := by simpa [bellAfter] using hj2
    simp only [List.getElem_reverse, bellAfter, List.getElem_map, List.getElem_range, List.length_map, List.length_range]
    by_cases c1 : j < M
    · rw [if_pos c1, if_neg (by omega), if_pos (by omega)]
      congr 1; omega
    · rw [if_neg c1]
      by_cases c2 : N - M ≤ j
      · rw [if_pos c2, if_pos (by omega)]
        congr 1; omega
      · rw [if_neg c2, if_neg (by omega), if_neg (by omega)]
  · generalize cosbellM N pct = M at *
    intro x hx
    unfold bellAfter at hx
    rw [List.mem_map] at hx
    obtain ⟨j, hj, rfl⟩ := hx
    rw [List.mem_range] at hj
    split
    · exact ⟨cosbellWeight_pos _ _ (by omega) (by omega), cosbellWeight_le_one _ _⟩
    · split
      · exact ⟨cosbellWeight_pos _ _ (by omega) (by omega), cosbellWeight_le_one _ _⟩
      · exact ⟨one_pos, le_refl _⟩
  · intro j hj1 hj2
    rw [bellAfter, List.getElem?_map, List.getElem?_range (by omega), Option.map_some, if_neg (by omega),
      if_neg (by omega)]

/-- A window of one value is 1/4: the only value is both the first and the last, and is tapered twice. -/
theorem C144_single_value (pct : ℚ) (h0 : 0 ≤ pct) (h1 : pct ≤ 1) : windowCosbell 1 pct = .ok [1 / 4] := by
  have hM : cosbellM 1 pct = 1 := by
    unfold cosbellM
    have : ⌊(pct * ((1 : ℕ) : ℚ) + 0.5) / 2⌋ = 0 := by
      rw [Int.floor_eq_iff]
      constructor
      · push_cast; norm_num; linarith
      · push_cast; norm_num; linarith
    rw [this]
    rfl
  have hw : cosbellWeight 1 1 = 1 / 2 := by
    unfold cosbellWeight
    rw [show Real.pi / ((1 : ℕ) : ℝ) * (((1 : ℕ) : ℝ) - 0.5) = Real.pi / 2 by push_cast; ring, Real.cos_pi_div_two]
    norm_num
  unfold windowCosbell
  rw [hM]
  simp only [List.range_one, List.map_cons, List.map_nil, List.foldlM_cons, List.foldlM_nil, List.replicate_one, cosbellStep,
    List.length_singleton]
  rw [if_neg (by omega)]
  simp only [bind, Except.bind, Nat.zero_add, Nat.sub_self, List.set_cons_zero, List.getD_cons_zero, List.length_singleton, hw]
  norm_num
  rfl

/-- The window of 96 values with a share of one tenth has five tapered values at each end. -/
example : cosbellM 96 (1/10) = 5 := by
  unfold cosbellM
  rw [show ((1/10 : ℚ) * (96 : ℕ) + 0.5) / 2 = 101/20 by norm_num, show ⌊(101/20 : ℚ)⌋ = 5 by norm_num [Int.floor_eq_iff]]
  decide

end Metcalcpy.Props
