/-
C154  Every segment that fits into the data is used.
C155  Frequencies and wavenumbers of the cross spectrum are labelled correctly.
-/
import Verif.Model.Spacetime
import Mathlib.Tactic.Linarith
import Mathlib.Tactic.Ring
import Mathlib.Tactic.FieldSimp

namespace Metcalcpy.Props
open Metcalcpy

theorem segmentLoop_from (ntim segLen d : ℕ) (ov : ℤ) (hd : (segLen : ℤ) + ov - 1 = d) (hpos : 0 < d) :
    ∀ (m : ℕ) (s : ℤ), (ntim : ℤ) - segLen - s ≤ m → ∃ N : ℕ, N ≤ m ∧
      (∀ fuel : ℕ, N < fuel → segmentLoop ntim segLen ov fuel s = some ((List.range N).map fun k : ℕ => s + k * d)) ∧
      ∀ k : ℕ, k < N ↔ s + k * d + segLen < ntim := by
  intro m
  induction m with
  | zero =>
    intro s hm
    refine ⟨0, le_refl _, ?_, ?_⟩
    · intro fuel hf
      obtain ⟨f, rfl⟩ : ∃ f, fuel = f + 1 := ⟨fuel - 1, by omega⟩
      simp only [segmentLoop]
      rw [if_pos (by push_cast at hm; omega)]
      rfl
    · intro k
      have : (0 : ℤ) ≤ (k : ℤ) * d := by positivity
      push_cast at hm
      constructor <;> intro h <;> omega
  | succ m ih =>
    intro s hm
    by_cases h : s + segLen < ntim
    · obtain ⟨N, hN, h1, h2⟩ := ih (s + segLen + ov - 1) (by push_cast at hm; omega)
      have hs : s + segLen + ov - 1 = s + d := by omega
      rw [hs] at h1 h2
      refine ⟨N + 1, by omega, ?_, ?_⟩
      · intro fuel hf
        obtain ⟨f, rfl⟩ : ∃ f, fuel = f + 1 := ⟨fuel - 1, by omega⟩
        simp only [segmentLoop]
        rw [if_neg (by omega), hs, h1 f (by omega), List.range_succ_eq_map]
        simp only [Option.map_some, List.map_cons, List.map_map, Nat.cast_zero, zero_mul, add_zero]
        congr 2
        apply List.map_congr_left
        intro k _
        simp only [Function.comp]
        push_cast
        ring
      · intro k
        cases k with
        | zero => simp [h]
        | succ k =>
          rw [Nat.add_lt_add_iff_right, h2 k]
          push_cast
          constructor <;> intro h' <;> linarith
    · refine ⟨0, by omega, ?_, ?_⟩
      · intro fuel hf
        obtain ⟨f, rfl⟩ : ∃ f, fuel = f + 1 := ⟨fuel - 1, by omega⟩
        simp only [segmentLoop]
        rw [if_pos (by omega)]
        rfl
      · intro k
        have : (0 : ℤ) ≤ (k : ℤ) * d := by positivity
        constructor <;> intro h' <;> omega

/-- C154, proved but for segments that end with the data: when each segment starts after the one before it, the loop ends, and
the segments are those that start at a multiple of the step and end before the last time. -/
theorem C154_segments_partial (ntim segLen d : ℕ) (segOverLap : ℤ) (hd : (segLen : ℤ) + segOverLap - 1 = d) (hpos : 0 < d) :
    ∃ N : ℕ, (∀ fuel : ℕ, N < fuel →
        segmentLoop ntim segLen segOverLap fuel 0 = some ((List.range N).map fun k : ℕ => (k : ℤ) * d)) ∧
      ∀ k : ℕ, k < N ↔ k * d + segLen < ntim := by
  obtain ⟨N, -, h1, h2⟩ := segmentLoop_from ntim segLen d segOverLap hd hpos ntim 0 (by omega)
  refine ⟨N, ?_, ?_⟩
  · intro fuel hf
    rw [h1 fuel hf]
    simp
  · intro k
    rw [h2 k]
    push_cast [← Nat.cast_lt (α := ℤ)]
    simp

/-- C154 is false: a segment that ends with the data is not used; data of the length of one segment have none. -/
theorem C154_last_counterexample (segLen : ℕ) (segOverLap : ℤ) (fuel : ℕ) :
    segmentLoop segLen segLen segOverLap (fuel + 1) 0 = some [] := by
  simp only [segmentLoop]
  rw [if_pos (by omega)]

/-- C154 is false: with this overlap each segment starts where the one before it did, and the loop never ends. -/
theorem C154_endless_counterexample (ntim segLen : ℕ) (h : segLen < ntim) (fuel : ℕ) :
    segmentLoop ntim segLen (1 - segLen) fuel 0 = none := by
  induction fuel with
  | zero => rfl
  | succ f ih =>
    simp only [segmentLoop]
    rw [if_neg (by omega), show (0 : ℤ) + segLen + (1 - segLen) - 1 = 0 by ring, ih]
    rfl

/-- Ten times, segments of four that overlap by two: the segment from 6 to 9 is missing. -/
example : segmentLoop 10 4 (-1) 20 0 = some [0, 2, 4] := by decide +kernel

/-! ### labels -/

theorem getElem?_fftShift {α : Type} (l : List α) (i : ℕ) (hi : i < l.length) :
    (fftShift l)[i]? = l[(i + (l.length + 1) / 2) % l.length]? := by
  unfold fftShift
  by_cases h : i < l.length - (l.length + 1) / 2
  · rw [List.getElem?_append_left (by simp; omega), List.getElem?_drop, Nat.mod_eq_of_lt (by omega), Nat.add_comm]
  · rw [List.getElem?_append_right (by simp; omega), List.length_drop, List.getElem?_take, if_pos (by omega)]
    congr 1
    rw [Nat.mod_eq_sub_mod (by omega), Nat.mod_eq_of_lt (by omega)]
    omega

theorem length_fftShift {α : Type} (l : List α) : (fftShift l).length = l.length := by
  unfold fftShift
  simp
  omega

theorem length_segmentColumns {α : Type} (l : List α) (h : 0 < l.length) :
    (segmentColumns l).length = if l.length % 2 = 1 then l.length else l.length + 1 := by
  unfold segmentColumns
  split
  · simp [length_fftShift]
  · simp [length_fftShift]
    omega

/-- C155, wavenumbers: at every column stands the coefficient of the zonal wavenumber of its label. The coefficients of the
transform are in the order 0, 1, 2, ..., and stand for waves that move westward at positive frequencies, so that the label `w` belongs to
the coefficient of index `-w` modulo the number of longitudes. -/
theorem C155_wavenumbers {α : Type} (l : List α) (h : 0 < l.length) :
    (segmentColumns l).length = (mjoWave l.length).length ∧
      ∀ (j : ℕ) (w : ℤ), (mjoWave l.length)[j]? = some w → (segmentColumns l)[j]? = l[((-w) % (l.length : ℤ)).toNat]? := by
  constructor
  · rw [length_segmentColumns l h]
    unfold mjoWave
    simp only [List.length_map, List.length_range]
    split <;> omega
  · intro j w hw
    unfold mjoWave at hw
    simp only [List.getElem?_map, Option.map_eq_some_iff] at hw
    obtain ⟨j', hj, rfl⟩ := hw
    rw [List.getElem?_eq_some_iff] at hj
    obtain ⟨hj, rfl⟩ := hj
    rw [List.length_range] at hj
    rw [List.getElem_range]
    unfold segmentColumns
    set n := l.length with hn
    have key : ∀ i : ℕ, i < n → ((fftShift l).reverse)[i]? = l[(n - 1 - i + (n + 1) / 2) % n]? := by
      intro i hi
      rw [List.getElem?_reverse (by rw [length_fftShift]; exact hi), length_fftShift, getElem?_fftShift _ _ (by omega)]
    by_cases ho : n % 2 = 1
    · simp only [ho, if_true] at hj ⊢
      rw [key j (by omega)]
      congr 1
      zify
      rw [Int.toNat_of_nonneg (Int.emod_nonneg _ (by omega))]
      rw [Nat.cast_sub (by omega), Nat.cast_sub (by omega)]
      have e : ((n + 1) / 2 : ℕ) = n / 2 + 1 := by omega
      have e2 : (n : ℤ) = 2 * (n / 2 : ℕ) + 1 := by omega
      have : (n : ℤ) - (1 : ℕ) - j + ((n + 1) / 2 : ℕ) = -((j : ℤ) - (n / 2 : ℕ)) + n := by
        rw [e]; push_cast; ring
      push_cast at this ⊢
      rw [this, Int.add_emod_right]
    · simp only [ho, if_false] at hj ⊢
      have e0 : (n + 1) / 2 = n / 2 := by omega
      rw [e0] at hj ⊢
      have hlen : (fftShift l).reverse.length = n := by rw [List.length_reverse, length_fftShift]
      rw [hlen]
      cases j with
      | zero =>
        rw [List.getElem?_append_left (by simp [length_fftShift]; omega), List.getElem?_drop, key _ (by omega)]
        congr 1
        have : -(((0 : ℕ) : ℤ) - (n / 2 : ℕ)) = (n / 2 : ℕ) := by push_cast; ring
        rw [this, ← Int.natCast_emod, Int.toNat_natCast]
        congr 1
        omega
      | succ j =>
        rw [List.getElem?_append_right (by simp [length_fftShift]; omega)]
        have : j + 1 - (List.drop (n - 1) (fftShift l).reverse).length = j := by
          rw [List.length_drop, hlen]; omega
        rw [this, key j (by omega)]
        congr 1
        zify
        rw [Int.toNat_of_nonneg (Int.emod_nonneg _ (by omega)), Nat.cast_sub (by omega), Nat.cast_sub (by omega)]
        have : (n : ℤ) - (1 : ℕ) - j + ((n + 1) / 2 : ℕ) = -(((j + 1 : ℕ) : ℤ) - (n / 2 : ℕ)) + n := by
          rw [e0]; push_cast; ring
        push_cast at this ⊢
        rw [this, Int.add_emod_right]

/-- C155, frequencies, proved for segments whose length is a multiple of four: frequency `j` of the transform is labelled
`j / segLen` cycles per time step. -/
theorem C155_frequencies_partial (segLen : ℕ) (h4 : segLen % 4 = 0) (hpos : 0 < segLen) :
    mjoNfreq segLen = segLen / 2 + 1 ∧ segmentNfreq segLen = segLen / 2 + 1 ∧
      ∀ j : ℕ, mjoFreq (mjoNfreq segLen) j = (j : ℚ) / segLen := by
  have h1 : mjoNfreq segLen = segLen / 2 + 1 := by
    unfold mjoNfreq; rw [if_pos (by omega)]
  refine ⟨h1, ?_, ?_⟩
  · unfold segmentNfreq
    simp only
    rw [if_pos (by omega)]
  · intro j
    rw [h1]
    unfold mjoFreq
    obtain ⟨m, rfl⟩ : ∃ m, segLen = 2 * m := ⟨segLen / 2, by omega⟩
    have hm : (m : ℚ) ≠ 0 := by
      have : m ≠ 0 := by omega
      exact_mod_cast this
    simp only [Nat.add_sub_cancel, Nat.mul_div_cancel_left _ (show 0 < 2 by norm_num)]
    push_cast
    field_simp

/-- C155 is false of other even lengths: the labels are too small, and the last of them holds the time mean. -/
theorem C155_even_counterexample (segLen : ℕ) (h4 : segLen % 4 = 2) :
    mjoNfreq segLen = segLen / 2 + 2 ∧ (∀ j : ℕ, mjoFreq (mjoNfreq segLen) j = (j : ℚ) / (segLen + 2)) ∧
      ∀ {α : Type} (rows : List α), rows.length = segLen / 2 + 1 →
        (segmentRows rows).length = mjoNfreq segLen ∧ (segmentRows rows)[segLen / 2 + 1]? = rows[0]? := by
  have h1 : mjoNfreq segLen = segLen / 2 + 2 := by
    unfold mjoNfreq; rw [if_neg (by omega)]
  refine ⟨h1, ?_, ?_⟩
  · intro j
    rw [h1]
    unfold mjoFreq
    obtain ⟨m, rfl⟩ : ∃ m, segLen = 2 * m := ⟨segLen / 2, by omega⟩
    have hm : (m : ℚ) + 1 ≠ 0 := by positivity
    simp only [show 2 * m / 2 + 2 - 1 = m + 1 by omega]
    push_cast
    rw [div_eq_div_iff hm (by positivity)]
    ring
  · intro α rows hr
    unfold segmentRows
    rw [if_neg (by omega)]
    refine ⟨by rw [List.length_append, List.length_take]; omega, ?_⟩
    rw [List.getElem?_append_right (by omega), hr]
    simp

/-- C155 is false of odd lengths: for some the array of a segment does not fit, for the others the labels are too small. -/
theorem C155_odd_counterexample (segLen : ℕ) :
    (segLen % 4 = 1 → segmentNfreq segLen ≠ mjoNfreq segLen) ∧
      (segLen % 4 = 3 → ∀ j : ℕ, mjoFreq (mjoNfreq segLen) j = (j : ℚ) / (segLen + 1)) := by
  constructor
  · intro h
    unfold segmentNfreq mjoNfreq
    simp only
    rw [if_pos (by omega), if_neg (by omega)]
    omega
  · intro h j
    have h1 : mjoNfreq segLen = segLen / 2 + 2 := by
      unfold mjoNfreq; rw [if_neg (by omega)]
    rw [h1]
    unfold mjoFreq
    obtain ⟨m, rfl⟩ : ∃ m, segLen = 2 * m + 1 := ⟨segLen / 2, by omega⟩
    have hm : (m : ℚ) + 1 ≠ 0 := by positivity
    simp only [show (2 * m + 1) / 2 + 2 - 1 = m + 1 by omega]
    push_cast
    rw [div_eq_div_iff hm (by positivity)]
    ring

/-- The numbers of frequencies of a segment and of the array it is stored in: the array has one row more exactly when the length of the
segments leaves remainder 1 modulo 4 (the segment is then not accepted). -/
theorem C155_counts (segLen : ℕ) :
    (segLen % 4 < 2 → segmentNfreq segLen = segLen / 2 + 1) ∧ (2 ≤ segLen % 4 → segmentNfreq segLen = segLen / 2 + 2) ∧
      (segLen % 4 = 0 → mjoNfreq segLen = segLen / 2 + 1) ∧ (segLen % 4 ≠ 0 → mjoNfreq segLen = segLen / 2 + 2) := by
  unfold segmentNfreq mjoNfreq
  dsimp only
  refine ⟨fun h => ?_, fun h => ?_, fun h => ?_, fun h => ?_⟩
  · rw [if_pos (by omega)]
  · rw [if_neg (by omega)]
  · rw [if_pos (by omega)]
  · rw [if_neg (by omega)]

example : mjoFreq (mjoNfreq 96) 2 = 1 / 48 ∧ mjoFreq (mjoNfreq 90) 2 = 1 / 46 ∧ (segmentColumns [0, 1, 2, 3]) = [2, 1, 0, 3, 2] ∧
    mjoWave 4 = [-2, -1, 0, 1, 2] ∧ (segmentColumns [0, 1, 2, 3, 4]) = [2, 1, 0, 4, 3] ∧ mjoWave 5 = [-2, -1, 0, 1, 2] := by
  decide +kernel

end Metcalcpy.Props
