/-
C77   The order of the lines of the ROC table, in general.
C128  What an order that lists a regime twice does, in general.
C155  Exactly which segment lengths are labelled with the right frequencies.
-/
import Verif.Props.C38_Thresh
import Verif.Props.C127_Regimes
import Verif.Props.C154_Segments
import Mathlib.Data.List.Sort
import Mathlib.Data.Finset.Card
import Mathlib.Order.Interval.Finset.Nat

namespace Metcalcpy.Props
open Metcalcpy Spec

/-- C77, extent: whatever the frame, the lines of the ROC table come in the order of the threshold texts, ascending or descending as
asked, whatever the numbers in them. -/
theorem C77_order_actual (float : List Char → Option ℚ) (cols : List String) (asc : Bool) (rows : List (String × List Cell))
    (out : List RocRow) (h : ctcRoc float cols asc rows = .ok out) :
    (asc = true → (out.map RocRow.thresh).Pairwise (· < ·)) ∧ (asc = false → (out.map RocRow.thresh).Pairwise (fun a b => b < a)) := by
  unfold ctcRoc at h
  revert h
  cases sortByThresh float asc rows with
  | error e => intro h; cases h
  | ok s =>
    intro h
    simp only [bind, Except.bind, Except.ok.injEq] at h
    have hs : (((s.map Prod.fst).dedup).insertionSort (· ≤ ·)).Pairwise (· < ·) := by
      have h1 := List.pairwise_insertionSort (α := String) (· ≤ ·) ((s.map Prod.fst).dedup)
      have h2 : (((s.map Prod.fst).dedup).insertionSort (· ≤ ·)).Nodup :=
        (List.perm_insertionSort (· ≤ ·) _).nodup_iff.mpr (List.nodup_dedup _)
      exact (h1.and h2).imp fun {a b} hab => lt_of_le_of_ne hab.1 hab.2
    rw [← h, List.map_map, show (RocRow.thresh ∘ _) = id from rfl, List.map_id]
    constructor
    · intro ha
      rw [if_pos ha]
      exact hs
    · intro ha
      rw [if_neg (by simp [ha]), List.pairwise_reverse]
      exact hs

example : (ctcRoc exFloat ["fy_oy", "fn_oy", "fy_on", "fn_on"] false
    [(">=2", [some 3, some 1, some 2, some 2]), (">=10", [some 1, some 3, some 0, some 4])]).map
      (fun l => l.map RocRow.thresh) = .ok [">=2", ">=10"] := by decide +kernel

/-- C155, exactly: every frequency of the transform is labelled `j / segLen` cycles per time step if and only if the length of the
segments is a multiple of four. -/
theorem C155_exactly_when_partial (segLen : ℕ) (hpos : 2 ≤ segLen) :
    (segmentNfreq segLen = mjoNfreq segLen ∧ ∀ j ≤ segLen / 2, mjoFreq (mjoNfreq segLen) j = (j : ℚ) / segLen) ↔ segLen % 4 = 0 := by
  constructor
  · rintro ⟨h1, h2⟩
    obtain ⟨c1, c2, c3, c4⟩ := C155_counts segLen
    by_contra h0
    have hn := c4 h0
    have h := h2 1 (by omega)
    rw [hn] at h
    unfold mjoFreq at h
    rw [show segLen / 2 + 2 - 1 = segLen / 2 + 1 by omega] at h
    have hp : (0 : ℚ) < segLen := by exact_mod_cast (by omega : 0 < segLen)
    have hq : (0 : ℚ) < ((segLen / 2 + 1 : ℕ) : ℚ) := by exact_mod_cast (by omega : 0 < segLen / 2 + 1)
    rw [div_eq_div_iff hq.ne' hp.ne'] at h
    have : (segLen : ℚ) = 2 * ((segLen / 2 + 1 : ℕ) : ℚ) := by
      push_cast at h ⊢
      linarith
    have : segLen = 2 * (segLen / 2 + 1) := by exact_mod_cast this
    omega
  · intro h4
    obtain ⟨a, b, c⟩ := C155_frequencies_partial segLen h4 (by omega)
    exact ⟨by rw [a, b], fun j _ => c j⟩

example : segmentNfreq 96 = mjoNfreq 96 ∧ mjoFreq (mjoNfreq 90) 1 ≠ 1 / 90 := by decide +kernel

/-- C128, extent: whatever the order, a day gets the number of the last place at which its old regime is listed. -/
theorem C128_last_place (order : List ℕ) (n : ℕ) (init : ℚ) (w k : ℕ) (hk : k < n) (h : order[k]? = some w)
    (hlast : ∀ j < n, k < j → order[j]? ≠ some w) : reorderDay order n init w = (k : ℚ) + 1 := by
  unfold reorderDay
  obtain ⟨m, rfl⟩ : ∃ m, n = k + 1 + m := ⟨n - (k + 1), by omega⟩
  rw [List.range_add, List.foldl_append, List.range_succ, List.foldl_append]
  simp only [List.foldl_cons, List.foldl_nil]
  rw [if_pos ((isOrderLabel_iff _ _ _).mpr ⟨w, h, rfl⟩)]
  apply foldl_none (fun k : ℕ => isOrderLabel order (w : ℚ) k = true) (fun k => (k : ℚ) + 1)
  intro j hj hj'
  obtain ⟨i, hi, rfl⟩ := List.mem_map.mp hj
  rw [List.mem_range] at hi
  obtain ⟨o, ho, he⟩ := (isOrderLabel_iff _ _ _).mp hj'
  have : o = w := by exact_mod_cast he
  exact hlast (k + 1 + i) (by omega) (by omega) (this ▸ ho)

/-- C128, failure in general: whenever an order of `n` regimes names one of them twice, some regime is lost: all of its
days keep the uninitialised content of the new array. -/
theorem C128_lost_counterexample (order : List ℕ) (n : ℕ) (hl : order.length = n)
    (hdup : ¬ order.Nodup) : ∃ w : ℕ, 1 ≤ w ∧ w ≤ n ∧ ∀ init : ℚ, reorderDay order n init w = init := by
  have hlt : order.toFinset.card < (Finset.Icc 1 n).card := by
    rw [Nat.card_Icc, Nat.add_sub_cancel, ← hl]
    rcases lt_or_eq_of_le (List.toFinset_card_le order) with h | h
    · exact h
    · exact absurd (Multiset.coe_nodup.mp (Multiset.toFinset_card_eq_card_iff_nodup.mp h)) hdup
  obtain ⟨w, hw, hn⟩ := Finset.exists_mem_notMem_of_card_lt_card hlt
  rw [Finset.mem_Icc] at hw
  refine ⟨w, hw.1, hw.2, fun init => ?_⟩
  apply C128_unmatched
  intro o ho he
  have : o = w := by exact_mod_cast he
  subst this
  exact hn (List.mem_toFinset.mpr ho)

example : reorderDay [1, 1, 3] 3 99 1 = 2 ∧ reorderDay [1, 1, 3] 3 99 2 = 99 ∧ reorderDay [1, 1, 3] 3 99 3 = 3 := by decide +kernel

end Metcalcpy.Props
