/-
C179 for BLOCK_TIME up to five.
-/
import Verif.Props.C176_Blocks
import Verif.Props.C178_Persistent

namespace Metcalcpy.Props
open Metcalcpy Spec

/-- C179 with BLOCK_TIME at most 5: what is returned is made of blocks with at least BLOCK_TIME groups each.  Missing: longer
BLOCK_TIME, for which the claim is false (`C179_time_counterexample`). -/
theorem C179_up_to_five_partial (crit : ℕ) (hc : 2 ≤ crit) (overlap btime travel : ℤ) (hb : btime ≤ 5) (ho : 0 ≤ overlap)
    (ht : 0 ≤ travel) (Y D : ℕ) (g : List (List (List ℚ))) (hg : ∀ y d a, DayAt g y d a → GoodDay crit a)
    (f : List (List (List ℚ))) (h : calcBlocks crit overlap btime travel Y D g degrees = .ok f) :
    ∃ Bs : List (List RunGroup), (∀ B ∈ Bs, IsBlock g overlap travel B ∧ btime ≤ B.length) ∧
      ∀ y d l, y < Y → d < D → l < 360 → entry3 f y d l =
        ((Bs.flatten.filter fun G => decide (G.year = y ∧ G.day = d ∧ G.covers l)).length : ℚ) := by
  obtain ⟨-, Bs, h1, -, h2⟩ := C176_blocks crit hc overlap btime travel ho ht Y D g hg f h
  refine ⟨Bs, fun B hB => ⟨h1 B hB, ?_⟩, h2⟩
  have := (h1 B hB).five
  omega

/-- A marked longitude lies in a block of at least BLOCK_TIME groups. -/
theorem C179_marked_partial (crit : ℕ) (hc : 2 ≤ crit) (overlap btime travel : ℤ) (hb : btime ≤ 5) (ho : 0 ≤ overlap)
    (ht : 0 ≤ travel) (Y D : ℕ) (g : List (List (List ℚ))) (hg : ∀ y d a, DayAt g y d a → GoodDay crit a)
    (f : List (List (List ℚ))) (h : calcBlocks crit overlap btime travel Y D g degrees = .ok f) (y d l : ℕ) (hy : y < Y) (hd : d < D)
    (hl : l < 360) (hm : entry3 f y d l ≠ 0) :
    ∃ B, IsBlock g overlap travel B ∧ btime ≤ B.length ∧ ∃ G ∈ B, G.year = y ∧ G.day = d ∧ G.covers l := by
  obtain ⟨Bs, h1, h2⟩ := C179_up_to_five_partial crit hc overlap btime travel hb ho ht Y D g hg f h
  rw [h2 y d l hy hd hl] at hm
  have hne : (Bs.flatten.filter fun G => decide (G.year = y ∧ G.day = d ∧ G.covers l)) ≠ [] := by
    intro e
    rw [e] at hm
    simp at hm
  obtain ⟨G, hG⟩ := List.exists_mem_of_ne_nil _ hne
  obtain ⟨hG1, hG2⟩ := List.mem_filter.mp hG
  obtain ⟨B, hB, hGB⟩ := List.mem_flatten.mp hG1
  exact ⟨B, (h1 B hB).1, (h1 B hB).2, G, hGB, of_decide_eq_true hG2⟩

/-- The days of the moving sequence `exMoving 100` meet the hypothesis on the days (see `exMoving_block`). -/
example : ∀ y d a, DayAt (exSeason (exMoving 100)) y d a → GoodDay 15 a := exMoving_block.1

end Metcalcpy.Props
