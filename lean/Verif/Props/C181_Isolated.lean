/-
C181  Records of isolated groups end in a TypeError.
-/
import Verif.Props.C178_Persistent

namespace Metcalcpy.Props
open Metcalcpy Spec

theorem closeLoop_isolated (B : List RunGroup) : ∀ (G : RunGroup), (G :: B).Pairwise (fun G H => G.day + 2 < H.day) →
    closeLoop false (rowOf G) (B.map rowOf) = [] := by
  induction B with
  | nil => intro G _; rfl
  | cons H B ih =>
    intro G hp
    have h1 : G.day + 2 < H.day := (List.pairwise_cons.mp hp).1 H (by simp)
    rw [List.map_cons, closeLoop, if_pos]
    · exact ih H (List.pairwise_cons.mp hp).2
    · show ((rowOf H).day : ℤ) - (rowOf G).day > 2
      have e1 : (rowOf H).day = H.day := rfl
      have e2 : (rowOf G).day = G.day := rfl
      rw [e1, e2]
      omega

/-- C181 is false for every record with groups in one year only, any two of them more than two days apart: the function raises
TypeError. -/
theorem C181_isolated_partial (crit : ℕ) (hc : 2 ≤ crit) (overlap btime travel : ℤ) (Y D : ℕ) (g : List (List (List ℚ)))
    (hg : ∀ y d a, DayAt g y d a → GoodDay crit a) (B : List RunGroup) (hB : ∀ G : RunGroup, G.In g ↔ G ∈ B) (hne : B ≠ [])
    (hord : B.Pairwise fun G H => H.year = G.year ∧ G.day + 2 < H.day) :
    calcBlocks crit overlap btime travel Y D g degrees = .error .typeError := by
  have hs := splitGroups_sequence crit hc g hg B hB (hord.imp fun h => ⟨h.1, by omega⟩)
  unfold calcBlocks
  rw [hs]
  match B, hne with
  | G :: B, _ =>
    have h := closeLoop_isolated B G (hord.imp fun h => h.2)
    simp only [bind, Except.bind, List.map_cons, closeGroups, h]

/-- Two groups seven days apart. -/
example : calcBlocks (15 : ℕ) 10 5 45 1 8 (exSeason ((100, 20) :: List.replicate 6 (0, 0) ++ [(100, 20)])) degrees = .error .typeError :=
  C181_isolated_partial 15 (by norm_num) 10 5 45 1 8 _ (exSeason_good 15 _ (by decide))
    (seasonGroups ((100, 20) :: List.replicate 6 (0, 0) ++ [(100, 20)])) (fun G => seasonGroups_mem 15 _ (by decide) G)
    (by decide) (by decide)

end Metcalcpy.Props
