/-
C106  When the limits of a plain series are those for the requested alpha.
-/
import Verif.Props.C105_DerivedBoot

namespace Metcalcpy.Props
open Metcalcpy Spec

/-- C106, the part that holds: the limits are those for the requested alpha when alpha is 0.05, and also, whatever alpha is, when all
replicates are the same and the percentile method is used (no limits). -/
theorem C106_right_partial (statOf : String → List (List Val) → Except PyErr PyNum) (s : BootSettings) (f : Frame)
    (stat : String) (rows : List (List Val)) (ids : List (List ℕ)) (k : ℕ) (res : BootResult)
    (hids : IndexMatrix rows.length k ids) (hkey : ∀ st zs, statOf st zs ≠ .error .keyError)
    (h : seriesBoot statOf s f stat rows ids = .ok res) :
    ∃ a, a.Perm rows ∧ (a.map (fun r => keyOfCase (caseOf f r))).Pairwise (· ≤ ·) ∧
      ∃ v dist, statOf stat a = .ok v ∧
        List.Forall₂ (fun row z => statOf stat (pick a (positionsUsed (if s.cbb then Nat.sqrt rows.length else 1) row)) =
          .ok z) ids dist ∧
        ((s.alpha = 1 / 20 ∨ s.method = .perc ∧ allTheSame (dist.map PyNum.cell) = true) →
          confidenceInterval (dist.map PyNum.cell) v.cell s.alpha s.method = .ok res) ∧
        (confidenceInterval (dist.map PyNum.cell) v.cell s.alpha s.method = .ok res ↔
          confidenceInterval (dist.map PyNum.cell) v.cell s.alpha s.method =
            confidenceInterval (dist.map PyNum.cell) v.cell (1 / 20) s.method) := by
  obtain ⟨a, h1, h2, v, dist, h3, h4, h5⟩ := C106_plain_partial statOf s f stat rows ids k res hids hkey h
  refine ⟨a, h1, h2, v, dist, h3, h4, ?_, by rw [h5]⟩
  rintro (e | ⟨e, hs⟩)
  · rw [e]; exact h5
  · rw [← h5, e]
    unfold confidenceInterval
    cases v.cell with
    | none => rfl
    | some w => simp only [hs, if_true]

/-- The run of `C106_counterexample` with alpha = 0.05 has the limits it asks for. -/
example : seriesBoot bootMean { bootSet with alpha := 1 / 20 } bootFrame "me" [bootRow "t1" 1, bootRow "t2" 4] [[0, 0], [1, 1], [0, 1]] =
    .ok ⟨some (43 / 40), some (5 / 2), some (157 / 40)⟩ := by decide +kernel

end Metcalcpy.Props
