/-
Specification vocabulary: matched forecast/observation pairs and the textbook statistics of a pool of
pairs, and what it means that a table holds the partial sums of batches of pairs.
-/
import Verif.Spec.Table
import Mathlib.Algebra.BigOperators.Group.List.Basic

namespace Metcalcpy.Spec
open Metcalcpy

/-- A matched pair (forecast, observation). -/
abbrev Pair := ℚ × ℚ

/-- Mean of `g` over a pool of pairs. -/
def avg {α : Type*} (g : α → ℚ) (ps : List α) : ℚ := (ps.map g).sum / ps.length

/-- Textbook scores of a pool of pairs. -/
def meanError (ps : List Pair) : ℚ := avg (fun p => p.1 - p.2) ps
def meanSquaredError (ps : List Pair) : ℚ := avg (fun p => (p.1 - p.2) ^ 2) ps
def biasCorrectedMse (ps : List Pair) : ℚ := avg (fun p => (p.1 - p.2 - meanError ps) ^ 2) ps
def meanAbsError (ps : List Pair) : ℚ := avg (fun p => |p.1 - p.2|) ps
def variance (g : Pair → ℚ) (ps : List Pair) : ℚ := avg (fun p => (g p - avg g ps) ^ 2) ps
def covariance (ps : List Pair) : ℚ :=
  avg (fun p => (p.1 - avg Prod.fst ps) * (p.2 - avg Prod.snd ps)) ps
/-- Sample variance (divisor n-1). -/
def sampleVariance {α : Type*} (g : α → ℚ) (ps : List α) : ℚ :=
  (ps.map (fun p => (g p - avg g ps) ^ 2)).sum / ((ps.length : ℚ) - 1)

/-- The table holds one row of scalar partial sums per (non-empty) batch of pairs, in the columns
named `f`, `o`, `fo`, `ff`, `oo`. -/
structure PartialSums (t : Table) (bs : List (List Pair)) (f o fo ff oo : String) : Prop where
  rows_ne : t.rows ≠ []
  batch_ne : ∀ b ∈ bs, b ≠ []
  total : CompleteColumn t "total" (bs.map (fun b => (b.length : ℚ)))
  fbar : CompleteColumn t f (bs.map (avg Prod.fst))
  obar : CompleteColumn t o (bs.map (avg Prod.snd))
  fobar : CompleteColumn t fo (bs.map (avg (fun p => p.1 * p.2)))
  ffbar : CompleteColumn t ff (bs.map (avg (fun p => p.1 * p.1)))
  oobar : CompleteColumn t oo (bs.map (avg (fun p => p.2 * p.2)))

/-- SL1L2 rows. -/
abbrev Sl1l2Data (t : Table) (bs : List (List Pair)) : Prop :=
  PartialSums t bs "fbar" "obar" "fobar" "ffbar" "oobar"

/-- SAL1L2 rows (the pairs are anomalies). -/
abbrev Sal1l2Data (t : Table) (bs : List (List Pair)) : Prop :=
  PartialSums t bs "fabar" "oabar" "foabar" "ffabar" "ooabar"

end Metcalcpy.Spec
