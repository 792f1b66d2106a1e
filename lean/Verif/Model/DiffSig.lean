/-
metcalcpy/agg_stat.py: the value of a DIFF_SIG curve with bootstrapping (num_iterations > 1).
-/
import Verif.Model.AggBoot
import Verif.Model.Derived

namespace Metcalcpy

/-- agg_stat.py:763-765: the share of replicates whose distance from their mean is at most the size of the value. -/
def sigShare (xs : List ℚ) (v : ℚ) : ℚ :=
  ((xs.filter (fun x => decide (|x - xs.sum / xs.length| ≤ |v|))).length : ℚ) / xs.length

/-- The numbers of a list without missing values, nothing if there is a NaN. -/
def allNumbers : List PyNum → Option (List ℚ)
  | [] => some []
  | .num q :: r => (allNumbers r).map (q :: ·)
  | .none :: r => allNumbers r
  | .nan :: _ => Option.none

/-- agg_stat.py:763-765 with NaN: the mean of replicates with a NaN is NaN, and no comparison with NaN is true. -/
def sigPval (dist : List PyNum) (v : PyNum) : ℚ :=
  match allNumbers dist, v with
  | some xs, .num q => sigShare xs q
  | _, _ => 0

/-- agg_stat.py:766 perfect_score_adjustment of the values of both series: comparisons with NaN are false; None has no
absolute value (TypeError; without effect for statistics without perfect score). -/
def sigAdjust (stat : String) (v₁ v₂ : PyNum) (p : ℚ) : Except PyErr PyNum :=
  if upper stat ∈ naPerfScoreStats then .ok .none
  else match v₁, v₂ with
    | .num a, .num b => .ok (match perfectScoreAdjustment a b stat p with
      | some q => .num q
      | none => .none)
    | .none, _ => .error .typeError
    | _, .none => .error .typeError
    | _, _ => .ok (.num p)

/-- agg_stat.py:758-769: the value of a DIFF_SIG curve from the replicates, the difference `v` and the values of both series. -/
def diffSig (stat : String) (dist : List PyNum) (v v₁ v₂ : PyNum) : Except PyErr PyNum :=
  if (dist.filter (fun x => decide (x ≠ .none))) ≠ [] ∧ v ≠ .none then sigAdjust stat v₁ v₂ (sigPval dist v)
  else .ok .none

/-- agg_stat.py:726-769 (num_iterations > 1): a DIFF_SIG curve from the rows of both series, whose values are `v₁` and `v₂`:
the limits and the value.  After a KeyError there are no replicates (`results.distributions` is None, line 760), which
raises a TypeError. -/
def derivedSig (statOf : String → List (List Val) → Except PyErr PyNum) (etb : List PyNum → List PyNum → PyNum)
    (s : BootSettings) (f : Frame) (stat : String) (rows₁ rows₂ : List (List Val)) (v₁ v₂ : PyNum) (ids : List (List ℕ)) :
    Except PyErr (BootResult × PyNum) := do
  let data₁ ← sortData f rows₁
  let data₂ ← sortData f rows₂
  let both ← joinSeries "DIFF_SIG" data₁ data₂
  let boot : Except PyErr (BootResult × List PyNum × PyNum) := do
    let v ← calcStatsDerived statOf etb f both
    let sims ← generateDistributions both (blockLength s both.length) ids
    let dist ← sims.mapM (calcStatsDerived statOf etb f)
    let ci ← confidenceInterval (dist.map PyNum.cell) v.cell s.alpha s.method
    .ok (ci, dist, v)
  match boot with
  | .error .keyError => .error .typeError
  | .error e => .error e
  | .ok (ci, dist, v) => do
    let x ← diffSig stat dist v v₁ v₂
    .ok (ci, x)

end Metcalcpy
