/-
metcalcpy/agg_eclv.py: the table of economic values with resampling (num_iterations > 1).
-/
import Verif.Model.AggEclv
import Verif.Model.Bootstrap

namespace Metcalcpy

/-- A row of the output table with its limits `stat_btcl`, `stat_btcu`. -/
structure EclvBootOut where
  row : EclvOut
  lower : Option ℚ
  upper : Option ℚ
  deriving DecidableEq, Repr

/-- agg_eclv.py:123-130: the values of all resamples; no base rate is passed on, the default is 0. -/
def eclvReplicates (npf : Bool) (lineType : String) (cols : List String) (steps : List ℚ) (th : ℚ) (sims : List (List (List Cell))) :
    Except PyErr (List (Option (List Cell))) :=
  sims.mapM fun rows => do
    let e ← eclvStat npf ⟨cols, rows⟩ (some th) lineType steps 0
    .ok (e.map fun e => e.V.map some)

/-- agg_eclv.py:164-187 and bootstrap.py:146-162: the value of a threshold and its limits.  `cbb` is the option
circular_block_bootstrap, `ids` the positions `np.random.choice` draws (num_threads = 1), `m` the option method; alpha is the default 0.05.
Only a KeyError is handled (there is none). -/
def eclvBootstrap (npf cbb : Bool) (m : CiMethod) (lineType : String) (steps : List ℚ) (t : Table) (th : ℚ) (ids : List (List ℕ)) :
    Except PyErr (Option EconValue × Option (List (Option ℚ × Option ℚ))) := do
  let L := if cbb then Nat.sqrt t.rows.length else 1
  let stat ← eclvStat npf t (some th) lineType steps (aggEclvAddBaseRate none)
  let sims ← generateDistributions t.rows L ids
  let dist ← eclvReplicates npf lineType t.cols steps th sims
  let limits ← eclvInterval dist (stat.map fun e => e.V.map some) (1 / 20) m
  .ok (stat, limits)

/-- agg_eclv.py:231-269 with num_iterations > 1: the output rows of one point; `draws` gives the positions drawn for each
threshold. -/
def eclvPointBoot (npf cbb : Bool) (m : CiMethod) (lineType : String) (cols : List String) (steps : List ℚ) (f : Frame)
    (names : List String) (draws : List String → ℚ → List (List ℕ)) (point : List String) : Except PyErr (List EclvBootOut) := do
  let rows ← eclvRows f (names.zip point)
  let thresholds := eclvThresholds f rows
  if rows.isEmpty then
    if thresholds.isEmpty then .ok [] else .error .typeError
  else
    let t ← frameTable f cols rows
    let parts ← thresholds.mapM (fun th => do
      match ← eclvBootstrap npf cbb m lineType steps t th (draws point th) with
      | (some e, some limits) =>
        .ok (List.zipWith (fun (r : EclvOut) (l : Option ℚ × Option ℚ) => (⟨r, l.1, l.2⟩ : EclvBootOut))
          (List.zipWith (fun x y => (⟨point, th, x, y, rows.length⟩ : EclvOut)) e.cl e.V) limits)
      | _ => .error .typeError)
    .ok parts.flatten

/-- agg_eclv.py:69-102, 209-272 (constructor and _proceed_with_axis) with num_iterations > 1. -/
def aggEclvBoot (npf cbb : Bool) (m : CiMethod) (lineType : String) (step : ℚ) (series : List (String × List String)) (f : Frame)
    (draws : List String → ℚ → List (List ℕ)) : Except PyErr (List EclvBootOut) := do
  let steps ← clSteps step
  let cols ← eclvColumns lineType
  if f.isEmpty then .ok []
  else
    let parts ← (product (series.map Prod.snd)).mapM (eclvPointBoot npf cbb m lineType cols steps f (series.map Prod.fst) draws)
    .ok parts.flatten

end Metcalcpy
