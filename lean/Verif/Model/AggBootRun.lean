/-
metcalcpy/agg_stat.py: the table of a run with bootstrapping (num_iterations > 1).
-/
import Verif.Model.AggRun
import Verif.Model.AggValues
import Verif.Model.DiffSig

namespace Metcalcpy

/-- agg_stat.py:794-811: sort the rows of a point, then call the statistic (`statOf` prepares the rows and calls it). -/
def sortedStat (statOf : String → List (List Val) → Except PyErr PyNum) (f : Frame) (stat : String)
    (rows : List (List Val)) : Except PyErr PyNum := do
  let data ← sortData f rows
  statOf stat data

/-- agg_stat.py:797-803 and 249-253: prepare sorted rows and call the function of the statistic (KeyError if there is
none).  With `sortedStat` this is `lineStat`. -/
def preparedStat (l : LineType) (f : Frame) (stat : String) (data : List (List Val)) : Except PyErr PyNum := do
  let t ← prepareLine l stat (numericTable f.cols data)
  match calculateFunctions.lookup stat with
  | none => .error .keyError
  | some calculate => (calculate t).map toPyNum

/-- agg_stat.py:812-829, inside `try`: the bootstrap of the sorted rows from the index matrix `ids`.  As in `seriesBoot`,
alpha is the default 0.05.  Simplification: the code prepares the rows before the `try` (lines 797-803) and resamples prepared
rows; here `statOf` prepares each sample.  A KeyError of the preparation (a missing column, or an SSVAR statistic without
fields) ends the run in the code and is treated like one of the statistic here. -/
def seriesTry (statOf : String → List (List Val) → Except PyErr PyNum) (s : BootSettings) (stat : String)
    (data : List (List Val)) (ids : List (List ℕ)) : Except PyErr BootResult := do
  let v ← statOf stat data
  let sims ← generateDistributions data (blockLength s data.length) ids
  let dist ← sims.mapM (statOf stat)
  confidenceInterval (dist.map PyNum.cell) v.cell (1 / 20) s.method

/-- agg_stat.py:773-838 _get_bootstrapped_stats (num_iterations > 1): the result and the rows it keeps (none when there are
no rows, or after a KeyError). `save_data` is set when there are derived curves; only they read the rows. -/
def plainBoot (statOf : String → List (List Val) → Except PyErr PyNum) (s : BootSettings) (f : Frame) (stat : String)
    (rows : List (List Val)) (ids : List (List ℕ)) : Except PyErr (BootResult × Option (List (List Val))) :=
  if rows.isEmpty then .ok (⟨none, none, none⟩, none)
  else do
    let data ← sortData f rows
    match seriesTry statOf s stat data ids with
    | .ok r => .ok (r, some rows)
    | .error .keyError => .ok (⟨none, none, none⟩, none)
    | .error e => .error e

/-- agg_stat.py:607-771 _get_bootstrapped_stats_for_derived (num_iterations > 1): the value and the limits.  ETB curves are
computed as with one iteration (line 694). -/
def derivedPointBoot (statOf : String → List (List Val) → Except PyErr PyNum) (etb : List PyNum → List PyNum → PyNum)
    (s : BootSettings) (f : Frame) (groups : List (String × String)) (curves : List (String × DerivedCurve))
    (stat : String) (results : List (List String × PointResult)) (point : List String) (draw : ℕ → List (List ℕ)) :
    Except PyErr (PyNum × Option ℚ × Option ℚ) :=
  match curves.lookup (derivedNameOf point) with
  | none => .error .keyError
  | some cv =>
    match findPair (fullComponents groups cv.first point) (fullComponents groups cv.second point) results none none with
    | (some d₁, some d₂) => do
      if ← checkDerived f.cols cv.op (fullComponents groups cv.first point) (fullComponents groups cv.second point)
          (d₁.rows.getD []) (d₂.rows.getD []) then
        let ids := draw (d₁.rows.getD []).length
        if cv.op = "ETB" then do
          let v ← derivedValue statOf etb stat cv.op d₁.value d₂.value (d₁.rows.getD []) (d₂.rows.getD [])
          .ok (v, none, none)
        else if cv.op = "DIFF_SIG" then do
          let r ← derivedSig statOf etb s f stat (d₁.rows.getD []) (d₂.rows.getD []) d₁.value d₂.value ids
          .ok (r.2, r.1.lower, r.1.upper)
        else do
          let r ← derivedBoot statOf etb s f cv.op (d₁.rows.getD []) (d₂.rows.getD []) ids
          .ok (toPyNum r.value, r.lower, r.upper)
      else .ok (.none, none, none)
    | _ => .error .attributeError           -- `ds_1.values` of None (line 664)

/-- One row of the output table with the columns stat_btcl and stat_btcu. -/
structure BootOut where
  point : List String
  fcstVar : Option String
  value : PyNum
  lower : Option ℚ
  upper : Option ℚ
  nstats : ℕ
  deriving DecidableEq, Repr

/-- The state of the loop over the points. -/
structure BootState where
  stat : String
  results : List (List String × PointResult)
  out : List BootOut

/-- agg_stat.py:1008-1102, one point (num_iterations > 1).  `draws k n` is the index matrix drawn at random for the k-th point of
the table when it has `n` rows.  Simplifications as for `aggStep` and `seriesBoot` (one thread, one batch, NaN counts as
missing). -/
def bootStep (statOf : String → List (List Val) → Except PyErr PyNum) (etb : List PyNum → List PyNum → PyNum)
    (s : BootSettings) (draws : ℕ → ℕ → List (List ℕ)) (f : Frame) (c : AggConfig) (curves : List (String × DerivedCurve))
    (st : BootState) (point : List String) : Except PyErr BootState :=
  let stat := pointStat c.stats point st.stat
  let fcst := c.fcstVars.head?
  if isDerivedPoint (some point) then do
    let v ← derivedPointBoot statOf etb s f c.groups curves stat st.results point (draws st.out.length)
    .ok ⟨stat, st.results, st.out ++ [⟨point, fcst, v.1, v.2.1, v.2.2, 0⟩]⟩
  else do
    let rows ← pointRows f ((c.fields.map Prod.fst).zip point) fcst
    let res ← plainBoot statOf s f stat rows (draws st.out.length rows.length)
    .ok ⟨stat, putPoint st.results point ⟨toPyNum res.1.value, res.2⟩,
      st.out ++ [⟨point, fcst, toPyNum res.1.value, res.1.lower, res.1.upper, rows.length⟩]⟩

/-- agg_stat.py:972-1110 _proceed_with_axis (num_iterations > 1). -/
def bootAxis (statOf : String → List (List Val) → Except PyErr PyNum) (etb : List PyNum → List PyNum → PyNum)
    (s : BootSettings) (draws : ℕ → ℕ → List (List ℕ)) (f : Frame) (c : AggConfig) : Except PyErr (List BootOut) :=
  if f.isEmpty then .ok []
  else do
    let entries ← c.derived.mapM (derivedEntry c)
    let curves := entries.foldl (fun d e => dictSet d e.1 e.2.1) []
    let st ← (c.plainPoints ++ entries.flatMap (fun e => e.2.2)).foldlM (bootStep statOf etb s draws f c curves)
      ⟨"", [], []⟩
    .ok st.out

/-- agg_stat.py:1114-1164 calculate_stats_and_ci (num_iterations > 1): as `aggRun`; `draws₁` and `draws₂` are the matrices
of the two axes. -/
def bootRun (statOf : String → List (List Val) → Except PyErr PyNum) (etb : List PyNum → List PyNum → PyNum)
    (s : BootSettings) (draws₁ draws₂ : ℕ → ℕ → List (List ℕ)) (f : Frame) (p : AggParams) : Except PyErr (List BootOut) := do
  let g ← if truthy (parseBool p.eventEqual) then p.equalize f else .ok f
  let o₁ ← bootAxis statOf etb s draws₁ g (p.config p.axis₁)
  if p.axis₂.series.isEmpty then .ok o₁
  else do
    let o₂ ← bootAxis statOf etb s draws₂ g (p.config p.axis₂)
    .ok (o₁ ++ o₂)

end Metcalcpy
