/-
metcalcpy/agg_stat_bootstrap.py: the complete run of the object (MODE) bootstrap: cases, rows of each point, value or
bootstrap of each point, output table; metcalcpy/bootstrap.py bootstrap_and_value_mode.
-/
import Verif.Model.AggBoot
import Verif.Model.AggEqz

namespace Metcalcpy

/-- The parameters of one axis that agg_stat_bootstrap.py:107-219 reads: `series_val_*`, `indy_var`, `indy_vals`,
`list_stat_*` and the keys of `fcst_var_val_*`. -/
structure ObjConfig where
  series : List (String × List String)
  indyVar : String
  indyVals : List String
  stats : List String
  fcstVars : List String
  deriving DecidableEq, Repr

/-- agg_stat_bootstrap.py:138-140: the points. -/
def ObjConfig.points (c : ObjConfig) : List (List String) := product (c.series.map Prod.snd)

/-- agg_stat_bootstrap.py:117-119: only the first forecast variable is used, and only if there is such a column. -/
def ObjConfig.fcst (c : ObjConfig) (f : Frame) : Option String := if "fcst_var" ∈ f.cols then c.fcstVars.head? else none

/-- agg_stat_bootstrap.py:126-136: the rows of an independent value. -/
def objIndyRows (f : Frame) (c : ObjConfig) (i : String) : Except PyErr (List (List Val)) := do
  let k ← f.col c.indyVar
  .ok (f.rows.filter fun r => partMatches (cellAt r k) i)

/-- agg_stat_bootstrap.py:143-158 and 178-194: one filter for each series variable; an unknown column is a KeyError. -/
def objFilters (f : Frame) (c : ObjConfig) (pt : List String) : Except PyErr (List (List Val → Bool)) :=
  (c.series.zip pt).mapM fun q => do
    let k ← f.col q.1.1
    .ok fun r => (filterParts q.2).any (partMatches (cellAt r k))

/-- agg_stat_bootstrap.py:164-166, 196-199: without any filter the mask is a single value and `loc` is a KeyError. -/
def objMask (fs : List (List Val → Bool)) (rows : List (List Val)) : Except PyErr (List (List Val)) :=
  if fs.isEmpty then .error .keyError else .ok (rows.filter fun r => fs.all (fun p => p r))

/-- agg_stat_bootstrap.py:168-171, 290-292: valid time and independent value of a row, joined by '#'. -/
def caseText (v k : ℕ) (r : List Val) : String := (cellAt r v).text ++ "#" ++ (cellAt r k).text

/-- agg_stat_bootstrap.py:142-173: adds the cases of a point (rows of the requested forecast variable only) to the cases
collected so far; sorted, without repetitions. -/
def objPool (f : Frame) (c : ObjConfig) (rows : List (List Val)) (pool : List String) (pt : List String) :
    Except PyErr (List String) := do
  let fs ← objFilters f c pt
  let fs ← match c.fcst f with
    | none => .ok fs
    | some v => do
      let k ← f.col "fcst_var"
      .ok (fs ++ [fun r => isinTexts (cellAt r k) [v]])
  let sel ← objMask fs rows
  let v ← f.col "fcst_valid"
  let k ← f.col c.indyVar
  .ok ((pool ++ sel.map (caseText v k)).dedup.insertionSort (· ≤ ·))

/-- What is computed for an independent value, a statistic and a point. -/
structure ObjResult (α : Type) where
  indy : String
  stat : String
  point : List String
  value : α
  nstats : ℕ
  deriving DecidableEq, Repr

/-- agg_stat_bootstrap.py:175-203: one statistic and one point.  The forecast variable is not filtered here.
`comp s frame pool` is the value of the statistic `s` (see `objValue`, `objBoot`). -/
def objPoint {α : Type} (comp : String → Frame → List String → Except PyErr α) (f : Frame) (c : ObjConfig) (i : String)
    (rows : List (List Val)) (pool : List String) (q : String × List String) : Except PyErr (ObjResult α) := do
  let fs ← objFilters f c q.2
  let sel ← objMask fs rows
  let data ← sortData f sel
  let x ← comp (lower q.1) { f with rows := data } pool
  .ok { indy := i, stat := q.1, point := q.2, value := x, nstats := sel.length }

/-- agg_stat_bootstrap.py:126-203: one independent value.  The state is `cases` (line 121), which the loop keeps from one
independent value to the next, and the results so far. -/
def objIndy {α : Type} (comp : String → Frame → List String → Except PyErr α) (f : Frame) (c : ObjConfig)
    (st : List String × List (ObjResult α)) (i : String) : Except PyErr (List String × List (ObjResult α)) := do
  let rows ← objIndyRows f c i
  let pool ← c.points.foldlM (objPool f c rows) st.1
  let res ← (c.stats ×ˢ c.points).mapM (objPoint comp f c i rows pool)
  .ok (pool, st.2 ++ res)

/-- agg_stat_bootstrap.py:121-203: all results of an axis, in the order of the loops. -/
def objResults {α : Type} (comp : String → Frame → List String → Except PyErr α) (f : Frame) (c : ObjConfig) :
    Except PyErr (List (ObjResult α)) := do
  let st ← c.indyVals.foldlM (objIndy comp f c) ([], [])
  .ok st.2

/-- agg_stat_bootstrap.py:107-219 _proceed_with_axis.  Simplifications: the results are computed first and then written
(an earlier IndexError of the writing would win); the independent variable is not a series variable. -/
def objAxis {α : Type} (comp : String → Frame → List String → Except PyErr α) (f : Frame) (c : ObjConfig) :
    Except PyErr (List (List String × Option α)) := do
  let res ← objResults comp f c
  res.foldlM (fun rows e => writeFirst (matchPoint e.point e.indy) e.value rows)
    ((product (c.series.map Prod.snd ++ [c.indyVals, c.stats])).map (fun k => (k, none)))

/-- agg_stat_bootstrap.py:221-227, 258-264 (num_iterations = 1): the statistic of the rows whose case is in the pool. -/
def objValue {α : Type} (statOf : String → Frame → Except PyErr α) (s : String) (f : Frame) (pool : List String) :
    Except PyErr α := do
  let k ← f.col "case"
  statOf s { f with rows := resampledRows k f.rows pool }

/-- The text cells of rows (`values_current.flatten()`, of which only texts can equal a case). -/
def textCells (rows : List (List Val)) : List String :=
  rows.flatMap fun r => r.filterMap fun v => match v with
    | .str s => some s
    | _ => none

/-- agg_stat_bootstrap.py:228-242, 265-271 and bootstrap.py:243-307 bootstrap_and_value_mode, from the index matrix drawn at random:
`draw` gives it for every call.  bootstrap.py:291-294 hands the rows themselves to the statistic function, which takes all their cells for cases.
Simplification: one thread and one batch (see `bootstrapDistribution`). -/
def objBoot (statOf : String → Frame → Except PyErr (Option ℚ)) (m : CiMethod) (draw : String → Frame → List String → List (List ℕ))
    (s : String) (f : Frame) (pool : List String) : Except PyErr BootResult :=
  catchKeyError (do
    let k ← f.col "case"
    let v ← objValue statOf s f (textCells (resampledRows k f.rows pool))
    let sims ← generateDistributions pool 1 (draw s f pool)
    let dist ← sims.mapM (objValue statOf s f)
    confidenceInterval dist v (1 / 20) m)

/-- agg_stat_bootstrap.py:289-292: the column 'case'. -/
def withCase (f : Frame) (indy : String) : Except PyErr Frame := do
  let v ← f.col "fcst_valid"
  let k ← f.col indy
  .ok (f.setCol "case" fun r => .str (caseText v k r))

/-- agg_stat_bootstrap.py:276-307 calculate_values and 309-316 _perform_event_equalization: the table written to the output
file.  AggStatEventEqz.calculate_values (agg_stat_eqz.py:72-101) has no return statement, so after an equalization the
input data are None and the next line is an AttributeError.  `c₁` and `c₂` are the parameters of both axes, `comp` as
above, `prev` the stored cases.  Simplification: the tables of both axes have the same columns. -/
def objectRun {α : Type} (comp : String → Frame → List String → Except PyErr α) (f prev : Frame) (eventEqual : Bool)
    (c₁ c₂ : ObjConfig) : Except PyErr (List (List String × Option α)) := do
  if f.isEmpty then return []
  else
    let g ← if eventEqual then
        match aggStatEqz f prev true c₁.fcstVars c₂.fcstVars c₁.series c₂.series with
        | .ok _ => .error .attributeError
        | .error e => .error e
      else .ok f
    let g ← withCase g c₁.indyVar
    let o₁ ← objAxis comp g c₁
    if c₂.series ≠ [] then
      let o₂ ← objAxis comp g c₂
      return o₁ ++ o₂
    else return o₁

end Metcalcpy
