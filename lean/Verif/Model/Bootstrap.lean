/-
metcalcpy/bootstrap.py
-/
import Verif.Model.Base
import Mathlib.Data.List.Sort

namespace Metcalcpy

/-! ### Resampling -/

/-- metcalcpy/bootstrap.py:477-499 apply_cbb, the loop.  `n` is `len(row)`, `L` the block length, the
state is `counter` and `init_val`.  The row is updated in place, but every position is read before it
is written and never read again, so the result is built as a new list. -/
def cbbLoop (n L : ℕ) : ℕ → ℕ → List ℕ → List ℕ
  | _, _, [] => []
  | counter, init, val :: vs =>
    let init' := if counter = 0 then val else init
    let out := if counter = 0 then val
      else if init + counter > n - 1 then init + counter - n else init + counter
    out :: cbbLoop n L (if counter + 1 = L then 0 else counter + 1) init' vs

/-- metcalcpy/bootstrap.py:477-499 apply_cbb; 484 `counter = 0`, 485 `init_val = row[0]` (IndexError
for an empty row is not modelled: `np.random.choice` is called with the size of the data). -/
def applyCbb (L : ℕ) (row : List ℕ) : List ℕ := cbbLoop row.length L 0 (row.headD 0) row

/-- `values[ids]` for one row of indices (bootstrap.py:505): an index beyond the data raises. -/
def takeIdx {α : Type} (values : List α) (row : List ℕ) : Except PyErr (List α) :=
  row.mapM (fun i => match values[i]? with
    | some v => .ok v
    | none => .error .indexError)

/-- metcalcpy/bootstrap.py:469-506 _generate_distributions_cbb for one value array, from the index
matrix drawn by `np.random.choice`.  Simplification: the block length is a natural number (a negative one
behaves like 0). -/
def generateDistributions {α : Type} (values : List α) (L : ℕ) (ids : List (List ℕ)) :
    Except PyErr (List (List α)) :=
  let ids := if L > 1 then ids.map (applyCbb L) else ids
  ids.mapM (takeIdx values)

/-! ### Simulation -/

/-- The NumPy random generator of one process, as far as it is used: `np.random.seed` and
`np.random.choice(n, (k, n))`, which returns a `k × n` index matrix and the next state. -/
structure Rng (σ : Type) where
  seed : ℕ → σ
  choice : σ → ℕ → ℕ → List (List ℕ) × σ

/-- The sizes `max_rng` of the rounds of `_bootstrap_sim_cbb` (bootstrap.py:455-456):
`for rng in range(0, num_iterations, batch): max_rng = min(batch, num_iterations - rng)`. -/
def simBatches (n b : ℕ) : List ℕ :=
  (List.range ((n + b - 1) / b)).map (fun k => min b (n - k * b))

/-- One round of the loop (bootstrap.py:458-461): draw, resample, apply the statistic to all resamples. -/
def simRound {σ α β : Type} (G : Rng σ) (values : List α) (L : ℕ) (stat : List (List α) → List β)
    (st : σ × List β) (m : ℕ) : Except PyErr (σ × List β) :=
  let (ids, s') := G.choice st.1 values.length m
  match generateDistributions values L ids with
  | .ok sims => .ok (s', st.2 ++ stat sims)
  | .error e => .error e

/-- metcalcpy/bootstrap.py:423-466 _bootstrap_sim_cbb from a given generator state (one value array and one
statistic).  A batch size 0 makes `range` raise ValueError. -/
def bootstrapSim {σ α β : Type} (G : Rng σ) (values : List α) (L : ℕ) (stat : List (List α) → List β)
    (n b : ℕ) (s : σ) : Except PyErr (List β) :=
  if b = 0 then .error .valueError
  else ((simBatches n b).foldlM (simRound G values L stat) (s, [])).map Prod.snd

/-! ### Process pool -/

/-- A worker process: its own generator state and the task it is working on: job number, rounds still to
do, replicates so far. -/
structure Worker (σ β : Type) where
  rng : σ
  task : Option (ℕ × List ℕ × List β)

/-- Pool and AsyncResult slots (`None` = not ready). -/
structure Pool (σ β : Type) where
  queue : List ℕ
  workers : List (Worker σ β)
  slots : List (Option (Except PyErr (List β)))

/-- What the scheduler can let happen next: an idle worker takes the next task from the queue, or a busy
worker does one more round (or delivers its result). -/
inductive PoolEvent
  | take (w : ℕ)
  | step (w : ℕ)

/-- One event.  `multiprocessing.Pool` (standard library): tasks are handed out in submission order, each
to one worker; the worker runs `_bootstrap_sim_cbb` (which first seeds its generator, bootstrap.py:447-448)
and stores the result or the exception in the AsyncResult of the task.  Events that are not possible leave
the state as it is.  Simplification: no worker dies. -/
def poolStep {σ α β : Type} (G : Rng σ) (values : List α) (L : ℕ) (stat : List (List α) → List β)
    (n b : ℕ) (seeds : List ℕ) (p : Pool σ β) : PoolEvent → Pool σ β
  | .take w =>
    match p.workers[w]?, p.queue with
    | some wk, j :: q =>
      if wk.task.isSome then p
      else { p with queue := q,
                    workers := p.workers.set w { rng := G.seed (seeds.getD j 0),
                                                 task := some (j, simBatches n b, []) } }
    | _, _ => p
  | .step w =>
    match p.workers[w]? with
    | some ⟨r, some (j, m :: ms, acc)⟩ =>
      match simRound G values L stat (r, acc) m with
      | .ok (r', acc') => { p with workers := p.workers.set w ⟨r', some (j, ms, acc')⟩ }
      | .error e => { p with workers := p.workers.set w ⟨r, none⟩, slots := p.slots.set j (some (.error e)) }
    | some ⟨r, some (j, [], acc)⟩ =>
      { p with workers := p.workers.set w ⟨r, none⟩, slots := p.slots.set j (some (.ok acc)) }
    | _ => p

/-- The pool right after the submission loop (bootstrap.py:226-231): one job per seed, nothing ready.
`states` are the generator states the worker processes happen to have. -/
def poolInit {σ β : Type} (states : List σ) (seeds : List ℕ) : Pool σ β :=
  { queue := List.range seeds.length
    workers := states.map (fun s => ⟨s, none⟩)
    slots := seeds.map (fun _ => none) }

/-- bootstrap.py:233 `np.hstack([res.get() for res in results])`: `get` blocks (`none`) until the slot is
ready and re-raises the exception of the job. -/
def gather {β : Type} : List (Option (Except PyErr (List β))) → Option (Except PyErr (List β))
  | [] => some (.ok [])
  | none :: _ => none
  | some (.error e) :: _ => some (.error e)
  | some (.ok x) :: rest => (gather rest).map (fun r => r.map (x ++ ·))

/-- bootstrap.py:224 `iter_per_job = ceil(num_iterations / num_threads)`. -/
def iterPerJob (n threads : ℕ) : ℕ := (n + threads - 1) / threads

/-- metcalcpy/bootstrap.py:172-240 _bootstrap_distribution_cbb.  `schedule` is what the operating system
does, `s` the generator state of the main process, `seeds` the seeds it draws (one per thread), `states`
the generator states in the workers.  `none`: still waiting for a result.
Simplification: array type validation is not modelled. -/
def bootstrapDistribution {σ α β : Type} (G : Rng σ) (values : List α) (L : ℕ)
    (stat : List (List α) → List β) (n : ℕ) (batch : Option ℕ) (threads : ℤ) (cpuCount : ℕ)
    (s : σ) (seeds : ℕ → List ℕ) (states : List σ) (schedule : List PoolEvent) :
    Option (Except PyErr (List β)) :=
  let b := batch.getD n
  let threads := if threads = -1 then (cpuCount : ℤ) else threads
  if threads ≤ 1 then some (bootstrapSim G values L stat n b s)
  else
    let k := threads.toNat
    let sd := seeds k
    if b = 0 then some (.error .valueError)
    else gather (schedule.foldl (poolStep G values L stat (iterPerJob n k) b sd) (poolInit states sd)).slots

/-! ### BootstrapResults -/

/-- metcalcpy/bootstrap.py:24-36, the three numbers of a BootstrapResults object; `none` is None. -/
structure BootResult where
  lower : Option ℚ
  value : Option ℚ
  upper : Option ℚ
  deriving DecidableEq, Repr

/-- metcalcpy/bootstrap.py:25-36 BootstrapResults.__init__: the bounds are swapped when out of order; the
comparison with a missing bound raises TypeError, which is ignored. -/
def mkBoot (lower value upper : Option ℚ) : BootResult :=
  match lower, upper with
  | some l, some u => if l > u then ⟨some u, value, some l⟩ else ⟨some l, value, some u⟩
  | _, _ => ⟨lower, value, upper⟩

/-- Arithmetic on a result (bootstrap.py:50-66): `r + x`, `x + r`, `r - x`, `x - r`, `r * x`, `x * r`. -/
inductive BootOp
  | add (x : ℚ) | radd (x : ℚ) | sub (x : ℚ) | rsub (x : ℚ) | mul (x : ℚ) | rmul (x : ℚ)
  deriving DecidableEq, Repr

/-- The function handed to `_apply` by each operator (bootstrap.py:50-66). -/
def BootOp.fn : BootOp → ℚ → ℚ
  | .add o, x => o + x
  | .radd o, x => o + x
  | .sub o, x => x - o
  | .rsub o, x => o - x
  | .mul o, x => x * o
  | .rmul o, x => x * o

/-- metcalcpy/bootstrap.py:45-48 _apply: arithmetic with None raises TypeError. -/
def bootApply (r : BootResult) (op : BootOp) : Except PyErr BootResult :=
  match r.lower, r.value, r.upper with
  | some l, some v, some u => .ok (mkBoot (some (op.fn l)) (some (op.fn v)) (some (op.fn u)))
  | _, _, _ => .error .typeError

/-- `np.sign`. -/
def npSign (x : ℚ) : ℤ := if 0 < x then 1 else if x < 0 then -1 else 0

/-- metcalcpy/bootstrap.py:79-80 is_significant (`none`: TypeError for a missing bound). -/
def isSignificant (r : BootResult) : Option Bool :=
  match r.lower, r.upper with
  | some l, some u => some (npSign u == npSign l)
  | _, _ => none

/-- metcalcpy/bootstrap.py:82-88 get_result. -/
def getResult (r : BootResult) : Option ℤ :=
  match isSignificant r, r.value with
  | some b, some v => some ((if b then 1 else 0) * npSign v)
  | _, _ => none

/-! ### Confidence intervals -/

/-- `np.percentile(xs, 100 * q)` with linear interpolation: the virtual index is `q * (n - 1)`.  A fraction
outside [0,1] raises ValueError, an empty array IndexError. -/
def percentile (xs : List ℚ) (q : ℚ) : Except PyErr ℚ :=
  if q < 0 ∨ 1 < q then .error .valueError
  else
    let s := xs.insertionSort (· ≤ ·)
    let v := q * ((xs.length : ℚ) - 1)
    let j := ⌊v⌋.toNat
    let g := v - ⌊v⌋
    match s[j]?, s[min (j + 1) (xs.length - 1)]? with
    | some a, some b => .ok (a + (b - a) * g)
    | _, _ => .error .indexError

/-- metcalcpy/bootstrap.py:509-525 _all_the_same. -/
def allTheSame (xs : List Cell) : Bool :=
  if xs.isEmpty then true else ((xs.filterMap id).dedup.length == 1)

inductive CiMethod
  | pivotal | perc | other
  deriving DecidableEq, Repr

/-- `np.percentile` of the unfiltered replicates: a missing one makes the sort raise TypeError. -/
def percentileCells (xs : List Cell) (q : ℚ) : Except PyErr ℚ :=
  if xs.any Option.isNone then .error .typeError else percentile (xs.filterMap id) q

/-- metcalcpy/bootstrap.py:310-350 _get_confidence_interval_and_value. -/
def confidenceInterval (dist : List Cell) (stat : Option ℚ) (alpha : ℚ) (m : CiMethod) :
    Except PyErr BootResult :=
  match stat with
  | none => .ok (mkBoot none none none)
  | some v =>
    match m with
    | .pivotal => do
      let hi ← percentileCells dist (1 - alpha / 2)
      let lo ← percentileCells dist (alpha / 2)
      .ok (mkBoot (some (2 * v - hi)) (some v) (some (2 * v - lo)))
    | .perc =>
      if allTheSame dist then .ok (mkBoot none (some v) none)
      else do
        let bd := dist.filterMap id
        let lo ← percentile bd (alpha / 2)
        let hi ← percentile bd (1 - alpha / 2)
        .ok (mkBoot (some lo) (some v) (some hi))
    | .other => .ok (mkBoot none none none)

/-- Limits of one cost/loss ratio (bootstrap.py:389-402); `pivotal` multiplies a dictionary.  The guard
`none_in_values` (384) is always true: its `sum` is the function of the module itself (578), which returns a
one-element array holding the generator, never equal to the number of values. -/
def eclvLimits (column : List Cell) (alpha : ℚ) (m : CiMethod) : Except PyErr (Option ℚ × Option ℚ) :=
  match m with
  | .pivotal => .error .typeError
  | .perc =>
    if allTheSame column then .ok (none, none)
    else do
      let lo ← percentileCells column (alpha / 2)
      let hi ← percentileCells column (1 - alpha / 2)
      .ok (some lo, some hi)
  | .other => .ok (none, none)

/-- `all_values_np[:, ind]` (bootstrap.py:378-388) of the available replicates. -/
def eclvColumn (bd : List (List Cell)) (i : ℕ) : Except PyErr (List Cell) :=
  match bd with
  | [] => .error .indexError
  | _ => match bd.mapM (fun r => r[i]?) with
    | some column => .ok column
    | none => .error .indexError

/-- metcalcpy/bootstrap.py:353-411 _get_confidence_interval_and_value_eclv: the lists of lower and upper
limits (`none`: no point estimate).  `dist` holds the `V` list of every replicate (None when it failed).
The final comparison of the two lists in BootstrapResults never exchanges them: at each index both are None or
lower ≤ upper (C32). -/
def eclvInterval (dist : List (Option (List Cell))) (statV : Option (List Cell)) (alpha : ℚ) (m : CiMethod) :
    Except PyErr (Option (List (Option ℚ × Option ℚ))) :=
  match statV with
  | none => .ok none
  | some v => do
    let limits ← (List.range v.length).mapM (fun i => do
      let column ← eclvColumn (dist.filterMap id) i
      eclvLimits column alpha m)
    .ok (some limits)

end Metcalcpy
