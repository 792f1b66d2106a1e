/-
metcalcpy/util/ctc_statistics.py: contingency-table statistics (rational ones).

Every function below is the Python function of the same name.  The `try ... except` of each
function turns a missing sum (TypeError), a zero divisor (ZeroDivisionError / RuntimeWarning) into
`None`; this is the `Option` monad.  The warnings-filter side effect is modelled separately in
`Verif.Model.Filter`.
-/
import Verif.Model.Round
import Verif.Model.Table

namespace Metcalcpy

/-- Python's builtin `sum` over a raw column, as used by `calculate_baser`
(`sum(input_data[:, np.where(columns_names == name)[0][0]])`, lines 44-46): an unknown column is an
IndexError that is *not* handled; a missing cell makes the result missing (NaN). -/
def rawSum (t : Table) (name : String) : Except PyErr (Option ℚ) :=
  match columnData t name with
  | none => .error .indexError
  | some col => .ok (if col.any Option.isNone then none else some (col.filterMap id).sum)

/-- metcalcpy/util/ctc_statistics.py:28-51 calculate_baser. -/
def ctcBaser (t : Table) : Except PyErr (Option ℚ) := do
  let a ← rawSum t "fy_oy"
  let c ← rawSum t "fn_oy"
  let n ← rawSum t "total"
  return (do
    let q ← pyDiv ((← a) + (← c)) (← n)
    some (roundHalfUp q PRECISION))

/-- metcalcpy/util/ctc_statistics.py:54-76 calculate_acc. -/
def ctcAcc (t : Table) : Option ℚ := do
  let a ← sumColumn t "fy_oy"
  let d ← sumColumn t "fn_on"
  let n ← sumColumn t "total"
  let q ← pyDiv (a + d) n
  some (roundHalfUp q PRECISION)

/-- metcalcpy/util/ctc_statistics.py:79-105 calculate_fbias. -/
def ctcFbias (t : Table) : Option ℚ := do
  let oy := (← sumColumn t "fy_oy") + (← sumColumn t "fn_oy")
  if oy = 0 then none else do
    let oyn := (← sumColumn t "fy_oy") + (← sumColumn t "fy_on")
    let q ← pyDiv oyn oy
    some (roundHalfUp q PRECISION)

/-- metcalcpy/util/ctc_statistics.py:108-133 calculate_fmean. -/
def ctcFmean (t : Table) : Option ℚ := do
  let total ← sumColumn t "total"
  if total = 0 then none else do
    let oyn := (← sumColumn t "fy_oy") + (← sumColumn t "fy_on")
    let q ← pyDiv oyn total
    some (roundHalfUp q PRECISION)

/-- metcalcpy/util/ctc_statistics.py:136-160 calculate_pody. -/
def ctcPody (t : Table) : Option ℚ := do
  let a ← sumColumn t "fy_oy"
  let c ← sumColumn t "fn_oy"
  let q ← pyDiv a (a + c)
  some (roundHalfUp q PRECISION)

/-- metcalcpy/util/ctc_statistics.py:163-185 calculate_pofd. -/
def ctcPofd (t : Table) : Option ℚ := do
  let b ← sumColumn t "fy_on"
  let d ← sumColumn t "fn_on"
  let q ← pyDiv b (b + d)
  some (roundHalfUp q PRECISION)

/-- metcalcpy/util/ctc_statistics.py:236-258 calculate_podn. -/
def ctcPodn (t : Table) : Option ℚ := do
  let d ← sumColumn t "fn_on"
  let b ← sumColumn t "fy_on"
  let q ← pyDiv d (b + d)
  some (roundHalfUp q PRECISION)

/-- metcalcpy/util/ctc_statistics.py:261-283 calculate_far. -/
def ctcFar (t : Table) : Option ℚ := do
  let b ← sumColumn t "fy_on"
  let a ← sumColumn t "fy_oy"
  let q ← pyDiv b (a + b)
  some (roundHalfUp q PRECISION)

/-- metcalcpy/util/ctc_statistics.py:286-310 calculate_csi. -/
def ctcCsi (t : Table) : Option ℚ := do
  let a ← sumColumn t "fy_oy"
  let oy := a + (← sumColumn t "fy_on") + (← sumColumn t "fn_oy")
  let q ← pyDiv a oy
  some (roundHalfUp q PRECISION)

/-- metcalcpy/util/ctc_statistics.py:313-340 calculate_gss. -/
def ctcGss (t : Table) : Option ℚ := do
  let total ← sumColumn t "total"
  if total = 0 then none else do
    let a ← sumColumn t "fy_oy"
    let b ← sumColumn t "fy_on"
    let c ← sumColumn t "fn_oy"
    let r ← pyDiv (a + b) total
    let dblC := r * (a + c)
    let q ← pyDiv (a - dblC) (a + b + c - dblC)
    some (roundHalfUp q PRECISION)

/-- metcalcpy/util/ctc_statistics.py:343-368 calculate_hk. -/
def ctcHk (t : Table) : Option ℚ := do
  let pody ← ctcPody t
  let pofd ← ctcPofd t
  some (roundHalfUp (pody - pofd) PRECISION)

/-- metcalcpy/util/ctc_statistics.py:371-399 calculate_hss. -/
def ctcHss (t : Table) : Option ℚ := do
  let total ← sumColumn t "total"
  if total = 0 then none else do
    let a ← sumColumn t "fy_oy"
    let b ← sumColumn t "fy_on"
    let c ← sumColumn t "fn_oy"
    let d ← sumColumn t "fn_on"
    let r₁ ← pyDiv (a + b) total
    let r₂ ← pyDiv (c + d) total
    let dblC := r₁ * (a + c) + r₂ * (b + d)
    let q ← pyDiv (a + d - dblC) (total - dblC)
    some (roundHalfUp q PRECISION)

/-- metcalcpy/util/ctc_statistics.py:402-429 calculate_odds (computed from the *rounded* PODY and
POFD). -/
def ctcOdds (t : Table) : Option ℚ := do
  let pody ← ctcPody t
  let pofd ← ctcPofd t
  let q ← pyDiv (pody * (1 - pofd)) (pofd * (1 - pody))
  some (roundHalfUp q PRECISION)

/-- metcalcpy/util/ctc_statistics.py:771-782 pod_yes. -/
def podYes (t : Table) : Option ℚ := do
  let a ← sumColumn t "fy_oy"
  let c ← sumColumn t "fn_oy"
  let q ← pyDiv a (a + c)
  some (roundHalfUp q PRECISION)

/-- metcalcpy/util/ctc_statistics.py:785-796 pod_no. -/
def podNo (t : Table) : Option ℚ := do
  let d ← sumColumn t "fn_on"
  let b ← sumColumn t "fy_on"
  let q ← pyDiv d (d + b)
  some (roundHalfUp q PRECISION)

/-- metcalcpy/util/ctc_statistics.py:799-824 calculate_odds1. -/
def ctcOdds1 (t : Table) : Option ℚ := do
  let py ← podYes t
  let pn ← ctcPofd t
  let num ← pyDiv py (1 - py)
  let den ← pyDiv pn (1 - pn)
  let q ← pyDiv num den
  some (roundHalfUp q PRECISION)

/-- metcalcpy/util/ctc_statistics.py:827-854 calculate_orss. -/
def ctcOrss (t : Table) : Option ℚ := do
  let a ← sumColumn t "fy_oy"
  let d ← sumColumn t "fn_on"
  let b ← sumColumn t "fy_on"
  let c ← sumColumn t "fn_oy"
  let q ← pyDiv (a * d - b * c) (a * d + b * c)
  some (roundHalfUp q PRECISION)

/-- metcalcpy/util/ctc_statistics.py:593-692 calculate_ctc_total, calculate_cts_total,
calculate_ctc_fn_on, calculate_ctc_fn_oy, calculate_ctc_fy_on, calculate_ctc_fy_oy: the rounded sum
of one column.  A missing sum makes `round_half_up(None)` raise an unhandled TypeError. -/
def ctcCount (t : Table) (name : String) : Except PyErr ℚ :=
  match sumColumn t name with
  | none => .error .typeError
  | some v => .ok (roundHalfUp v PRECISION)

/-- metcalcpy/util/ctc_statistics.py:695-768 calculate_ctc_oy / on / fy / fn: rounded sum of two
columns. -/
def ctcCount2 (t : Table) (name₁ name₂ : String) : Except PyErr ℚ :=
  match sumColumn t name₁, sumColumn t name₂ with
  | some v, some w => .ok (roundHalfUp (v + w) PRECISION)
  | _, _ => .error .typeError

/-- calculate_ctc_oy, lines 695-711. -/
def ctcOy (t : Table) : Except PyErr ℚ := ctcCount2 t "fy_oy" "fn_oy"
/-- calculate_ctc_on, lines 714-730. -/
def ctcOn (t : Table) : Except PyErr ℚ := ctcCount2 t "fy_on" "fn_on"
/-- calculate_ctc_fy, lines 733-749. -/
def ctcFy (t : Table) : Except PyErr ℚ := ctcCount2 t "fy_on" "fy_oy"
/-- calculate_ctc_fn, lines 752-768. -/
def ctcFn (t : Table) : Except PyErr ℚ := ctcCount2 t "fn_on" "fn_oy"

end Metcalcpy
