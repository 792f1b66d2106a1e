/-
metcalcpy/util/ctc_statistics.py:496-590  calculate_eclv, calculate_economic_value
metcalcpy/util/eclv_statistics.py         calculate_eclv
metcalcpy/agg_eclv.py                     AggEclv option handling and _calc_stats
-/
import Verif.Model.Ctc
import Mathlib.Data.List.Sort

namespace Metcalcpy

/-- The dictionary returned by calculate_economic_value (ctc_statistics.py:578-584). -/
structure EconValue where
  vmax : ℚ
  V : List ℚ
  F : ℚ
  H : ℚ
  cl : List ℚ
  s : ℚ
  n : ℚ
  deriving Repr

/-- metcalcpy/util/ctc_statistics.py:568-575, one cost/loss point.  `q₁ = s/(1-s)`, `q₂ = (1-s)/s`.
NumPy evaluates both vectors at every point, so a ratio 0 or 1 anywhere raises (RuntimeWarning). -/
def econPoint (f h s q₁ q₂ cl : ℚ) : Option ℚ := do
  let r₁ ← pyDiv (q₁ * (1 - cl)) cl
  let r₂ ← pyDiv (q₂ * cl) (1 - cl)
  let v₁ := (1 - f) - r₁ * (1 - h)
  let v₂ := h - r₂ * f
  some (if cl < s then v₁ else v₂)

/-- metcalcpy/util/ctc_statistics.py:530-590 calculate_economic_value.  The sort (line 566) is a stable
merge sort. -/
def economicValue (values : List ℚ) (costLossRatio : List ℚ) (addBaseRate : Bool) :
    Option EconValue :=
  match values with
  | [v₀, v₁, v₂, v₃] => do
    let n := v₀ + v₁ + v₂ + v₃
    let f ← pyDiv v₁ (v₁ + v₃)
    let h ← pyDiv v₀ (v₀ + v₂)
    let s ← pyDiv (v₀ + v₂) n
    let cl₀ := if addBaseRate then costLossRatio ++ [s] else costLossRatio
    let cl := cl₀.mergeSort (fun a b => decide (a ≤ b))
    let q₁ ← pyDiv s (1 - s)
    let q₂ ← pyDiv (1 - s) s
    let v ← cl.mapM (econPoint f h s q₁ q₂)
    some { vmax := roundHalfUp (h - f) PRECISION, V := v, F := roundHalfUp f PRECISION,
           H := roundHalfUp h PRECISION, cl := cl, s := roundHalfUp s PRECISION, n := n }
  | _ => none

/-- What Python's `round_half_up` does with a NumPy array of `k` elements: `math.floor` accepts only
arrays of length 1 (TypeError otherwise). -/
def roundHalfUpArray (v : List ℚ) : Except PyErr ℚ :=
  match v with
  | [x] => .ok (roundHalfUp x PRECISION)
  | _ => .error .typeError

/-- `np.arange(start=0.05, stop=1, step=0.05)` (ctc_statistics.py:514-515): 0.05, 0.10, ..., 0.95. -/
def eclvPoints : List ℚ := (List.range 19).map (fun i : ℕ => ((i : ℚ) + 1) / 20)

/-- metcalcpy/util/ctc_statistics.py:496-527 calculate_eclv: TypeErrors are handled and give `None`. -/
def ctcEclv (t : Table) : Option ℚ := do
  let a ← sumColumn t "fy_oy"
  let b ← sumColumn t "fy_on"
  let c ← sumColumn t "fn_oy"
  let d ← sumColumn t "fn_on"
  let e ← economicValue [a, b, c, d] eclvPoints false
  let v := ((e.cl.zip e.V).filter (fun p => p.1 ∈ eclvPoints)).map Prod.snd
  match roundHalfUpArray v with
  | .ok x => some x
  | .error _ => none

/-- Sum of the cells of column `name` over the rows whose `thresh_i` cell satisfies `p`
(`np.nansum(input_data[:, index][mask])`, eclv_statistics.py:65-74). -/
def maskedSum (t : Table) (p : ℚ → Bool) (name : String) : Option ℚ := do
  let th ← columnData t "thresh_i"
  let col ← columnData t name
  some (((th.zip col).filter (fun x => x.1.any p)).filterMap Prod.snd).sum

/-- metcalcpy/util/eclv_statistics.py:24-85 calculate_eclv.
`hasNpFloat` says whether the installed NumPy still has the attribute `np.float` used in lines 71-74
(it was removed in 1.24; requirements.txt pins numpy==1.24.2).  An AttributeError is not handled. -/
def eclvStat (hasNpFloat : Bool) (t : Table) (thresh : Option ℚ) (lineType : String)
    (clPts : List ℚ) (addBaseRate : ℤ) : Except PyErr (Option EconValue) :=
  if lineType ≠ "ctc" ∧ lineType ≠ "pct" then .ok none
  else if lineType = "pct" ∧ thresh = none then .ok none
  else if lineType = "pct" then
    if hasNpFloat then
      .ok (do
        let th ← thresh
        let n11 ← maskedSum t (fun x => decide (th < x)) "oy_i"
        let n10 ← maskedSum t (fun x => decide (th < x)) "on_i"
        let n01 ← maskedSum t (fun x => decide (x ≤ th)) "oy_i"
        let n00 ← maskedSum t (fun x => decide (x ≤ th)) "on_i"
        economicValue [n11, n10, n01, n00] clPts (addBaseRate = 1))
    else .error .attributeError
  else
    .ok (do
      let n11 ← sumColumn t "fy_oy"
      let n10 ← sumColumn t "fy_on"
      let n01 ← sumColumn t "fn_oy"
      let n00 ← sumColumn t "fn_on"
      economicValue [n11, n10, n01, n00] clPts (addBaseRate = 1))

/-- metcalcpy/agg_eclv.py:84-89, AggEclv.__init__: the stored option, for an optional parameter. -/
def aggEclvAddBaseRate (param : Option ℤ) : ℤ :=
  let a := param.getD 0
  if a ≠ 0 ∨ a ≠ 1 then 0 else a

/-- metcalcpy/agg_eclv.py:117-121, the single-value case of AggEclv._calc_stats. -/
def aggEclvCalc (hasNpFloat : Bool) (param : Option ℤ) (t : Table) (thresh : Option ℚ)
    (lineType : String) (steps : List ℚ) : Except PyErr (Option EconValue) :=
  eclvStat hasNpFloat t thresh lineType steps (aggEclvAddBaseRate param)

end Metcalcpy
