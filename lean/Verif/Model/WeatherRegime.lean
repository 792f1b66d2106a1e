/-
metcalcpy/contributed/blocking_weather_regime/WeatherRegime.py and Blocking_WeatherRegime_util.py: ordering of the regimes
(run_K_means), reordering of forecast regimes, regime frequencies, removal of the mean (weights_detrend) and the elbow.
The clustering itself (sklearn) is not modelled: its labels, centres and inertias are inputs.
-/
import Verif.Model.Base
import Mathlib.Data.Real.Sqrt

namespace Metcalcpy

/-! ### run_K_means -/

/-- The three outputs of run_K_means that depend on the clustering: centres, fractions, labels. -/
structure Regimes (α : Type) where
  centers : List α
  perc : List ℚ
  labels : List ℕ

/-- WeatherRegime.py:38-39 get_cluster_fraction. -/
def clusterFraction (labels : List ℕ) (label : ℕ) : ℚ := (labels.count label : ℚ) / labels.length

/-- WeatherRegime.py:176-178: the new label of a day with cluster `w`; the loop overwrites the copy of the labels wherever
the original label is `ii[i]`. -/
def relabelDay (ii : List ℕ) (wrnum : ℕ) (w : ℕ) : ℕ :=
  (List.range wrnum).foldl (fun c i => if ii[i]? = some w then i + 1 else c) w

/-- WeatherRegime.py:160-183: from the clusters of `sklearn` (a label below `wrnum` for every day, one centre per cluster) to
the output.  `argsort` stands for `np.argsort` (line 165), whose order of equal values is not specified. -/
def orderRegimes {α : Type} [Inhabited α] (argsort : List ℚ → List ℕ) (wrnum : ℕ) (labels : List ℕ) (centers : List α) :
    Regimes α :=
  let perc := (List.range wrnum).map (clusterFraction labels)
  let ii := argsort perc
  let perc' := ii.map fun i => perc.getD i 0
  let input := ii.map fun i => centers.getD i default
  let ii' := ii.reverse
  { centers := input.reverse
    perc := perc'.reverse
    labels := labels.map (relabelDay ii' wrnum) }

/-! ### Reordering of forecast regimes -/

/-- Blocking_WeatherRegime_util.py:144: whether the label `w` is the number at position `k` of the order. -/
def isOrderLabel (order : List ℕ) (w : ℚ) (k : ℕ) : Bool :=
  match order[k]? with
  | some o => (o : ℚ) == w
  | none => false

/-- Blocking_WeatherRegime_util.py:144-145: the new label of a day; `init` is what `np.empty` (140) happened to contain. -/
def reorderDay (order : List ℕ) (wrnum : ℕ) (init w : ℚ) : ℚ :=
  (List.range wrnum).foldl (fun c k => if isOrderLabel order w k = true then (k : ℚ) + 1 else c) init

/-- `xs[i]` for an index from 0 on. -/
def elemE {α : Type} (xs : List α) (i : ℕ) : Except PyErr α :=
  match xs[i]? with
  | some x => .ok x
  | none => .error .indexError

/-- Blocking_WeatherRegime_util.py:134-147 reorder_fcst_regimes, for an order of numbers from 1 on.  Days are given as pairs
of the uninitialised content of the new array and the old label. -/
def reorderRegimes {α : Type} (kmeans : List α) (perc : List ℚ) (days : List (ℚ × ℚ)) (wrnum : ℕ) (order : List ℕ) :
    Except PyErr (List α × List ℚ × List ℚ) := do
  let out ← (List.range wrnum).mapM fun k => do
    let o ← elemE order k
    let p ← elemE perc (o - 1)
    let c ← elemE kmeans (o - 1)
    return (c, p)
  return (out.map Prod.fst, out.map Prod.snd, days.map fun d => reorderDay order wrnum d.1 d.2)

/-- `ndarray.argmax`: the first position of the largest value. -/
def argmaxQ : List ℚ → ℕ
  | [] => 0
  | x :: xs => (xs.foldl (fun (s : ℕ × ℕ × ℚ) y => if s.2.2 < y then (s.1 + 1, s.1 + 1, y) else (s.1 + 1, s.2.1, s.2.2)) (0, 0, x)).2.1

/-- Blocking_WeatherRegime_util.py:150-166 reorder_fcst_regimes_correlate; `corr` is the correlation of two patterns
(`stats.pearsonr`), assumed to be a number. -/
def reorderCorrelate {α : Type} (corr : α → α → ℚ) (obs fcst : List α) (perc : List ℚ) (days : List (ℚ × ℚ)) (wrnum : ℕ) :
    Except PyErr (List α × List ℚ × List ℚ) := do
  let order ← (List.range wrnum).mapM fun k => do
    let o ← elemE obs k
    let cs ← (List.range wrnum).mapM fun j => do
      let f ← elemE fcst j
      return corr o f
    return argmaxQ cs + 1
  reorderRegimes fcst perc days wrnum order

/-! ### compute_wr_freq -/

/-- WeatherRegime.py:262-267: the number of days of regime `ww + 1` in the window starting at day `dd`. -/
def regimeCount (tstep : ℕ) (year : List ℕ) (ww dd : ℕ) : ℕ := ((year.drop dd).take tstep).count (ww + 1)

/-- WeatherRegime.py:255-270 compute_wr_freq for one year: for every regime the counts of all windows.  A year shorter than
the window by two days or more gives a negative dimension (ValueError, 258). -/
def wrFreq (wrnum tstep : ℕ) (year : List ℕ) : Except PyErr (List (List ℕ)) :=
  if year.length + 1 < tstep then .error .valueError
  else .ok ((List.range wrnum).map fun ww => (List.range (year.length + 1 - tstep)).map (regimeCount tstep year ww))

/-! ### weights_detrend -/

/-- `np.nanmean`. -/
def nanMean (xs : List Cell) : Cell :=
  let ys := xs.filterMap id
  if ys.length = 0 then none else some (ys.sum / ys.length)

/-- WeatherRegime.py:55-58, one day of the year at one grid point, over the years: line 57 detrends an array of zeros, line 58
replaces it by the weighted deviation from the mean. -/
def weightsDetrend (weight : ℚ) (xs : List Cell) : List Cell :=
  xs.map fun x =>
    match x, nanMean xs with
    | some v, some m => some ((v - m) * weight)
    | _, _ => none

/-! ### run_elbow -/

/-- WeatherRegime.py:87-98: the signed distance of point `i` of the curve from the chord; `curve` are the inertias for
1, 2, ... clusters, scaled by 10^-10 (87). -/
noncomputable def elbowDist (sums : List ℝ) (i : ℕ) : ℝ :=
  let curve := sums.map (· * (1 / 10 ^ 10))
  let n := sums.length
  let x2 : ℝ := ((n : ℝ) - 1)
  let y2 := curve.getD (n - 1) 0 - curve.getD 0 0
  let x3 : ℝ := (i : ℝ)
  let y3 := curve.getD i 0 - curve.getD 0 0
  (x2 * y3 - y2 * x3) / Real.sqrt (x2 ^ 2 + y2 ^ 2)

open Classical in
/-- WeatherRegime.py:69-102, the returned positions `mi` (the printed optimum is one more): all positions of the smallest
distance. -/
noncomputable def elbow (sums : List ℝ) : List ℕ :=
  (List.range sums.length).filter fun i => ∀ k < sums.length, elbowDist sums i ≤ elbowDist sums k

end Metcalcpy
