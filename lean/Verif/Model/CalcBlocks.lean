/-
metcalcpy/contributed/blocking_weather_regime/Blocking.py: blocks from grouped blocked longitudes (run_Calc_Blocks).
Years and days are the first two axes of the array, longitudes the third.
-/
import Verif.Model.Blocking
import Verif.Model.Mcts

namespace Metcalcpy

/-! ### 199-221: counting blocked longitudes -/

/-- Blocking.py:212-214: indices of 360 and more are reduced once. -/
def wrap360 (p : ℕ) : ℕ := if 360 ≤ p then p - 360 else p

/-- Blocking.py:216-223: the loop over the blocked longitudes and their copies 360 further on. -/
def countLoop (c : List ℕ) (ct prev : ℕ) : List ℕ → List ℕ
  | [] => c
  | q :: rest => countLoop (c.set (wrap360 prev) ct) (if q = prev + 1 then ct + 1 else 1) q rest

/-- Blocking.py:205-223: the counts of one day (`sz` is not used). -/
def runCounts (a : List ℚ) : List ℕ :=
  let zeros := List.replicate a.length 0
  match onesOf a with
  | [] => zeros
  | f :: more => countLoop zeros 1 f (more ++ (f :: more).map (· + 360))

/-! ### 225-236: ends and starts of the runs -/

/-- Blocking.py:228 `argrelextrema(c, np.greater, mode='wrap')`: indices whose value exceeds both neighbours on the circle. -/
def localMaxima (c : List ℕ) : List ℕ :=
  (List.range c.length).filter fun j =>
    decide (c.getD ((j + 1) % c.length) 0 < c.getD j 0 ∧ c.getD ((j + c.length - 1) % c.length) 0 < c.getD j 0)

/-- Blocking.py:229-233: indices with count 1, the last one first when the first and the last longitude are blocked.
Simplification: there are as many longitudes as columns (`lonlen`). -/
def runStarts (c : List ℕ) : Except PyErr (List ℕ) :=
  let mini := (List.range c.length).filter fun j => c.getD j 0 = 1
  if c.getD (c.length - 1) 0 ≠ 0 ∧ c.getD 0 0 ≠ 0 then
    match mini.getLast? with
    | none => .error .indexError
    | some m => .ok (m :: mini.dropLast)
  else .ok mini

/-! ### 238-273: one row of longitudes for every group -/

/-- One day of the array with its position. -/
structure GiblDay where
  year : ℕ
  day : ℕ
  row : List ℚ
  deriving DecidableEq, Repr

/-- The days of the array in storage order, as visited by the loops (205-206, 226-227) and by `np.where` (238). -/
def giblDays (g : List (List (List ℚ))) : List GiblDay :=
  g.zipIdx.flatMap fun p => p.1.zipIdx.map fun q => ⟨p.2, q.2, q.1⟩

/-- Blocking.py:238 `np.where(c==crit)`: the day of every hit (the longitude is not used). -/
def critDays (crit : ℤ) (days : List GiblDay) : List GiblDay :=
  days.flatMap fun d =>
    ((List.range d.row.length).filter fun j => ((runCounts d.row).getD j 0 : ℤ) = crit).map fun _ => d

/-- `np.arange(lo, hi, 1)` of integers. -/
def intRange (lo hi : ℤ) : List ℤ := (List.range (hi - lo).toNat).map fun k : ℕ => lo + (k : ℤ)

/-- `np.arange(lo, n, 1).astype(int)` for a number `lo`. -/
def truncRange (lo : ℚ) (n : ℕ) : List ℤ := (List.range (⌈(n : ℚ) - lo⌉).toNat).map fun k : ℕ => truncInt (lo + (k : ℚ))

/-- Blocking.py:250-268: the indices of one group; `prev` is the variable `bl` of the previous pass. -/
def groupLons (lon : List ℚ) (a : List ℚ) (mm mn : ℕ) (prev : Option (List ℤ)) : Except PyErr (Option (List ℤ)) := do
  let count := (runCounts a).getD mm 0
  let beg : ℤ := (mm : ℤ) - (count : ℤ) + 1
  let bl ← if mm < mn then do
      let k ← pyIndex lon.length beg
      .ok (some (intRange 0 (mm + 1) ++ truncRange (lon.getD k 0) lon.length))
    else .ok prev
  let bl := if a.getD (lon.length - 1) 0 = 1 ∧ 200 < mm then some (intRange beg (mm + 1)) else bl
  .ok (if mn < mm then some (intRange beg (mm + 1)) else bl)

/-- Blocking.py:249 and 269: a row of zeros with ones at the given indices (negative ones count from the end). -/
def markOnes (n : ℕ) (idx : List ℤ) : Except PyErr (List ℚ) := do
  let is ← idx.mapM (pyIndex n)
  .ok ((List.range n).map fun j => if j ∈ is then 1 else 0)

/-- Blocking.py:245-273: the loop; the k-th hit takes the k-th end and the k-th start. -/
def splitLoop (lon : List ℚ) : Option (List ℤ) → List GiblDay → List ℕ → List ℕ → Except PyErr (List GiblDay)
  | _, [], _, _ => .ok []
  | prev, d :: ds, mm :: mx, mn :: mi => do
    let bl ← groupLons lon d.row mm mn prev
    match bl with
    | none => .error .unboundLocalError
    | some idx => do
      let row ← markOnes lon.length idx
      let rest ← splitLoop lon (some idx) ds mx mi
      .ok ({ d with row := row } :: rest)
  | _, _ :: _, _, _ => .error .indexError

/-- Blocking.py:194-273: the groups of all days. -/
def splitGroups (crit : ℤ) (lon : List ℚ) (g : List (List (List ℚ))) : Except PyErr (List GiblDay) := do
  let days := giblDays g
  let starts ← days.mapM fun d => runStarts (runCounts d.row)
  splitLoop lon none (critDays crit days) (days.flatMap fun d => localMaxima (runCounts d.row)) starts.flatten

/-! ### 275-309: isolated groups, centres -/

/-- Blocking.py:281-298: `seen` is `ct != 0`. -/
def closeLoop (seen : Bool) (prev : GiblDay) : List GiblDay → List GiblDay
  | [] => []
  | e :: es =>
    if (e.day : ℤ) - prev.day > 2 then closeLoop false e es
    else (if seen then [] else [prev]) ++ e :: closeLoop true e es

/-- Blocking.py:275-300: without any group 278 raises IndexError; when nothing is left, `dd` is still the empty Python list
and 314 raises TypeError. -/
def closeGroups (ev : List GiblDay) : Except PyErr (List GiblDay) :=
  match ev with
  | [] => .error .indexError
  | e :: es => match closeLoop false e es with
    | [] => .error .typeError
    | k => .ok k

/-- Blocking.py:303-309: the centre of one row: the median of the indices, of an even number of them with a 0 added. -/
def groupCentre (row : List ℚ) : ℕ :=
  let ones := onesOf row
  let temp := if ones.length % 2 = 0 then ones ++ [0] else ones
  (temp.insertionSort (· ≤ ·)).getD (temp.length / 2) 0

/-! ### 311-383: tracking -/

/-- The group at position `p`. -/
def groupAt (ev : List GiblDay) (p : ℕ) : GiblDay := ev.getD p ⟨0, 0, []⟩

/-- Blocking.py:358-360: in how many longitudes two rows are both 1 (their sum is 2). -/
def overlapCount (r s : List ℚ) : ℕ := ((List.zipWith (· + ·) r s).filter fun x => decide (x = 2)).length

/-- Blocking.py:333-340: days up to the first gap of more than two days, including the day after it. -/
def segDays (last : ℤ) (prev : ℤ) : List ℤ → List ℤ
  | [] => []
  | d :: ds => d :: (if d = last ∨ 2 < d - prev then [] else segDays last d ds)

/-- Blocking.py:356-368: the groups that continue the one at `cur`, in order. -/
def chainLoop (ev : List GiblDay) (overlap : ℤ) (cur : ℕ) : List ℕ → List ℕ
  | [] => []
  | q :: rest =>
    let gap : ℤ := ((groupAt ev q).day : ℤ) - (groupAt ev cur).day
    let n : ℕ := if 1 ≤ gap ∧ gap ≤ 2 then overlapCount (groupAt ev cur).row (groupAt ev q).row else 0
    if overlap < (n : ℤ) then q :: chainLoop ev overlap q rest else chainLoop ev overlap cur rest

/-- Positions of the groups of a year (319). -/
def yearGroups (ev : List GiblDay) (y : ℕ) : List ℕ := (List.range ev.length).filter fun p => (groupAt ev p).year = y

/-- Blocking.py:324-383: one pass; `st` are the used positions (`noloc`) and the blocks found (`finloc`).  `ddil` are the days of
the groups of the year not yet used (322, 377, 383).  The list `failloc` is not returned and left out.  Assumption: NumPy before
2.1, where `np.where` of a single `False` (361 with `add` still 0) is empty. -/
def trackStep (overlap btime : ℤ) (ev : List GiblDay) (y : ℕ) (st : List ℕ × List (List ℕ)) :
    Except PyErr (List ℕ × List (List ℕ)) :=
  let ddil : List ℤ := ((yearGroups ev y).filter fun p => p ∉ st.1).map fun p => ((groupAt ev p).day : ℤ)
  if (ddil.length : ℤ) < btime then .ok st
  else match ddil with
    | [] => .error .indexError
    | d0 :: ds =>
      let days := (segDays ((d0 :: ds).getLastD d0) (d0 - 1) (d0 :: ds)).eraseDups
      let locb := (days.flatMap fun l => (yearGroups ev y).filter fun p => ((groupAt ev p).day : ℤ) = l).filter
        fun p => p ∉ st.1
      match locb with
      | [] => .error .indexError
      | p :: rest =>
        let chain := p :: chainLoop ev overlap p rest
        .ok (st.1 ++ chain, if 4 < chain.length then st.2 ++ [chain] else st.2)

/-- Blocking.py:318-383: as many passes as the year has groups. -/
def trackYear (overlap btime : ℤ) (ev : List GiblDay) (st : List ℕ × List (List ℕ)) (y : ℕ) :
    Except PyErr (List ℕ × List (List ℕ)) :=
  (List.range (yearGroups ev y).length).foldlM (fun st _ => trackStep overlap btime ev y st) st

/-- Blocking.py:311-385: the blocks, as lists of positions. -/
def trackAll (overlap btime : ℤ) (ev : List GiblDay) (years : ℕ) : Except PyErr (List (List ℕ)) := do
  let st ← (List.range years).foldlM (trackYear overlap btime ev) ([], [])
  .ok st.2

/-! ### 388-426: limit of travel, result -/

/-- Blocking.py:393-405: a block up to the first group whose centre is too far from that of its first group. -/
def cutBlock (travel : ℤ) (ev : List GiblDay) (bb : List ℕ) : Option (List ℕ) :=
  let start : ℤ := groupCentre (groupAt ev (bb.headD 0)).row
  match bb.findIdx? fun p => decide (travel < |start - (groupCentre (groupAt ev p).row : ℤ)|) with
  | none => some bb
  | some k => if 4 < (bb.take k).length then some (bb.take k) else none

/-- Blocking.py:417-425: one group added to the result; rows of other than 360 longitudes cannot be added
(a single longitude, which NumPy would repeat, included). -/
def addGroup (f : List (List (List ℚ))) (e : GiblDay) : Except PyErr (List (List (List ℚ))) :=
  if f.length ≤ e.year then .error .indexError
  else if (f.getD e.year []).length ≤ e.day then .error .indexError
  else if e.row.length ≠ 360 then .error .valueError
  else .ok (f.modify e.year fun yr => yr.modify e.day fun r => List.zipWith (· + ·) r e.row)

/-- Blocking.py:194-426 run_Calc_Blocks with IBL_IN_GIBL `crit`, GIBL_OVERLAP, BLOCK_TIME and BLOCK_TRAVEL; of `ibl` only the
number of years and days is used. -/
def calcBlocks (crit overlap btime travel : ℤ) (iblYears iblDays : ℕ) (g : List (List (List ℚ))) (lon : List ℚ) :
    Except PyErr (List (List (List ℚ))) := do
  let groups ← splitGroups crit lon g
  let ev ← closeGroups groups
  let blocks ← trackAll overlap btime ev g.length
  let kept := blocks.filterMap (cutBlock travel ev)
  (kept.flatten.map (groupAt ev)).foldlM addGroup
    (List.replicate iblYears (List.replicate iblDays (List.replicate 360 0)))

end Metcalcpy
