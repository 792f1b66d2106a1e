/-
metcalcpy/contributed/blocking_weather_regime/Blocking.py: smoothing of the central blocking latitude (run_CBL),
instantaneous blocking at one longitude (run_mod_blocking1d) and grouping of blocked longitudes (run_Calc_GIBL).
-/
import Verif.Model.Base

namespace Metcalcpy

/-! ### run_CBL, 66-74: moving average along the latitude circle -/

/-- `astype(int)` of a number: towards zero. -/
def truncInt (q : ℚ) : ℤ := if 0 ≤ q then ⌊q⌋ else ⌈q⌉

/-- Blocking.py:72-74: one entry of an index array into an axis of length `n`: 73 reduces indices of `n` and more once,
negative ones count from the end, all others are rejected. -/
def circleIndex (n : ℕ) (j : ℤ) : Except PyErr ℕ :=
  let j := if (n : ℤ) ≤ j then j - n else j
  if 0 ≤ j ∧ j < n then .ok j.toNat
  else if -(n : ℤ) ≤ j ∧ j < 0 then .ok (j + n).toNat
  else .error .indexError

/-- Blocking.py:70-74: the smoothed profile of one year at longitude `i`; `pts` is SMOOTHING_PTS (odd, checked at 40-42).
Simplification: latitudes are never missing. -/
def cblSmooth (pts : ℕ) (row : List ℚ) (i : ℕ) : Except PyErr ℤ := do
  let m := (pts - 1) / 2
  let idx ← ((List.range (2 * m + 1)).map fun k : ℕ => (i : ℤ) - m + k).mapM (circleIndex row.length)
  return truncInt ((idx.map fun j => row.getD j 0).sum / idx.length)

/-! ### run_mod_blocking1d, 79-110 -/

/-- The start or end of a slice as an index into an axis of length `n`. -/
def sliceIndex (n : ℕ) (j : ℤ) : ℕ := if j < 0 then (j + n).toNat else min j.toNat n

/-- `a[lo:hi]`. -/
def pySlice {α : Type} (a : List α) (lo hi : ℤ) : List α :=
  (a.take (sliceIndex a.length hi)).drop (sliceIndex a.length lo)

/-- `np.mean`: NaN for an empty array or when a value is missing. -/
def npMean (xs : List Cell) : Cell :=
  match xs.mapM id with
  | some ys => if ys.length = 0 then none else some (ys.sum / ys.length)
  | none => none

/-- Blocking.py:93-101: the difference of the mean heights north and south of the central latitude moved by `l`, for one day
and one longitude; `col` are the heights from north to south. -/
def blockDiff (col : List Cell) (cbl : ℚ) (db l : ℤ) : Cell :=
  let dc : ℤ := truncInt (90 - cbl)
  let d0 : ℤ := dc - l
  let dn : ℤ := truncInt ((dc - (db : ℚ) / 2) - l)
  let ds : ℤ := truncInt ((dc + (db : ℚ) / 2) - l)
  match npMean (pySlice col dn (d0 + 1)), npMean (pySlice col d0 (ds + 1)) with
  | some n, some s => some (n - s)
  | _, _ => none

/-- `np.max` along the offsets: NaN when one is missing, a ValueError for none. -/
def npMaxCells : List Cell → Except PyErr Cell
  | [] => .error .valueError
  | x :: xs => .ok (xs.foldl (fun m y => match m, y with
      | some a, some b => some (max a b)
      | _, _ => none) x)

/-- Blocking.py:79-110: the blocking index of one day and one longitude and whether it is blocked (104-105). -/
def blocking1d (meth : String) (col : List Cell) (cbl : ℚ) (db : ℤ) (deltas : List ℤ) : Except PyErr (Cell × ℚ) :=
  if meth = "PH" then do
    let bi ← npMaxCells (deltas.map (blockDiff col cbl db))
    return (bi, match bi with
      | some b => if 0 < b then 1 else 0
      | none => 0)
  else .ok (some 0, 0)

/-! ### run_Calc_GIBL, 132-183 -/

/-- The variables of the loop 158-173. -/
structure GiblState where
  ct : ℤ
  btlon : List ℕ
  btfin : List ℕ
  deriving DecidableEq, Repr

/-- `np.arange(lo, hi, 1)`. -/
def arange (lo hi : ℕ) : List ℕ := (List.range (hi - lo)).map (lo + ·)

/-- Blocking.py:159-173: one pass. -/
def giblStep (crit : ℤ) (last : Bool) (s : GiblState) (prev cur : ℕ) : GiblState :=
  let thresh : ℚ := (crit : ℚ) / 2
  let diff : ℕ := ((cur : ℤ) - prev).natAbs
  let s := if diff = 1 then { s with btlon := s.btlon ++ [cur], ct := s.ct + diff } else s
  let s := if (diff : ℚ) ≤ thresh ∧ diff ≠ 1 then
      { s with btlon := s.btlon ++ arange (prev + 1) (cur + 1), ct := s.ct + diff } else s
  if thresh < (diff : ℚ) ∨ last = true then
    { ct := 1, btlon := [cur], btfin := if crit ≤ s.ct then s.btfin ++ s.btlon else s.btfin }
  else s

/-- Blocking.py:158-173: the loop over the consecutive entries. -/
def giblLoop (crit : ℤ) : GiblState → ℕ → List ℕ → GiblState
  | s, _, [] => s
  | s, prev, cur :: rest => giblLoop crit (giblStep crit rest.isEmpty s prev cur) cur rest

/-- Blocking.py:148 `np.where(a==1)[0]`. -/
def onesOf (a : List ℚ) : List ℕ := (List.range a.length).filter fun i => a.getD i 0 = 1

/-- Blocking.py:143-181: the grouped blocking of one day.  `dist` is the option IBL_DIST: it is read (147) and not used. -/
def giblRow (crit _dist : ℤ) (a : List ℚ) : Except PyErr (List ℚ) :=
  let zeros := (List.range a.length).map fun _ => (0 : ℚ)
  match onesOf a with
  | [] => .ok zeros
  | first :: more =>
    let s := giblLoop crit ⟨1, [first], []⟩ first (more ++ (first :: more).map (· + 360))
    let btfin := if ((s.btfin.length : ℚ) / 2 < (crit : ℚ)) then [] else s.btfin
    if btfin.length = 0 then .ok zeros
    else
      let gibl1 := btfin.map fun x => if 360 ≤ x then x - 360 else x
      if gibl1.any fun x => a.length ≤ x then .error .indexError
      else .ok ((List.range a.length).map fun j => if j ∈ gibl1 then 1 else 0)

/-- Blocking.py:141-183 run_Calc_GIBL: all years and days. -/
def calcGibl (crit dist : ℤ) (ibl : List (List (List ℚ))) : Except PyErr (List (List (List ℚ))) :=
  ibl.mapM fun year => year.mapM (giblRow crit dist)

end Metcalcpy
