/-
Specification of the groups and blocks of run_Calc_Blocks.
-/
import Verif.Spec.Blocking

namespace Metcalcpy.Spec

/-- `n` blocked longitudes in a row around the circle, the first one `s`, which cannot be extended on either side. -/
structure IsRun (a : List ℚ) (s n : ℕ) : Prop where
  pos : 1 ≤ n
  start : s < 360
  blocked : ∀ k < n, BlockedAt a ((s : ℤ) + k)
  before : ¬ BlockedAt a ((s : ℤ) - 1)
  after : ¬ BlockedAt a ((s : ℤ) + n)

/-- The row of 360 longitudes with ones at the `n` longitudes from `s` on, read around the circle. -/
def runRow (s n : ℕ) : List ℚ := (List.range 360).map fun j => if (j + 360 - s) % 360 < n then 1 else 0

/-- `a` is the row of day `d` of year `y`. -/
def DayAt (g : List (List (List ℚ))) (y d : ℕ) (a : List ℚ) : Prop := ∃ yr, g[y]? = some yr ∧ yr[d]? = some a

/-- The longitudes 0, 1, ..., 359. -/
def degrees : List ℚ := (List.range 360).map fun j : ℕ => (j : ℚ)

/-- A day of 360 longitudes, not all of them blocked, whose runs have at least `crit` longitudes. -/
structure GoodDay (crit : ℕ) (a : List ℚ) : Prop where
  length : a.length = 360
  free : ∃ z, ¬ BlockedAt a z
  long : ∀ s n, IsRun a s n → crit ≤ n

/-- A group of blocked longitudes on one day. -/
structure RunGroup where
  year : ℕ
  day : ℕ
  start : ℕ
  len : ℕ
  deriving DecidableEq

/-- Longitude `l` belongs to the group. -/
def RunGroup.covers (G : RunGroup) (l : ℕ) : Prop := (l + 360 - G.start) % 360 < G.len

instance (G : RunGroup) (l : ℕ) : Decidable (G.covers l) := by unfold RunGroup.covers; infer_instance

/-- Number of longitudes two groups have in common. -/
def commonLons (G H : RunGroup) : ℕ := ((List.range 360).filter fun l => decide (G.covers l ∧ H.covers l)).length

/-- The group does not go over longitude 0. -/
def RunGroup.inside (G : RunGroup) : Prop := G.start + G.len ≤ 360

/-- The middle longitude of a group that does not go over longitude 0 (the lower one of two). -/
def RunGroup.middle (G : RunGroup) : ℤ := (G.start : ℤ) + ((G.len - 1) / 2 : ℕ)

/-- The group is a run of blocked longitudes of its day. -/
def RunGroup.In (G : RunGroup) (g : List (List (List ℚ))) : Prop :=
  ∃ a, DayAt g G.year G.day a ∧ IsRun a G.start G.len

/-- A block: at least five groups, one or two days apart, each having more than `overlap` longitudes in common with the next one,
with middle longitudes at most `travel` from that of the first group. -/
structure IsBlock (g : List (List (List ℚ))) (overlap travel : ℤ) (B : List RunGroup) : Prop where
  five : 5 ≤ B.length
  groups : ∀ G ∈ B, G.In g
  steps : B.IsChain fun G H => H.year = G.year ∧ G.day < H.day ∧ H.day ≤ G.day + 2 ∧ overlap < commonLons G H
  travel : ∀ F G, B.head? = some F → G ∈ B → F.inside → G.inside → |F.middle - G.middle| ≤ travel

/-- Entry of a three-dimensional array. -/
def entry3 (f : List (List (List ℚ))) (y d l : ℕ) : ℚ := ((f.getD y []).getD d []).getD l 0

/-- `Y` years of `D` days of 360 entries. -/
def Rows360 (Y D : ℕ) (f : List (List (List ℚ))) : Prop :=
  f.length = Y ∧ ∀ y < Y, (f.getD y []).length = D ∧ ∀ d < D, ((f.getD y []).getD d []).length = 360

end Metcalcpy.Spec
