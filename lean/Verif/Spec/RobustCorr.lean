/-
Medians and robust correlations as a reader of the documentation understands them.
-/
import Verif.Model.Tost
import Mathlib.Data.List.Basic
import Mathlib.Data.Rat.Floor
import Mathlib.Analysis.SpecialFunctions.Sqrt

namespace Metcalcpy.Spec

/-- `m` is the median of `l`: the mean of the two middle elements of the sorted list (which are the same element
when the length is odd). -/
def IsMedian (l : List ℚ) (m : ℚ) : Prop :=
  ∃ s : List ℚ, s.Perm l ∧ s.Pairwise (· ≤ ·) ∧
    ∃ a b, s[(l.length - 1) / 2]? = some a ∧ s[l.length / 2]? = some b ∧ m = (a + b) / 2

/-- `d` is the median absolute deviation of `l` from its median `m`. -/
def IsMedMad (l : List ℚ) (m d : ℚ) : Prop := IsMedian l m ∧ IsMedian (l.map (fun v => |v - m|)) d

/-- Tukey's biweight with tuning constant `c`: values `c` deviations or more away from the median do not count. -/
def biweight (c m d v : ℚ) : ℚ :=
  if |v - m| < c * d then (v - m) * (1 - ((v - m) / (c * d)) ^ 2) ^ 2 else 0

/-- `Σ f g / √(Σ f² · Σ g²)` over the cases. -/
noncomputable def cosine (f g : ℚ → ℚ) (ps : List (ℚ × ℚ)) : ℝ :=
  ((ps.map (fun p => f p.1 * g p.2)).sum : ℚ) /
    √((((ps.map (fun p => f p.1 ^ 2)).sum * (ps.map (fun p => g p.2 ^ 2)).sum : ℚ)) : ℝ)

/-- The first and the second values of the cases. -/
def firsts (ps : List (ℚ × ℚ)) : List ℚ := ps.map Prod.fst
def seconds (ps : List (ℚ × ℚ)) : List ℚ := ps.map Prod.snd

/-- What is used about a distribution function: values between 0 and 1, increasing, symmetric. -/
structure IsDist (D : TDist) (df : ℝ) : Prop where
  le_one : ∀ x, D.cdf x df ≤ 1
  mono : ∀ x y, x < y → D.cdf x df < D.cdf y df
  symm : ∀ x, D.cdf (-x) df = 1 - D.cdf x df

/-- `ω` is the bending scale of `l` with median `m`: the `⌊(1 - β) n⌋`-th smallest deviation from the median (the largest
one when that number is 0). -/
def IsBendScale (β : ℚ) (l : List ℚ) (m ω : ℚ) : Prop :=
  IsMedian l m ∧ ∃ s : List ℚ, s.Perm (l.map (fun v => |v - m|)) ∧ s.Pairwise (· ≤ ·) ∧
    ∃ k : ℕ, s[k]? = some ω ∧
      (((k : ℚ) + 1 ≤ (1 - β) * l.length ∧ (1 - β) * l.length < (k : ℚ) + 2) ∨
        ((1 - β) * l.length < 1 ∧ k + 1 = l.length))

/-- The percentage bend measure of location: the mean of the values within `ω` of the median, moved by `ω` for every
value above and below that range. -/
def bendLocation (m ω : ℚ) (l : List ℚ) : ℚ :=
  let inside := l.filter (fun v => |v - m| ≤ ω)
  (inside.sum + ω * ((l.countP (fun v => m + ω < v) : ℚ) - l.countP (fun v => v < m - ω))) / inside.length

/-- A standardized value, cut off at -1 and 1. -/
def bent (ω φ v : ℚ) : ℚ := max (-1) (min 1 ((v - φ) / ω))

end Metcalcpy.Spec
