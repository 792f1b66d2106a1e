/-
metcalcpy/util/tost_paired.py and metcalcpy/util/utils.py:1101-1270 (paired equivalence test).
-/
import Verif.Model.Base
import Verif.Model.Round
import Mathlib.Analysis.SpecialFunctions.Sqrt

namespace Metcalcpy
open Classical

/-- The functions of scipy's t-distribution used by `pt` and `qt`; second argument: degrees of freedom.
Nothing is assumed about them: the theorems hold for any. -/
structure TDist where
  cdf : ℝ → ℝ → ℝ
  ppf : ℝ → ℝ → ℝ

/-- metcalcpy/util/tost_paired.py:26-47 / utils.py:1101-1121 pt, with `ncp = 0`. -/
noncomputable def pt (D : TDist) (q df : ℝ) (lowerTail : Bool) : ℝ :=
  if lowerTail then D.cdf q df else 1 - D.cdf q df

/-- metcalcpy/util/tost_paired.py:50-68 / utils.py:1124-1140 qt, with `ncp = 0`. -/
noncomputable def qt (D : TDist) (p df : ℝ) : ℝ := D.ppf p df

/-- Arguments of tost_paired. -/
structure TostArgs where
  n : ℤ
  m1 : ℝ
  m2 : ℝ
  sd1 : ℝ
  sd2 : ℝ
  r12 : ℝ
  low : ℝ
  high : ℝ
  alpha : Option ℝ

inductive Outcome
  | diffEqv | diffNoEqv | noDiffEqv | noDiffNoEqv | none'
  deriving DecidableEq, Repr

inductive TestOutcome
  | significant | nonSignificant | none'
  deriving DecidableEq, Repr

/-- The returned dictionary. -/
structure TostResult where
  dif : ℝ
  t : Option (ℝ × ℝ)
  p : Option (ℝ × ℝ)
  df : ℝ
  ciTost : ℝ × ℝ
  ciTtest : ℝ × ℝ
  eqbound : ℝ × ℝ
  xlim : ℝ × ℝ
  combined : Outcome
  test : TestOutcome
  tost : TestOutcome

/-- Lines 100-101: `if not alpha: alpha = 0.05` (None and 0 are both replaced). -/
noncomputable def tostAlpha : Option ℝ → ℝ
  | some a => if a = 0 then 0.05 else a
  | none => 0.05

/-- Lines 107-121: the checks that end the program. -/
noncomputable def tostCheck (a : TostArgs) : Except PyErr Unit :=
  if a.n < 2 then .error .systemExit
  else if 1 ≤ tostAlpha a.alpha ∨ tostAlpha a.alpha ≤ 0 then .error .systemExit
  else if a.sd1 ≤ 0 ∨ a.sd2 ≤ 0 then .error .systemExit
  else if 1 < a.r12 ∨ a.r12 < -1 then .error .systemExit
  else .ok ()

/-- `math.sqrt`: ValueError for a negative argument. -/
noncomputable def pySqrt (x : ℝ) : Except PyErr ℝ := if x < 0 then .error .valueError else .ok (Real.sqrt x)

/-- `/` of Python floats. -/
noncomputable def pyDivRE (x y : ℝ) : Except PyErr ℝ := if y = 0 then .error .zeroDivisionError else .ok (x / y)

/-- Lines 150-160: the four independent `if` statements; the name stays unbound when none applies. -/
noncomputable def combinedOutcome (pttest ptost alpha : ℝ) : Option Outcome :=
  let c0 : Option Outcome := none
  let c1 := if pttest ≤ alpha ∧ ptost ≤ alpha then some Outcome.diffEqv else c0
  let c2 := if pttest < alpha ∧ ptost > alpha then some Outcome.diffNoEqv else c1
  let c3 := if pttest > alpha ∧ ptost ≤ alpha then some Outcome.noDiffEqv else c2
  if pttest > alpha ∧ ptost > alpha then some Outcome.noDiffNoEqv else c3

/-- Lines 162-170. -/
noncomputable def pOutcome (p alpha : ℝ) : TestOutcome :=
  if p < alpha then .significant else .nonSignificant

noncomputable def r7 (x : ℝ) : ℝ := roundHalfUp x PRECISION

/-- Lines 123-148, 172-184: the part that both versions share. -/
noncomputable def tostReport (D : TDist) (a : TostArgs) (sdif se : ℝ) (t p : Option (ℝ × ℝ))
    (c : Outcome) (o1 o2 : TestOutcome) : TostResult :=
  let alpha := tostAlpha a.alpha
  let df : ℝ := (a.n : ℝ) - 1
  let lowB := a.low * sdif
  let highB := a.high * sdif
  let ll90 := (a.m1 - a.m2) - qt D (1 - alpha) df * se
  let ul90 := (a.m1 - a.m2) + qt D (1 - alpha) df * se
  let ll95 := (a.m1 - a.m2) - qt D (1 - alpha / 2) df * se
  let ul95 := (a.m1 - a.m2) + qt D (1 - alpha / 2) df * se
  { dif := r7 (a.m1 - a.m2)
    t := t.map (fun x => (r7 x.1, r7 x.2))
    p := p.map (fun x => (r7 x.1, r7 x.2))
    df := r7 df
    ciTost := (r7 ll90, r7 ul90)
    ciTtest := (r7 ll95, r7 ul95)
    eqbound := (r7 lowB, r7 highB)
    xlim := (r7 (min ll90 lowB - max (ul90 - ll90) (highB - lowB) / 10),
             r7 (max ul90 highB + max (ul90 - ll90) (highB - lowB) / 10))
    combined := c
    test := o1
    tost := o2 }

/-- metcalcpy/util/tost_paired.py:71-184 tost_paired.  Simplification: the arguments are real numbers. -/
noncomputable def tostPaired (D : TDist) (a : TostArgs) : Except PyErr TostResult := do
  let alpha := tostAlpha a.alpha
  tostCheck a
  let sdif ← pySqrt (a.sd1 * a.sd1 + a.sd2 * a.sd2 - 2 * a.r12 * a.sd1 * a.sd2)
  let rn ← pySqrt (a.n : ℝ)
  let se ← pyDivRE sdif rn
  let t ← pyDivRE (a.m1 - a.m2) se
  let df : ℝ := (a.n : ℝ) - 1
  let pttest := 2 * pt D |t| df false
  let t1 ← pyDivRE (a.m1 - a.m2 - a.low * sdif) se
  let p1 := pt D t1 df false
  let t2 ← pyDivRE (a.m1 - a.m2 - a.high * sdif) se
  let p2 := pt D t2 df true
  let ptost := max p1 p2
  match combinedOutcome pttest ptost alpha with
  | none => .error .unboundLocalError
  | some c => .ok (tostReport D a sdif se (some (t1, t2)) (some (p1, p2)) c (pOutcome pttest alpha)
      (pOutcome ptost alpha))

/-- metcalcpy/util/utils.py:1143-1270 tost_paired: as above, but a zero standard error gives no p-values,
and `if pttest and ptost` (1224) also treats a p-value of exactly 0 as absent. -/
noncomputable def tostPairedUtils (D : TDist) (a : TostArgs) : Except PyErr TostResult := do
  let alpha := tostAlpha a.alpha
  tostCheck a
  let sdif ← pySqrt (a.sd1 * a.sd1 + a.sd2 * a.sd2 - 2 * a.r12 * a.sd1 * a.sd2)
  let rn ← pySqrt (a.n : ℝ)
  let se ← pyDivRE sdif rn
  let df : ℝ := (a.n : ℝ) - 1
  if se = 0 then .ok (tostReport D a sdif se none none .none' .none' .none')
  else
    let pttest := 2 * pt D |(a.m1 - a.m2) / se| df false
    let t1 := (a.m1 - a.m2 - a.low * sdif) / se
    let p1 := pt D t1 df false
    let t2 := (a.m1 - a.m2 - a.high * sdif) / se
    let p2 := pt D t2 df true
    let ptost := max p1 p2
    if pttest ≠ 0 ∧ ptost ≠ 0 then
      match combinedOutcome pttest ptost alpha with
      | none => .error .unboundLocalError
      | some c => .ok (tostReport D a sdif se (some (t1, t2)) (some (p1, p2)) c (pOutcome pttest alpha)
          (pOutcome ptost alpha))
    else .ok (tostReport D a sdif se none none .none' .none' .none')

end Metcalcpy
