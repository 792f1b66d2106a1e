/-
Textbook definitions of the contingency-table scores (Wilks, MET user's guide), as functions of the
pooled counts  a = hits, b = false alarms, c = misses, d = correct negatives, n = total.
-/
import Verif.Spec.Table
import Verif.Model.Round

namespace Metcalcpy.Spec

/-- A score given by numerator and denominator. -/
structure Ratio where
  num : ℚ
  den : ℚ

/-- The ratio rounded half-up to 7 decimals (see C06 for what `roundHalfUp` does); missing when the
denominator vanishes. -/
def Ratio.rounded (r : Ratio) : Option ℚ :=
  if r.den = 0 then none else some (roundHalfUp (r.num / r.den) 7)

variable (a b c d n : ℚ)

def baserRatio : Ratio := ⟨a + c, n⟩
def accRatio   : Ratio := ⟨a + d, n⟩
def fbiasRatio : Ratio := ⟨a + b, a + c⟩
def fmeanRatio : Ratio := ⟨a + b, n⟩
def podyRatio  : Ratio := ⟨a, a + c⟩
def pofdRatio  : Ratio := ⟨b, b + d⟩
def podnRatio  : Ratio := ⟨d, b + d⟩
def farRatio   : Ratio := ⟨b, a + b⟩
def csiRatio   : Ratio := ⟨a, a + b + c⟩
def orssRatio  : Ratio := ⟨a * d - b * c, a * d + b * c⟩
/-- Number of hits expected by chance. -/
def chanceHits : ℚ := (a + b) * (a + c) / n
def gssRatio   : Ratio := ⟨a - chanceHits a b c n, a + b + c - chanceHits a b c n⟩
/-- Number of correct forecasts expected by chance. -/
def chanceCorrect : ℚ := ((a + b) * (a + c) + (c + d) * (b + d)) / n
def hssRatio   : Ratio := ⟨a + d - chanceCorrect a b c d n, n - chanceCorrect a b c d n⟩

end Metcalcpy.Spec
