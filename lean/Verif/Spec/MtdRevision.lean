/-
Values of the revisions of objects: a row is the name of a revision and a value (`none` when missing).
-/
import Verif.Spec.CorrTable

namespace Metcalcpy.Spec

/-- The values of a revision in the order of the rows. -/
def revisionValues (rows : List (String × Option ℚ)) (id : String) : List (Option ℚ) :=
  (rows.filter fun r => decide (r.1 = id)).map Prod.snd

/-- Pairs of consecutive present values of one revision, for all revisions. -/
def withinRevisions (rows : List (String × Option ℚ)) : List (ℚ × ℚ) :=
  (rows.map Prod.fst).dedup.flatMap fun id => completePairs (revisionValues rows id) (revisionValues rows id).tail

/-- All present values. -/
def presentValues (rows : List (String × Option ℚ)) : List ℚ := rows.filterMap Prod.snd

/-- Their mean. -/
def overallMean (rows : List (String × Option ℚ)) : ℚ := (presentValues rows).sum / (presentValues rows).length

/-- Number of revisions. -/
def revisionCount (rows : List (String × Option ℚ)) : ℕ := (rows.map Prod.fst).dedup.length

/-- The present values, revision after revision, the revisions in the order in which they first appear. -/
def joinedRevisions (rows : List (String × Option ℚ)) : List ℚ :=
  (rows.map Prod.fst).reverse.dedup.reverse.flatMap fun id => (revisionValues rows id).filterMap _root_.id

end Metcalcpy.Spec
