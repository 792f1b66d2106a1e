/-
Specification vocabulary for multi-category contingency tables.
-/
import Verif.Spec.Table
import Mathlib.Algebra.BigOperators.Group.List.Basic

namespace Metcalcpy.Spec

/-- One category pair: forecast category, observed category (both from 0) and its counts, one per row. -/
structure CatCell where
  fcst : ℕ
  obs : ℕ
  counts : List ℚ

def CatCell.total (c : CatCell) : ℚ := c.counts.sum

/-- A table with `n` categories, expected-correct value `ec`, and its `n * n` category pairs, the k-th of
which is described by the columns `i_value_k`, `j_value_k`, `fi_oj_k`. -/
structure MctcData (t : Table) (n : ℕ) (ec : ℚ) (cells : List CatCell) : Prop where
  rows_ne : t.rows ≠ []
  n_cat : ∃ rest, IsColumn t "n_cat" (some (n : ℚ) :: rest)
  ec_value : ∃ rest, IsColumn t "ec_value" (some ec :: rest)
  length : cells.length = n * n
  distinct : (cells.map (fun c => (c.fcst, c.obs))).Nodup
  bounds : ∀ c ∈ cells, c.fcst < n ∧ c.obs < n
  i_value : ∀ (k : ℕ) (c : CatCell), cells[k]? = some c →
    ∃ rest, IsColumn t ("i_value_" ++ toString k) (some ((c.fcst : ℚ) + 1) :: rest)
  j_value : ∀ (k : ℕ) (c : CatCell), cells[k]? = some c →
    ∃ rest, IsColumn t ("j_value_" ++ toString k) (some ((c.obs : ℚ) + 1) :: rest)
  fi_oj : ∀ (k : ℕ) (c : CatCell), cells[k]? = some c →
    CompleteColumn t ("fi_oj_" ++ toString k) c.counts

/-- All counts. -/
def grandTotal (cells : List CatCell) : ℚ := (cells.map CatCell.total).sum

/-- Counts of correct forecasts. -/
def correctTotal (cells : List CatCell) : ℚ :=
  ((cells.filter (fun c => c.fcst = c.obs)).map CatCell.total).sum

end Metcalcpy.Spec
