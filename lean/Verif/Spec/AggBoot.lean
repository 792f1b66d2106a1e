/-
Specification vocabulary for the bootstrap of derived curves: the case of a row.
-/
import Verif.Spec.Frame
import Verif.Spec.Derived
import Verif.Spec.Bootstrap

namespace Metcalcpy.Spec
open Metcalcpy

/-- The value of a cell: a number, a text, or nothing. -/
def cellValue : Val → Option (ℚ ⊕ String)
  | .num q _ => some (.inl q)
  | .str s => some (.inr s)
  | .null => none

/-- The column of a table that gives the time of a case: the first of these that exists. -/
def timeColumn (f : Frame) : String :=
  (["fcst_valid_beg", "fcst_valid", "fcst_init_beg"].find? (fun c => decide (c ∈ f.cols))).getD "fcst_init"

/-- The case of a row: its time and its lead. -/
def caseOf (f : Frame) (r : List Val) : Option (ℚ ⊕ String) × Option (ℚ ⊕ String) :=
  (cellValue (cellAt r (f.cols.idxOf (timeColumn f))), cellValue (cellAt r (f.cols.idxOf "fcst_lead")))

/-- The elements of `a` at the positions `K`. -/
def pick {α : Type} (a : List α) (K : List ℕ) : List α := K.filterMap (fun i => a[i]?)

/-- The positions a bootstrap replicate uses, from the positions drawn: those themselves, or blocks of length `L` starting
at every `L`-th of them. -/
def positionsUsed (L : ℕ) (drawn : List ℕ) : List ℕ :=
  if 1 < L then (List.range drawn.length).map (blockIndex drawn L) else drawn

/-- `z` is the value of a derived curve computed from the rows `xs` of the first and `ys` of the second series, whose
statistics are `s₁` and `s₂`. -/
def IsDerived (statOf : String → List (List Val) → Except PyErr PyNum) (op s₁ s₂ : String) (xs ys : List (List Val))
    (z : Option ℚ) : Prop :=
  ∃ x y, statOf s₁ xs = .ok x ∧ statOf s₂ ys = .ok y ∧
    (∀ a b, x = .num a → y = .num b → z = derivedOf (if op = "DIFF_SIG" then "DIFF" else op) a b) ∧
    (x = .none ∨ y = .none → z = none)

end Metcalcpy.Spec
