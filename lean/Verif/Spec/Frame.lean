/-
Specification vocabulary for data frames and event equalization.
-/
import Verif.Model.Frame
import Verif.Spec.IntText

namespace Metcalcpy.Spec
open Metcalcpy

/-- Every row has one cell per column. -/
def FrameWF (f : Frame) : Prop := ∀ r ∈ f.rows, r.length = f.cols.length

/-- In frame `f`, row `r` has the value `v` in the column called `name`. -/
def HasCell (f : Frame) (r : List Val) (name : String) (v : Val) : Prop :=
  ∃ i : ℕ, f.cols[i]? = some name ∧ (∀ j < i, f.cols[j]? ≠ some name) ∧ r[i]? = some v

/-- What it means that a cell has the requested value: integer-like requests are compared as numbers,
the request "NA" asks for a missing cell, any other request is compared as text. -/
def ValueIs (v : Val) (request : String) : Prop :=
  (∃ z : ℤ, IsIntText request z ∧ ∃ t, v = .num z t) ∨
  ((∀ z, ¬ IsIntText request z) ∧ request = "NA" ∧ v = .null) ∨
  ((∀ z, ¬ IsIntText request z) ∧ request ≠ "NA" ∧ v = .str request)

/-- Row `r` belongs to the series described by the pairs (variable, requested value) of `p`. -/
def InSeries (f : Frame) (p : List (String × String)) (r : List Val) : Prop :=
  ∀ q ∈ p, ∃ v, HasCell f r q.1 v ∧ ValueIs v q.2

/-- `p` picks one of the listed values for every variable. -/
def Choice (vars : List (String × List String)) (p : List (String × String)) : Prop :=
  List.Forall₂ (fun x y => y.1 = x.1 ∧ y.2 ∈ x.2) vars p

end Metcalcpy.Spec
