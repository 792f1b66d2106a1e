/-
Specification of the cartesian product of a list of lists.
-/
import Mathlib.Data.List.Forall2

namespace Metcalcpy.Spec

/-- `c` takes exactly one element from each list, in the order of the lists. -/
def IsCombination {α : Type} (lists : List (List α)) (c : List α) : Prop :=
  List.Forall₂ (fun x l => x ∈ l) c lists

end Metcalcpy.Spec
