/-
The case key of event equalization.
-/
import Verif.Spec.Frame
import Verif.Spec.Ungroup

namespace Metcalcpy.Spec
open Metcalcpy

/-- `k` is the case key of row `r`: "valid lead" or, when equalizing by an independent variable that is
not itself a time column, "valid lead independent".  The valid time is `fcst_valid_beg` if that column
exists, else `fcst_valid`. -/
def IsCaseKey (f : Frame) (indy : String) (byIndep : Bool) (r : List Val) (k : String) : Prop :=
  ∃ valid lead,
    HasCell f r (if "fcst_valid_beg" ∈ f.cols then "fcst_valid_beg" else "fcst_valid") valid ∧
    HasCell f r "fcst_lead" lead ∧
    if byIndep = true ∧ indy ∉ timeColumns then
      ∃ v, HasCell f r indy v ∧ k = valid.text ++ " " ++ lead.text ++ " " ++ v.text
    else k = valid.text ++ " " ++ lead.text

/-- A frame as MET output is delivered to the equalization: rectangular, with a valid time and a lead
column, no key column yet, and with the independent variable when it is needed. -/
structure EqInput (f : Frame) (indy : String) (byIndep : Bool) : Prop where
  wf : FrameWF f
  nokey : "equalize" ∉ f.cols
  valid : "fcst_valid_beg" ∈ f.cols ∨ "fcst_valid" ∈ f.cols
  lead : "fcst_lead" ∈ f.cols
  indep : byIndep = true → indy ∉ timeColumns → indy ∈ f.cols

/-- A row is to be kept: for every choice of one value per variable there is a row of that series with
the same case key. -/
def IsCommonCase (f : Frame) (vars : List (String × List String)) (key : List Val → String)
    (r : List Val) : Prop :=
  ∀ p, Choice vars p → ∃ r' ∈ f.rows, InSeries f p r' ∧ key r' = key r

/-- Two lists of variables that differ only in the order of the values listed for each variable
(and in how often a value is repeated). -/
def SameValues (vars vars' : List (String × List String)) : Prop :=
  List.Forall₂ (fun x y => x.1 = y.1 ∧ ∀ v, v ∈ x.2 ↔ v ∈ y.2) vars vars'

end Metcalcpy.Spec
