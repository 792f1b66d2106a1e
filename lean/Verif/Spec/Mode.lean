/-
MODE objects.
-/
import Verif.Spec.Frame
import Verif.Model.Round

namespace Metcalcpy.Spec
open Metcalcpy

/-- A MODE object: forecast or observation, simple or cluster, matched or not, and its area. -/
structure ModeObj where
  fcst : Bool
  simple : Bool
  matched : Bool
  area : ℚ
  deriving DecidableEq

/-- The 0/1 number that stores a flag. -/
def IsFlag (b : Bool) (v : Val) : Prop := ∃ text, v = .num (if b then 1 else 0) text

/-- The rows of frame `f` store the objects `objs`, in order. -/
structure ModeData (f : Frame) (objs : List ModeObj) : Prop where
  wf : FrameWF f
  rows : List.Forall₂ (fun r o =>
    (∃ v, HasCell f r "fcst_flag" v ∧ IsFlag o.fcst v) ∧
    (∃ v, HasCell f r "simple_flag" v ∧ IsFlag o.simple v) ∧
    (∃ v, HasCell f r "matched_flag" v ∧ IsFlag o.matched v) ∧
    (∃ text, HasCell f r "area" (.num o.area text))) f.rows objs
  cols : "fcst_flag" ∈ f.cols ∧ "simple_flag" ∈ f.cols ∧ "matched_flag" ∈ f.cols ∧ "area" ∈ f.cols

/-- Number of objects with a property. -/
def number (objs : List ModeObj) (p : ModeObj → Bool) : ℚ := ((objs.filter p).length : ℚ)

/-- Total area of the objects with a property. -/
def totalArea (objs : List ModeObj) (p : ModeObj → Bool) : ℚ := ((objs.filter p).map ModeObj.area).sum

/-- `a / b` rounded to 7 decimals; missing when `b` is zero. -/
def quotient (a b : ℚ) : Option ℚ := if b = 0 then none else some (roundHalfUp (a / b) 7)

/-- `part` as a share of `whole`, by number. -/
def numberRatio (objs : List ModeObj) (part whole : ModeObj → Bool) : Option ℚ :=
  quotient (number objs part) (number objs whole)

/-- `part` as a share of `whole`, by area; missing when one of the two groups is empty. -/
def areaRatio (objs : List ModeObj) (part whole : ModeObj → Bool) : Option ℚ :=
  if objs.filter part = [] ∨ objs.filter whole = [] then none
  else quotient (totalArea objs part) (totalArea objs whole)

/-! Groups of objects: first letter F forecast, O observation, A any; second letter S simple, C cluster,
A any; third letter M matched, U unmatched, A any. -/
def FSA (o : ModeObj) : Bool := o.fcst && o.simple
def OSA (o : ModeObj) : Bool := !o.fcst && o.simple
def ASA (o : ModeObj) : Bool := o.simple
def ACA (o : ModeObj) : Bool := !o.simple
def FCA (o : ModeObj) : Bool := o.fcst && !o.simple
def OCA (o : ModeObj) : Bool := !o.fcst && !o.simple
def FAA (o : ModeObj) : Bool := o.fcst
def OAA (o : ModeObj) : Bool := !o.fcst
def AAA (_ : ModeObj) : Bool := true
def ASM (o : ModeObj) : Bool := o.simple && o.matched
def ASU (o : ModeObj) : Bool := o.simple && !o.matched
def FSM (o : ModeObj) : Bool := o.fcst && o.simple && o.matched
def FSU (o : ModeObj) : Bool := o.fcst && o.simple && !o.matched
def OSM (o : ModeObj) : Bool := !o.fcst && o.simple && o.matched
def OSU (o : ModeObj) : Bool := !o.fcst && o.simple && !o.matched

end Metcalcpy.Spec
