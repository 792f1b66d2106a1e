/-
Grouped values of a plot configuration: several values joined with ':' in one text.
-/
import Mathlib.Data.List.Infix
import Mathlib.Data.List.Basic

namespace Metcalcpy.Spec

/-- The columns that hold times (or the empty name): they are never equalized over. -/
def timeColumns : List String :=
  ["", "fcst_valid_beg", "fcst_lead", "fcst_valid", "fcst_init", "fcst_init_beg", "VALID", "LEAD"]

/-- A text of the form "dddd-dd-dd dd:dd:dd" (the blank may be any of the usual blank characters). -/
def IsDateTime (w : List Char) : Prop :=
  ∃ year month day hour minute second : List Char, ∃ blank : Char,
    year.length = 4 ∧ (∀ x ∈ [month, day, hour, minute, second], x.length = 2) ∧
    (∀ x ∈ [year, month, day, hour, minute, second], ∀ c ∈ x, c.isDigit = true) ∧
    blank ∈ [' ', '\t', '\n', '\r'] ∧
    w = year ++ '-' :: (month ++ '-' :: (day ++ blank :: (hour ++ ':' :: (minute ++ ':' :: second))))

/-- `v` is the text of a group with these values: they are joined with ':' and either all are date-times, or none
contains ':' and the text contains no date-time. -/
def IsGroup (v : String) (vals : List String) : Prop :=
  vals ≠ [] ∧ v.toList = [':'].intercalate (vals.map String.toList) ∧
    ((∀ w ∈ vals, IsDateTime w.toList) ∨
     ((∀ w ∈ vals, ':' ∉ w.toList) ∧ ∀ d, IsDateTime d → ¬ d <:+: v.toList))

end Metcalcpy.Spec
