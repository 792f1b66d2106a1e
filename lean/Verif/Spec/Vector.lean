/-
Specification: matched wind vectors and gradients, and the tables holding their partial sums.
-/
import Verif.Spec.Pairs

namespace Metcalcpy.Spec
open Metcalcpy

/-- A matched pair of wind vectors (or wind anomalies) with the speeds as recorded. -/
structure WindPair where
  uf : ℚ
  vf : ℚ
  uo : ℚ
  vo : ℚ
  fs : ℚ
  os : ℚ
  deriving DecidableEq

/-- What each partial-sum column of VL1L2 lines averages. -/
def windSum : String → WindPair → ℚ
  | "ufbar", p => p.uf
  | "vfbar", p => p.vf
  | "uobar", p => p.uo
  | "vobar", p => p.vo
  | "uvfobar", p => p.uf * p.uo + p.vf * p.vo
  | "uvffbar", p => p.uf * p.uf + p.vf * p.vf
  | "uvoobar", p => p.uo * p.uo + p.vo * p.vo
  | "f_speed_bar", p => p.fs
  | "o_speed_bar", p => p.os
  -- VAL1L2: the vectors are anomalies
  | "ufabar", p => p.uf
  | "vfabar", p => p.vf
  | "uoabar", p => p.uo
  | "voabar", p => p.vo
  | "uvfoabar", p => p.uf * p.uo + p.vf * p.vo
  | "uvffabar", p => p.uf * p.uf + p.vf * p.vf
  | "uvooabar", p => p.uo * p.uo + p.vo * p.vo
  | "fa_speed_bar", p => p.fs
  | "oa_speed_bar", p => p.os
  | _, _ => 0

def vl1l2Columns : List String :=
  ["ufbar", "vfbar", "uobar", "vobar", "uvfobar", "uvffbar", "uvoobar", "f_speed_bar", "o_speed_bar"]

def val1l2Columns : List String :=
  ["ufabar", "vfabar", "uoabar", "voabar", "uvfoabar", "uvffabar", "uvooabar", "fa_speed_bar",
   "oa_speed_bar"]

/-- The table holds one row of partial sums `cols` per (non-empty) batch of matched data. -/
structure BatchData {α : Type} (g : String → α → ℚ) (cols : List String) (t : Table)
    (bs : List (List α)) : Prop where
  rows_ne : t.rows ≠ []
  batch_ne : ∀ b ∈ bs, b ≠ []
  total : CompleteColumn t "total" (bs.map (fun b => (b.length : ℚ)))
  field : ∀ c ∈ cols, CompleteColumn t c (bs.map (avg (g c)))

abbrev Vl1l2Data := BatchData windSum vl1l2Columns
abbrev Val1l2Data := BatchData windSum val1l2Columns

/-- A matched pair of gradients (forecast, observed), summed by GRAD lines. -/
def gradSum : String → Pair → ℚ
  | "fgbar", p => |p.1|
  | "ogbar", p => |p.2|
  | "mgbar", p => max |p.1| |p.2|
  | "egbar", p => |p.1 - p.2|
  | _, _ => 0

abbrev GradData := BatchData gradSum ["fgbar", "ogbar", "mgbar", "egbar"]

end Metcalcpy.Spec
