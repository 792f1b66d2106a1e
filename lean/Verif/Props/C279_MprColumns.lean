/-
C279  In a matched pair file every value stands below the name of its column.
-/
import Verif.Model.MprHeader
import Mathlib.Tactic.Linarith
import Mathlib.Tactic.IntervalCases
import Mathlib.Algebra.BigOperators.Group.List.Basic

namespace Metcalcpy.Spec

/-- `w` is a word of the line that begins at position `p`: nothing or a blank before it. -/
def WordAt (line : List Char) (p : ℕ) (w : List Char) : Prop :=
  w <+: line.drop p ∧ (p = 0 ∨ line[p - 1]? = some ' ')

/-- The texts that vary between the lines of one file. -/
structure Point where
  total : String
  index : String
  lat : String
  lon : String
  fcst : String
  obs : String

end Metcalcpy.Spec

namespace Metcalcpy.Props
open Metcalcpy Spec

/-! ### Positions -/

/-- The position of column `k`: every column before takes its width, or the length of its text if that is larger, and a blank. -/
def columnPos (cs : List (ℕ × List Char)) (k : ℕ) : ℕ := ((cs.take k).map fun c => max c.1 c.2.length + 1).sum

theorem formatColumns_cons2 (w : ℕ) (t : List Char) (c : ℕ × List Char) (cs : List (ℕ × List Char)) :
    formatColumns ((w, t) :: c :: cs) = padRight w t ++ ' ' :: formatColumns (c :: cs) := by
  simp [formatColumns]

theorem padRight_length (w : ℕ) (t : List Char) : (padRight w t).length = max w t.length := by
  simp only [padRight, List.length_append, List.length_replicate]
  omega

theorem formatColumns_drop (cs : List (ℕ × List Char)) (k : ℕ) (h : k < cs.length) :
    (formatColumns cs).drop (columnPos cs k) = formatColumns (cs.drop k) := by
  induction k generalizing cs with
  | zero => simp [columnPos]
  | succ k ih =>
    rcases cs with _ | ⟨⟨w, t⟩, _ | ⟨c, cs⟩⟩
    · simp at h
    · simp at h
    · have hp : columnPos ((w, t) :: c :: cs) (k + 1) = (padRight w t).length + (1 + columnPos (c :: cs) k) := by
        simp only [columnPos, List.take_succ_cons, List.map_cons, List.sum_cons, padRight_length]
        omega
      rw [hp, formatColumns_cons2, ← List.drop_drop, List.drop_left, ← List.drop_drop, List.drop_one, List.tail_cons,
        ih (c :: cs) (by simpa using h)]
      rfl

theorem formatColumns_head (w : ℕ) (t : List Char) (cs : List (ℕ × List Char)) : t <+: formatColumns ((w, t) :: cs) := by
  rcases cs with _ | ⟨c, cs⟩
  · exact ⟨List.replicate (w - t.length) ' ' ++ ['\n'], by simp [formatColumns, padRight]⟩
  · rw [formatColumns_cons2]
    exact ⟨List.replicate (w - t.length) ' ' ++ ' ' :: formatColumns (c :: cs), by simp [padRight]⟩

/-- Every text stands at its position, after a blank. -/
theorem word_at (cs : List (ℕ × List Char)) (k : ℕ) (w : ℕ) (t : List Char) (h : cs[k]? = some (w, t)) :
    WordAt (formatColumns cs) (columnPos cs k) t := by
  obtain ⟨hk, hg⟩ := List.getElem?_eq_some_iff.mp h
  refine ⟨?_, ?_⟩
  · rw [formatColumns_drop cs k hk, List.drop_eq_getElem_cons hk, hg]
    exact formatColumns_head w t _
  · rcases k with _ | k
    · left; simp [columnPos]
    · right
      have hk' : k < cs.length := by omega
      have hp : columnPos cs (k + 1) - 1 = columnPos cs k + max cs[k].1 cs[k].2.length := by
        unfold columnPos
        rw [List.take_add_one, List.getElem?_eq_getElem hk']
        simp only [Option.toList_some, List.map_append, List.map_cons, List.map_nil, List.sum_append, List.sum_cons, List.sum_nil]
        omega
      rw [hp, ← List.getElem?_drop, formatColumns_drop cs k hk', List.drop_eq_getElem_cons hk', List.drop_eq_getElem_cons hk]
      rcases cs[k] with ⟨w', t'⟩
      rw [formatColumns_cons2, List.getElem?_append_right (by rw [padRight_length])]
      simp [padRight_length]

theorem columnPos_congr (a b : List (ℕ × List Char)) (k : ℕ) (h : ∀ j < k, (a[j]?).map (fun c => max c.1 c.2.length) = (b[j]?).map (fun c => max c.1 c.2.length)) :
    columnPos a k = columnPos b k := by
  have : (a.take k).map (fun c => max c.1 c.2.length) = (b.take k).map (fun c => max c.1 c.2.length) := by
    apply List.ext_getElem?
    intro j
    rw [List.getElem?_map, List.getElem?_map, List.getElem?_take, List.getElem?_take]
    by_cases hj : j < k
    · simpa [hj] using h j hj
    · simp [hj]
  unfold columnPos
  have e : ∀ l : List (ℕ × List Char), l.map (fun c => max c.1 c.2.length + 1) = (l.map fun c => max c.1 c.2.length).map (· + 1) := by
    intro l; simp [List.map_map, Function.comp_def]
  rw [e, e, this]

/-! ### The file -/

/-- The line of a point of a day. -/
def pointLine (i : MprInfo) (fLead fValid oLead oValid : String) (q : Point) : List Char :=
  mprLine i fLead fValid oLead oValid q.total q.index q.lat q.lon q.fcst q.obs

/-- The fields of a point of a day. -/
def pointFields (i : MprInfo) (fLead fValid oLead oValid : String) (q : Point) : List String :=
  mprFields i fLead fValid oLead oValid q.total q.index q.lat q.lon q.fcst q.obs

/-- The columns of a line. -/
def lineCols (i : MprInfo) (fLead fValid oLead oValid : String) (q : Point) : List (ℕ × List Char) :=
  (mprWidths i).zip ((pointFields i fLead fValid oLead oValid q).map String.toList)

/-- The columns of the header. -/
def headCols (i : MprInfo) : List (ℕ × List Char) := (mprHeaderWidths i).zip (mprHeaderNames.map String.toList)

/-- If the description is not longer than the model name (or four characters) and one more, and the times fit their columns, the name of
each of the 24 columns stands in the header exactly above the value in the line: there are 24 increasing positions at which the header
has the names and the line the values. -/
theorem C279_aligned_partial (i : MprInfo) (fLead fValid oLead oValid : String) (q : Point)
    (hd : i.desc.length ≤ max 4 i.mname.length + 1) (h1 : fLead.length ≤ 12) (h2 : fValid.length ≤ 18) (h3 : oLead.length ≤ 12)
    (h4 : oValid.length ≤ 17) :
    ∃ pos : ℕ → ℕ, (∀ j k, j < k → k < 24 → pos j < pos k) ∧
      ∀ k < 24, ∃ name value, mprHeaderNames[k]? = some name ∧
        (pointFields i fLead fValid oLead oValid q)[k]? = some value ∧
        WordAt (mprHeader i) (pos k) name.toList ∧ WordAt (pointLine i fLead fValid oLead oValid q) (pos k) value.toList := by
  have hpos : ∀ k ≤ 24, columnPos (headCols i) k = columnPos (lineCols i fLead fValid oLead oValid q) k := by
    intro k hk
    apply columnPos_congr
    intro j hj
    have hj : j < 24 := by omega
    simp only [headCols, lineCols, pointFields, mprHeaderWidths, mprWidths, mprHeaderNames, mprFields]
    interval_cases j <;> simp [String.length_toList] <;> omega
  refine ⟨columnPos (headCols i), ?_, ?_⟩
  · intro j k hjk hk
    unfold columnPos
    have hl : (headCols i).length = 24 := by simp [headCols, mprHeaderWidths, mprHeaderNames]
    have : (headCols i).take k = (headCols i).take j ++ ((headCols i).drop j).take (k - j) := by
      rw [← List.take_add]
      congr 1
      omega
    rw [this, List.map_append, List.sum_append]
    obtain ⟨m, hm⟩ : ∃ m, k - j = m + 1 := ⟨k - j - 1, by omega⟩
    rw [hm, List.drop_eq_getElem_cons (by omega)]
    simp only [List.take_succ_cons, List.map_cons, List.sum_cons]
    omega
  · intro k hk
    have hn : k < mprHeaderNames.length := hk
    have hf : k < (pointFields i fLead fValid oLead oValid q).length := by
      have : (pointFields i fLead fValid oLead oValid q).length = 37 := rfl
      omega
    refine ⟨_, _, List.getElem?_eq_getElem hn, List.getElem?_eq_getElem hf, ?_, ?_⟩
    · have hw : k < (mprHeaderWidths i).length := hk
      exact word_at (headCols i) k (mprHeaderWidths i)[k] _ (by simp [headCols, hw, hn])
    · rw [hpos k (by omega)]
      have hw : k < (mprWidths i).length := by
        have : (mprWidths i).length = 37 := rfl
        omega
      exact word_at (lineCols i fLead fValid oLead oValid q) k (mprWidths i)[k] _ (by simp [lineCols, hw, hf])

/-- A longer description (the width of its column is computed from the model name) moves all later values: the name of the fourth column
stands at a position of the header, and its value as many positions further right as the description is too long. -/
theorem C279_long_description_counterexample (i : MprInfo) (fLead fValid oLead oValid : String) (q : Point)
    (hd : max 4 i.mname.length + 1 < i.desc.length) :
    ∃ p, WordAt (mprHeader i) p "FCST_LEAD".toList ∧
      WordAt (pointLine i fLead fValid oLead oValid q) (p + (i.desc.length - (max 4 i.mname.length + 1))) fLead.toList ∧
      p = 8 + (max 5 i.mname.length + 4) + (max 4 i.mname.length + 2) := by
  have a := word_at (headCols i) 3 12 "FCST_LEAD".toList rfl
  have b := word_at (lineCols i fLead fValid oLead oValid q) 3 12 fLead.toList rfl
  have ha : columnPos (headCols i) 3 = 8 + (max 5 i.mname.length + 4) + (max 4 i.mname.length + 2) := by
    simp [columnPos, headCols, mprHeaderWidths, mprHeaderNames]
    omega
  have hb : columnPos (lineCols i fLead fValid oLead oValid q) 3 =
      8 + (max 5 i.mname.length + 4) + (max 4 i.mname.length + 2) + (i.desc.length - (max 4 i.mname.length + 1)) := by
    simp [columnPos, lineCols, mprWidths, pointFields, mprFields, String.length_toList]
    omega
  exact ⟨_, a, by rw [ha, ← hb]; exact b, ha⟩

/-- The lines of a file have each of their 37 values at the same position, if the numbers fit their columns (ten characters for total and
index, twelve for latitude, longitude, forecast and observation), whatever the other texts are. -/
theorem C279_lines (i : MprInfo) (fLead fValid oLead oValid : String) (q r : Point)
    (hq : q.total.length ≤ 10 ∧ q.index.length ≤ 10 ∧ q.lat.length ≤ 12 ∧ q.lon.length ≤ 12 ∧ q.fcst.length ≤ 12 ∧ q.obs.length ≤ 12)
    (hr : r.total.length ≤ 10 ∧ r.index.length ≤ 10 ∧ r.lat.length ≤ 12 ∧ r.lon.length ≤ 12 ∧ r.fcst.length ≤ 12 ∧ r.obs.length ≤ 12) :
    ∃ pos : ℕ → ℕ, ∀ k < 37, ∃ v w, (pointFields i fLead fValid oLead oValid q)[k]? = some v ∧
      (pointFields i fLead fValid oLead oValid r)[k]? = some w ∧
      WordAt (pointLine i fLead fValid oLead oValid q) (pos k) v.toList ∧ WordAt (pointLine i fLead fValid oLead oValid r) (pos k) w.toList := by
  have hpos : ∀ k ≤ 37, columnPos (lineCols i fLead fValid oLead oValid q) k = columnPos (lineCols i fLead fValid oLead oValid r) k := by
    intro k hk
    apply columnPos_congr
    intro j hj
    have hj : j < 37 := by omega
    simp only [lineCols, pointFields, mprWidths, mprFields]
    interval_cases j <;> simp [String.length_toList] <;> omega
  refine ⟨columnPos (lineCols i fLead fValid oLead oValid q), ?_⟩
  intro k hk
  have hl : ∀ q : Point, k < (pointFields i fLead fValid oLead oValid q).length := fun q => hk
  have hw : k < (mprWidths i).length := hk
  refine ⟨_, _, List.getElem?_eq_getElem (hl q), List.getElem?_eq_getElem (hl r), ?_, ?_⟩
  · exact word_at (lineCols i fLead fValid oLead oValid q) k (mprWidths i)[k] _ (by simp [lineCols, hw, hl q])
  · rw [hpos k (by omega)]
    exact word_at (lineCols i fLead fValid oLead oValid r) k (mprWidths i)[k] _ (by simp [lineCols, hw, hl r])

/-- The file of a day with a valid time: the header, then one line for every point, in order, numbered from 1. -/
theorem C279_file (i : MprInfo) (outfile : String) (d : MprDay) (h : d.fValid ≠ "") :
    ∃ name, mprText i outfile d = some (name, mprHeader i :: d.points.mapIdx fun k p =>
      pointLine i d.fLead d.fValid d.oLead d.oValid ⟨toString d.points.length, toString (k + 1), p.1, p.2.1, p.2.2.1, p.2.2.2⟩) := by
  refine ⟨mprName outfile.toList d.fLead.toList d.fValid.toList, ?_⟩
  simp only [mprText, mprFile, if_neg h, Option.map_some]
  rfl

/-- A model name of three characters with a description of six. -/
def exMprInfo (desc : String) : MprInfo := ⟨"GFS", desc, "IBLs", "block", "Z500", "IBLs", "block", "Z500", "FULL", "NA"⟩

example : WordAt (mprHeader (exMprInfo "ctrl")) 23 "FCST_LEAD".toList ∧
    WordAt (pointLine (exMprInfo "ctrl") "240000" "20200101_000000" "000000" "20200101_000000" ⟨"2", "1", "50.0000", "0.0000", "1.0000", "0.0000"⟩)
      23 "240000".toList ∧
    ¬ WordAt (pointLine (exMprInfo "nature run") "240000" "20200101_000000" "000000" "20200101_000000" ⟨"2", "1", "50.0000", "0.0000", "1.0000", "0.0000"⟩)
      23 "240000".toList := by
  unfold WordAt
  decide +kernel

end Metcalcpy.Props
