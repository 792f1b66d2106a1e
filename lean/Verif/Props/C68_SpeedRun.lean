/-
C68 in the aggregation of a point: VL1L2_FSPD and VL1L2_OSPD are taken from the lines as they are.
-/
import Verif.Props.C248_RootScores
import Verif.Props.C20_Exact

namespace Metcalcpy.Props
open Metcalcpy Spec

/-- The value of a point for VL1L2_FSPD is the forecast speed, and for VL1L2_OSPD the observed speed, of the columns of the lines as
they are, not multiplied by the totals. -/
theorem C68_speed_of_point (f : Frame) (data : List (List Val)) :
    rootPrepared .fields f "vl1l2_fspd" data = .ok (realNum (vlSpeed "ufbar" "vfbar" (numericTable f.cols data) true)) ∧
    rootPrepared .fields f "vl1l2_ospd" data = .ok (realNum (vlSpeed "uobar" "vobar" (numericTable f.cols data) true)) := by
  have h1 : fieldsOf "vl1l2_fspd" = none := by decide +kernel
  have h2 : fieldsOf "vl1l2_ospd" = none := by decide +kernel
  constructor
  · exact rootPrepared_ok (t := numericTable f.cols data) rfl (by simp [prepareRoot, h1, prepareFields]) rfl
  · exact rootPrepared_ok (t := numericTable f.cols data) rfl (by simp [prepareRoot, h2, prepareFields]) rfl

/-- C68: for a point whose lines hold the sums of the wind vectors `bs`, both speeds come from the row means summed without weights and
divided by the number of vectors. -/
theorem C68_speed_of_point_actual (f : Frame) (data : List (List Val)) (bs : List (List WindPair))
    (D : Vl1l2Data (numericTable f.cols data) bs) (n : ℚ) (hn : n = bs.flatten.length) :
    rootPrepared .fields f "vl1l2_fspd" data = .ok (realNum (some (roundHalfUp (Real.sqrt
      ((((bs.map (avg (windSum "ufbar"))).sum / n : ℚ) : ℝ) ^ 2 + (((bs.map (avg (windSum "vfbar"))).sum / n : ℚ) : ℝ) ^ 2)) 7))) ∧
    rootPrepared .fields f "vl1l2_ospd" data = .ok (realNum (some (roundHalfUp (Real.sqrt
      ((((bs.map (avg (windSum "uobar"))).sum / n : ℚ) : ℝ) ^ 2 + (((bs.map (avg (windSum "vobar"))).sum / n : ℚ) : ℝ) ^ 2)) 7))) := by
  obtain ⟨h1, h2⟩ := C68_speed_actual _ bs D n hn
  exact ⟨root_real rfl h1, root_real rfl h2⟩

/-- The lines of `windTable` as a frame meet the hypotheses. -/
example : Vl1l2Data (numericTable windTable.cols (windTable.rows.map (fun r => r.map (fun c => match c with
    | some q => Val.num q "" | none => .null)))) windBatches := by
  have h : numericTable windTable.cols (windTable.rows.map (fun r => r.map (fun c => match c with
    | some q => Val.num q "" | none => .null))) = windTable := by decide +kernel
  rw [h]
  exact windTable_data

end Metcalcpy.Props
