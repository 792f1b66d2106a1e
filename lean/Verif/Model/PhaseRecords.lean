/-
metcalcpy/contributed/tropical_diagnostics/phase_diagram_example.py: the records of the phase diagram.
-/
import Verif.Model.Base

namespace Metcalcpy

/-- phase_diagram_example.py:36: the date of a record as one number. -/
def dateNumber (year month day : ℕ) : ℕ := year * 10000 + month * 100 + day

/-- phase_diagram_example.py:41-52: the records from the first one with the first date to the first one with the last date;
`np.where(...)[0][0]` raises IndexError if a date is missing.  Simplification: one list of records in place of several columns cut in
the same way; reading of the text file and the plot are not modelled. -/
def phaseRecords {α : Type} (date : α → ℕ) (first last : ℕ) (data : List α) : Except PyErr (List α) :=
  match data.findIdx? (fun r => decide (date r = first)), data.findIdx? (fun r => decide (date r = last)) with
  | some i, some j => .ok ((data.take (j + 1)).drop i)
  | _, _ => .error .indexError

end Metcalcpy
