import Verif.Model.MjoEnso
import Verif.Model.Validate

/-!
Model of metcalcpy/contributed/mjo_enso/compute_mjo_enso.py: make_maki.
Dates are a month, counted from year 0, and a day of the month.
-/

namespace Metcalcpy

/-- A date: `month` is twelve times the year plus the month minus one. -/
structure MonthDay where
  month : ℕ
  day : ℕ
  deriving DecidableEq, Repr

/-- Length of a month (Gregorian calendar). -/
def monthLen (m : ℕ) : ℕ := daysInMonth (m / 12) (m % 12 + 1)

/-- Day number of a date. -/
def dayNumber (x : MonthDay) : ℕ := ((List.range x.month).map monthLen).sum + x.day

/-- Comparison of dates (datetime). -/
def dateLe (x y : MonthDay) : Prop := x.month < y.month ∨ (x.month = y.month ∧ x.day ≤ y.day)

instance (x y : MonthDay) : Decidable (dateLe x y) := by unfold dateLe; infer_instance

/-- `x + relativedelta(months=1)` (dateutil): the day is cut to the length of the month. -/
def addMonth (x : MonthDay) : MonthDay := ⟨x.month + 1, min x.day (monthLen (x.month + 1))⟩

/-- compute_mjo_enso.py:188-192 the dates of the passes of the while loop; `fuel` bounds the number of passes (one per
    month is enough). -/
def monthLoop (edt : MonthDay) : ℕ → MonthDay → List MonthDay
  | 0, _ => []
  | fuel + 1, x => if dateLe x edt then x :: monthLoop edt fuel (addMonth x) else []

/-- compute_mjo_enso.py:194 `pd.date_range(datemin, datemax, freq='MS')` (pandas): the months whose first day lies
    between the two dates. -/
def monthStarts (datemin datemax : MonthDay) : List ℕ :=
  (List.range (datemax.month + 1)).filter
    (fun m => decide (dateLe datemin ⟨m, 1⟩ ∧ dateLe ⟨m, 1⟩ datemax))

/-- Standard deviation (ddof=0) over the values that are not missing. -/
noncomputable def stdSkip (l : List (Option ℝ)) : Option ℝ :=
  let v := l.filterMap id
  if v = [] then none
  else
    let m := v.sum / v.length
    some (Real.sqrt ((v.map (fun x => (x - m) ^ 2)).sum / v.length))

/-- compute_mjo_enso.py:126-130: a field (time, longitude) divided by its standard deviation in time. -/
noncomputable def normField (nT : ℕ) (x : ℕ → ℕ → Option ℝ) (t i : ℕ) : Option ℝ :=
  odiv (x t i) (stdSkip ((List.range nT).map (fun s => x s i)))

/-- compute_mjo_enso.py:133-135: the two fields side by side. -/
noncomputable def multiField (nT nLon : ℕ) (sst wmj : ℕ → ℕ → Option ℝ) (t k : ℕ) : Option ℝ :=
  if k < nLon then normField nT wmj t k else normField nT sst t (k - nLon)

/-- compute_mjo_enso.py:148-151: the negative of one principal component at one time. -/
noncomputable def pcRaw (nT nLon : ℕ) (sst wmj : ℕ → ℕ → Option ℝ) (eof : ℕ → ℝ) (t : ℕ) : Option ℝ :=
  (osum (2 * nLon) (fun k : ℕ => omul (some (eof k)) (multiField nT nLon sst wmj t k))).map (fun v => -v)

/-- `np.std(x)` of numpy (ddof=0): missing if any value is. -/
noncomputable def ostd0 (n : ℕ) (f : ℕ → Option ℝ) : Option ℝ :=
  (osum n f).bind (fun s =>
    (osum n (fun i : ℕ => (f i).map (fun x => (x - s / n) ^ 2))).map (fun q => Real.sqrt (q / n)))

/-- compute_mjo_enso.py:153-154: the principal component divided by its standard deviation. -/
noncomputable def pcNorm (nT nLon : ℕ) (sst wmj : ℕ → ℕ → Option ℝ) (eof : ℕ → ℝ) (t : ℕ) : Option ℝ :=
  odiv (pcRaw nT nLon sst wmj eof t) (ostd0 nT (pcRaw nT nLon sst wmj eof))

/-- compute_mjo_enso.py:158: the daily values of the first index. -/
noncomputable def pcMake (nT nLon : ℕ) (sst wmj : ℕ → ℕ → Option ℝ) (e1 e2 : ℕ → ℝ) (t : ℕ) : Option ℝ :=
  oadd (pcNorm nT nLon sst wmj e1 t) ((pcNorm nT nLon sst wmj e2 t).map (fun v => |v|))

/-- compute_mjo_enso.py:159: the daily values of the second index. -/
noncomputable def pcMaki (nT nLon : ℕ) (sst wmj : ℕ → ℕ → Option ℝ) (e1 e2 : ℕ → ℝ) (t : ℕ) : Option ℝ :=
  oadd (pcNorm nT nLon sst wmj e1 t) (pcNorm nT nLon sst wmj e2 t)

/-- compute_mjo_enso.py:189-191: the smallest daily value from 90 days before the date to the date; nothing in this time
    raises a ValueError, only missing values give a missing one. -/
noncomputable def windowMin (times : List MonthDay) (x : List (Option ℝ)) (d : MonthDay) : Except PyErr (Option ℝ) :=
  let w := (times.zip x).filter (fun p => decide (dayNumber d ≤ dayNumber p.1 + 90 ∧ dayNumber p.1 ≤ dayNumber d))
  if w = [] then .error .valueError else .ok ((w.filterMap (fun p => p.2)).min?)

/-- compute_mjo_enso.py:174-201: from daily to monthly values with the labels of the months: the loop, the labels, which
    must be as many as the values, and the division by the standard deviation.  The times are taken to be in order. -/
noncomputable def monthlyIndex (times : List MonthDay) (x : List (Option ℝ)) : Except PyErr (List (ℕ × Option ℝ)) :=
  match times[90]?, times.getLast? with
  | some st, some ed =>
    match (monthLoop ed (ed.month + 1 - st.month) st).mapM (windowMin times x) with
    | .error e => .error e
    | .ok vals =>
      let labels := monthStarts st ed
      if vals.length ≠ labels.length then .error .valueError
      else .ok (labels.zip (vals.map (fun v => odiv v (stdSkip vals))))
  | _, _ => .error .indexError

end Metcalcpy
