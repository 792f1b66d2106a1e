import Mathlib.Tactic.Linarith
import Mathlib.Tactic.Ring
import Mathlib.Order.Bounds.Basic
import Mathlib.Logic.Function.Iterate
import Verif.Model.MakiIndex
import Verif.Props.C168_TauMJO

/-!
C161, C170, C171: the monthly MaKE and MaKI indices.
-/

namespace Metcalcpy.Spec

/-- A daily record: existing dates, each one day after the one before. -/
def DailyRecord (times : List MonthDay) : Prop :=
  (∀ t ∈ times, 1 ≤ t.day ∧ t.day ≤ monthLen t.month) ∧
  ∀ (i : ℕ) (a b : MonthDay), times[i]? = some a → times[i + 1]? = some b → dayNumber b = dayNumber a + 1

/-- `w` is the smallest of the values of the days `lo ... hi`, missing if all of them are. -/
def SmallestInDays (times : List MonthDay) (x : List (Option ℝ)) (lo hi : ℕ) (w : Option ℝ) : Prop :=
  (∀ r, w = some r ↔
    IsLeast {v | ∃ (i : ℕ) (t : MonthDay), times[i]? = some t ∧ x[i]? = some (some v) ∧ lo ≤ dayNumber t ∧ dayNumber t ≤ hi} r)

/-- Population standard deviation. -/
noncomputable def popStd (v : List ℝ) : ℝ := Real.sqrt ((v.map (fun x => (x - v.sum / v.length) ^ 2)).sum / v.length)

/-- `v` is the value `w`, one of the values `raw`, divided by the standard deviation of those that are not missing; there is no
    value if `w` is missing or the deviation is zero. -/
def Standardized (raw : List (Option ℝ)) (w v : Option ℝ) : Prop :=
  (w = none → v = none) ∧
  ∀ a, w = some a → (popStd (raw.filterMap id) = 0 → v = none) ∧
    (popStd (raw.filterMap id) ≠ 0 → v = some (a / popStd (raw.filterMap id)))

end Metcalcpy.Spec

namespace Metcalcpy

open Spec

theorem monthLen_ge (m : ℕ) : 28 ≤ monthLen m := by
  unfold monthLen daysInMonth
  split
  · split <;> omega
  · split <;> omega

theorem cumDays_mono {m n : ℕ} (h : m ≤ n) : ((List.range m).map monthLen).sum ≤ ((List.range n).map monthLen).sum := by
  induction n, h using Nat.le_induction with
  | base => exact le_rfl
  | succ n _ ih => rw [List.range_succ]; simp; omega

theorem dayNumber_le {x y : MonthDay} (hx : x.day ≤ monthLen x.month) (h : dateLe x y) : dayNumber x ≤ dayNumber y := by
  unfold dayNumber
  rcases h with h | ⟨h1, h2⟩
  · have h3 := cumDays_mono (show x.month + 1 ≤ y.month from h)
    rw [List.range_succ] at h3
    simp at h3 ⊢
    omega
  · rw [h1]; omega

theorem iterate_addMonth_month (x : MonthDay) (k : ℕ) : (addMonth^[k] x).month = x.month + k := by
  induction k with
  | zero => rfl
  | succ k ih => 
    rw [Function.iterate_succ', Function.comp_apply]
    show (addMonth^[k] x).month + 1 = _
    rw [ih]; omega

theorem iterate_addMonth_valid (x : MonthDay) (h1 : 1 ≤ x.day) (h2 : x.day ≤ monthLen x.month) (k : ℕ) :
    1 ≤ (addMonth^[k] x).day ∧ (addMonth^[k] x).day ≤ monthLen (addMonth^[k] x).month := by
  induction k with
  | zero => exact ⟨h1, h2⟩
  | succ k ih =>
    rw [Function.iterate_succ', Function.comp_apply]
    have := monthLen_ge ((addMonth^[k] x).month + 1)
    constructor
    · show 1 ≤ min _ _
      omega
    · show min _ _ ≤ monthLen ((addMonth^[k] x).month + 1)
      omega

theorem iterate_addMonth_le (x : MonthDay) (k : ℕ) : (addMonth^[k] x).day ≤ x.day := by
  induction k with
  | zero => exact le_rfl
  | succ k ih =>
    rw [Function.iterate_succ', Function.comp_apply]
    show min _ _ ≤ _
    omega

theorem iterate_addMonth_one (x : MonthDay) (h : x.day = 1) (k : ℕ) : addMonth^[k] x = ⟨x.month + k, 1⟩ := by
  have h1 := iterate_addMonth_month x k
  have h2 := (iterate_addMonth_valid x (by omega) (by have := monthLen_ge x.month; omega) k).1
  have h3 := iterate_addMonth_le x k
  rcases hh : addMonth^[k] x with ⟨m, d⟩
  rw [hh] at h1 h2 h3
  simp only at h1 h2 h3
  have : d = 1 := by omega
  rw [h1, this]

theorem iterate_addMonth_least (x : MonthDay) (k : ℕ) :
    IsLeast {d | d = x.day ∨ ∃ m, x.month < m ∧ m ≤ x.month + k ∧ d = monthLen m} (addMonth^[k] x).day := by
  induction k with
  | zero =>
    constructor
    · left; rfl
    · rintro d (rfl | ⟨m, h1, h2, _⟩)
      · exact le_rfl
      · omega
  | succ k ih =>
    obtain ⟨ih1, ih2⟩ := ih
    rw [Function.iterate_succ', Function.comp_apply]
    have hd : (addMonth (addMonth^[k] x)).day = min (addMonth^[k] x).day (monthLen (x.month + k + 1)) := by
      rw [← iterate_addMonth_month x k]; rfl
    rw [hd]
    constructor
    · rcases Nat.le_total (addMonth^[k] x).day (monthLen (x.month + k + 1)) with h | h
      · rw [min_eq_left h]
        rcases ih1 with h | ⟨m, h1, h2, h3⟩
        · left; exact h
        · right; exact ⟨m, h1, by omega, h3⟩
      · rw [min_eq_right h]; right; exact ⟨x.month + k + 1, by omega, by omega, rfl⟩
    · rintro d (rfl | ⟨m, h1, h2, rfl⟩)
      · have := ih2 (Or.inl rfl)
        omega
      · rcases Nat.lt_or_ge (x.month + k) m with h | h
        · have : m = x.month + k + 1 := by omega
          rw [this]; exact min_le_right _ _
        · have := ih2 (Or.inr ⟨m, h1, h, rfl⟩)
          omega

/-- The dates of the loop. -/
theorem monthLoop_eq (ed : MonthDay) : ∀ (fuel : ℕ) (x : MonthDay), ed.month + 1 - x.month ≤ fuel → x.month ≤ ed.month →
    monthLoop ed fuel x = (List.range (ed.month - x.month +
      (if (addMonth^[ed.month - x.month] x).day ≤ ed.day then 1 else 0))).map (fun k => addMonth^[k] x) := by
  intro fuel
  induction fuel with
  | zero => intro x h1 h2; omega
  | succ fuel ih =>
    intro x h1 h2
    unfold monthLoop
    by_cases hx : x.month = ed.month
    · have h0 : ed.month - x.month = 0 := by omega
      rw [h0]
      by_cases hd : x.day ≤ ed.day
      · rw [if_pos (show dateLe x ed from Or.inr ⟨hx, hd⟩), if_pos (show (addMonth^[0] x).day ≤ ed.day from hd)]
        have : monthLoop ed fuel (addMonth x) = [] := by
          cases fuel with
          | zero => rfl
          | succ f =>
            unfold monthLoop
            rw [if_neg]
            unfold dateLe addMonth
            simp only
            omega
        rw [this]; rfl
      · rw [if_neg, if_neg (show ¬ (addMonth^[0] x).day ≤ ed.day from hd)]
        · rfl
        · unfold dateLe; omega
    · rw [if_pos (show dateLe x ed from Or.inl (by omega))]
      have hm : (addMonth x).month = x.month + 1 := rfl
      rw [ih (addMonth x) (by rw [hm]; omega) (by rw [hm]; omega), hm]
      have e : ed.month - x.month = (ed.month - (x.month + 1)) + 1 := by omega
      have e2 : addMonth^[ed.month - x.month] x = addMonth^[ed.month - (x.month + 1)] (addMonth x) := by
        rw [e, Function.iterate_succ]; rfl
      rw [e2]
      have e3 : ed.month - x.month + (if (addMonth^[ed.month - (x.month + 1)] (addMonth x)).day ≤ ed.day then 1 else 0) =
          (ed.month - (x.month + 1) + (if (addMonth^[ed.month - (x.month + 1)] (addMonth x)).day ≤ ed.day then 1 else 0)) + 1 := by
        omega
      rw [e3, List.range_succ_eq_map, List.map_cons, List.map_map]
      rfl

theorem monthStarts_eq (st ed : MonthDay) (hs : 1 ≤ st.day) (he : 1 ≤ ed.day) (L : ℕ)
    (hL : L = if st.day = 1 then st.month else st.month + 1) :
    monthStarts st ed = (List.range (ed.month + 1)).drop L := by
  have hdrop : ∀ n, (List.range n).filter (fun j => decide (L ≤ j)) = (List.range n).drop L := by
    intro n
    induction n with
    | zero => simp
    | succ n ih =>
      rw [List.range_succ, List.filter_append, ih]
      by_cases hk : L ≤ n
      · rw [List.drop_append_of_le_length (by simpa using hk)]; simp [hk]
      · have : (List.range n ++ [n]).drop L = [] := by rw [List.drop_eq_nil_iff]; simp; omega
        rw [this]
        have : (List.range n).drop L = [] := by rw [List.drop_eq_nil_iff]; simp; omega
        rw [this]; simp; omega
  rw [← hdrop]
  unfold monthStarts
  apply List.filter_congr
  intro m hm
  have hm' : m ≤ ed.month := by have := List.mem_range.mp hm; omega
  rw [decide_eq_decide]
  unfold dateLe
  simp only
  rw [hL]
  split <;> omega

theorem monthStarts_length (st ed : MonthDay) (hs : 1 ≤ st.day) (he : 1 ≤ ed.day) :
    (monthStarts st ed).length = ed.month + 1 - (if st.day = 1 then st.month else st.month + 1) := by
  rw [monthStarts_eq st ed hs he _ rfl, List.length_drop, List.length_range]

theorem monthStarts_get (st ed : MonthDay) (hs : 1 ≤ st.day) (he : 1 ≤ ed.day) (j m : ℕ)
    (h : (monthStarts st ed)[j]? = some m) : m = (if st.day = 1 then st.month else st.month + 1) + j := by
  rw [monthStarts_eq st ed hs he _ rfl, List.getElem?_drop] at h
  have hlt : (if st.day = 1 then st.month else st.month + 1) + j < ed.month + 1 := by
    by_contra hc
    rw [List.getElem?_eq_none (by simp; omega)] at h
    simp at h
  rw [List.getElem?_range hlt] at h
  exact (Option.some.inj h).symm

theorem daily_number {times : List MonthDay} (hd : DailyRecord times) {t0 : MonthDay} (h0 : times[0]? = some t0) :
    ∀ (i : ℕ) (a : MonthDay), times[i]? = some a → dayNumber a = dayNumber t0 + i := by
  intro i
  induction i with
  | zero => intro a ha; rw [h0] at ha; obtain rfl := Option.some.inj ha; simp
  | succ i ih =>
    intro a ha
    have hi : i < times.length := by
      by_contra hc
      rw [List.getElem?_eq_none (by omega)] at ha
      simp at ha
    have hb : times[i]? = some times[i] := List.getElem?_eq_getElem hi
    have := hd.2 i _ a hb ha
    rw [this, ih _ hb]; omega

theorem min?_isLeast (l : List ℝ) (r : ℝ) : l.min? = some r ↔ IsLeast {v | v ∈ l} r := by
  rw [List.min?_eq_some_iff]
  constructor
  · rintro ⟨h1, h2⟩; exact ⟨h1, fun v hv => h2 v hv⟩
  · rintro ⟨h1, h2⟩; exact ⟨h1, fun v hv => h2 hv⟩

/-- The smallest value of the window of a date. -/
noncomputable def winVal (times : List MonthDay) (x : List (Option ℝ)) (d : MonthDay) : Option ℝ :=
  (((times.zip x).filter (fun p => decide (dayNumber d ≤ dayNumber p.1 + 90 ∧ dayNumber p.1 ≤ dayNumber d))).filterMap
    (fun p => p.2)).min?

theorem winVal_spec (times : List MonthDay) (x : List (Option ℝ)) (d : MonthDay) :
    SmallestInDays times x (dayNumber d - 90) (dayNumber d) (winVal times x d) := by
  intro r
  unfold winVal
  rw [min?_isLeast]
  have hset : {v : ℝ | v ∈ ((times.zip x).filter (fun p => decide (dayNumber d ≤ dayNumber p.1 + 90 ∧
      dayNumber p.1 ≤ dayNumber d))).filterMap (fun p => p.2)} =
      {v | ∃ (i : ℕ) (t : MonthDay), times[i]? = some t ∧ x[i]? = some (some v) ∧
        dayNumber d - 90 ≤ dayNumber t ∧ dayNumber t ≤ dayNumber d} := by
    ext v
    simp only [Set.mem_setOf_eq, List.mem_filterMap, List.mem_filter, decide_eq_true_eq]
    constructor
    · rintro ⟨⟨t, o⟩, ⟨hmem, h1, h2⟩, hv⟩
      obtain ⟨i, hi⟩ := List.mem_iff_getElem?.mp hmem
      rw [List.getElem?_zip_eq_some] at hi
      simp only at hi hv h1 h2
      exact ⟨i, t, hi.1, by rw [hi.2, hv], by omega, h2⟩
    · rintro ⟨i, t, h1, h2, h3, h4⟩
      refine ⟨(t, some v), ⟨?_, ?_, h4⟩, rfl⟩
      · apply List.mem_iff_getElem?.mpr
        exact ⟨i, by rw [List.getElem?_zip_eq_some]; exact ⟨h1, h2⟩⟩
      · simp only; omega
  rw [hset]

theorem windowMin_ok {times : List MonthDay} {x : List (Option ℝ)} (hl : x.length = times.length) {d : MonthDay}
    (h : ∃ t ∈ times, dayNumber t = dayNumber d) : windowMin times x d = .ok (winVal times x d) := by
  obtain ⟨t, ht, he⟩ := h
  unfold windowMin winVal
  dsimp only
  rw [if_neg]
  intro hc
  rw [List.filter_eq_nil_iff] at hc
  obtain ⟨i, hi⟩ := List.mem_iff_getElem?.mp ht
  have hix : i < x.length := by
    rw [hl]; by_contra hge
    rw [List.getElem?_eq_none (by omega)] at hi; simp at hi
  have := hc (t, x[i]) (List.mem_iff_getElem?.mpr ⟨i, by
    rw [List.getElem?_zip_eq_some]; exact ⟨hi, List.getElem?_eq_getElem hix⟩⟩)
  simp only [decide_eq_true_eq] at this
  omega

theorem mapM_ok_fn {α β : Type} (g : α → Except PyErr β) (k : α → β) (l : List α) (h : ∀ x ∈ l, g x = .ok (k x)) :
    l.mapM g = .ok (l.map k) := by
  induction l with
  | nil => rfl
  | cons a l ih =>
    rw [List.mapM_cons, h a (by simp), ih (fun x hx => h x (by simp [hx]))]
    rfl

theorem odiv_stdSkip {raw : List (Option ℝ)} {w : Option ℝ} (hw : w ∈ raw) : Standardized raw w (odiv w (stdSkip raw)) := by
  constructor
  · rintro rfl; rfl
  · rintro a rfl
    have hne : raw.filterMap id ≠ [] := by
      apply List.ne_nil_of_mem (a := a)
      rw [List.mem_filterMap]
      exact ⟨some a, hw, rfl⟩
    have e : stdSkip raw = some (popStd (raw.filterMap id)) := by
      unfold stdSkip popStd
      dsimp only
      rw [if_neg hne]
    rw [e]
    generalize popStd (raw.filterMap id) = q
    constructor
    · intro h; simp [odiv, h]
    · intro h; simp [odiv, h]

/-- The monthly values of a daily record: the function up to the comparison of the lengths. -/
theorem monthlyIndex_eq (times : List MonthDay) (x : List (Option ℝ)) (hd : DailyRecord times)
    (hl : x.length = times.length) (st ed : MonthDay) (hst : times[90]? = some st) (hed : times.getLast? = some ed) :
    1 ≤ st.day ∧ 1 ≤ ed.day ∧ st.month ≤ ed.month ∧
    monthlyIndex times x =
      (if (ed.month - st.month + (if (addMonth^[ed.month - st.month] st).day ≤ ed.day then 1 else 0)) ≠
          (monthStarts st ed).length then .error .valueError
        else .ok ((monthStarts st ed).zip
          (((List.range (ed.month - st.month + (if (addMonth^[ed.month - st.month] st).day ≤ ed.day then 1 else 0))).map
            (fun k => winVal times x (addMonth^[k] st))).map (fun v => odiv v (stdSkip
            ((List.range (ed.month - st.month + (if (addMonth^[ed.month - st.month] st).day ≤ ed.day then 1 else 0))).map
            (fun k => winVal times x (addMonth^[k] st)))))))) := by
  have hstm : st ∈ times := List.mem_of_getElem? hst
  have hedm : ed ∈ times := List.mem_of_getLast? hed
  obtain ⟨hs1, hs2⟩ := hd.1 st hstm
  obtain ⟨he1, he2⟩ := hd.1 ed hedm
  have hne : times ≠ [] := List.ne_nil_of_mem hstm
  have h0 : ∃ t0, times[0]? = some t0 := ⟨times[0]'(List.length_pos_of_ne_nil hne), List.getElem?_eq_getElem _⟩
  obtain ⟨t0, h0⟩ := h0
  have h90 : 90 < times.length := by
    by_contra hc
    rw [List.getElem?_eq_none (by omega)] at hst; simp at hst
  have hnst := daily_number hd h0 90 st hst
  have hned := daily_number hd h0 (times.length - 1) ed (by rw [← hed, List.getLast?_eq_getElem?])
  -- start before end
  have hle : st.month ≤ ed.month := by
    by_contra hc
    have hlt : dateLe ed st := Or.inl (by omega)
    have h1 := dayNumber_le he2 hlt
    have h2 : dayNumber ed < dayNumber st := by
      unfold dayNumber
      have h3 := cumDays_mono (show ed.month + 1 ≤ st.month by omega)
      rw [List.range_succ] at h3
      simp at h3 ⊢
      omega
    omega
  refine ⟨hs1, he1, hle, ?_⟩
  unfold monthlyIndex
  rw [hst, hed]
  dsimp only
  rw [monthLoop_eq ed _ st le_rfl hle]
  set K := ed.month - st.month + (if (addMonth^[ed.month - st.month] st).day ≤ ed.day then 1 else 0) with hK
  have hvals : ((List.range K).map (fun k => addMonth^[k] st)).mapM (windowMin times x) =
      .ok (((List.range K).map (fun k => addMonth^[k] st)).map (winVal times x)) := by
    apply mapM_ok_fn
    intro d hdm
    obtain ⟨k, hk, rfl⟩ := List.mem_map.mp hdm
    apply windowMin_ok hl
    have hkK := List.mem_range.mp hk
    have hv := iterate_addMonth_valid st hs1 hs2 k
    have hlow : dayNumber st ≤ dayNumber (addMonth^[k] st) := by
      rcases Nat.eq_zero_or_pos k with rfl | hp
      · exact le_rfl
      · exact dayNumber_le hs2 (Or.inl (by rw [iterate_addMonth_month]; omega))
    have hhigh : dayNumber (addMonth^[k] st) ≤ dayNumber ed := by
      apply dayNumber_le hv.2
      unfold dateLe
      rw [iterate_addMonth_month]
      rcases Nat.lt_or_ge k (ed.month - st.month) with h | h
      · left; omega
      · right
        have hke : k = ed.month - st.month := by
          rw [hK] at hkK
          split at hkK <;> omega
        refine ⟨by omega, ?_⟩
        by_contra hc
        rw [hK] at hkK
        rw [← hke, if_neg hc] at hkK
        omega
    set i := dayNumber (addMonth^[k] st) - dayNumber t0 with hi
    have hil : i < times.length := by omega
    refine ⟨times[i], List.getElem_mem hil, ?_⟩
    rw [daily_number hd h0 i _ (List.getElem?_eq_getElem hil)]
    omega
  rw [hvals]
  dsimp only
  rw [List.map_map, List.length_map, List.length_range]
  rfl

namespace Props

/-- The day after. -/
def nextDay (x : MonthDay) : MonthDay := if x.day < monthLen x.month then ⟨x.month, x.day + 1⟩ else ⟨x.month + 1, 1⟩

/-- The `n` days from a date on. -/
def daysFrom (x : MonthDay) (n : ℕ) : List MonthDay := (List.range n).map (fun k => nextDay^[k] x)

/-- The hypotheses can be met: all days from any existing date on, any number of them, are a daily record. -/
theorem daysFrom_daily (x : MonthDay) (h1 : 1 ≤ x.day) (h2 : x.day ≤ monthLen x.month) (n : ℕ) : DailyRecord (daysFrom x n) := by
  have hv : ∀ k, 1 ≤ (nextDay^[k] x).day ∧ (nextDay^[k] x).day ≤ monthLen (nextDay^[k] x).month := by
    intro k
    induction k with
    | zero => exact ⟨h1, h2⟩
    | succ k ih =>
      rw [Function.iterate_succ', Function.comp_apply]
      generalize nextDay^[k] x = y at ih
      unfold nextDay
      split
      · exact ⟨by simp, by simp only; omega⟩
      · have := monthLen_ge (y.month + 1)
        exact ⟨le_rfl, by simp only; omega⟩
  constructor
  · intro t ht
    obtain ⟨k, _, rfl⟩ := List.mem_map.mp ht
    exact hv k
  · intro i a b ha hb
    unfold daysFrom at ha hb
    rw [List.getElem?_map, Option.map_eq_some_iff] at ha hb
    obtain ⟨i1, hi1, rfl⟩ := ha
    obtain ⟨i2, hi2, rfl⟩ := hb
    have e1 : i1 = i := by
      have := List.getElem?_eq_some_iff.mp hi1
      obtain ⟨h, e⟩ := this
      rw [List.getElem_range] at e; exact e.symm
    have e2 : i2 = i + 1 := by
      have := List.getElem?_eq_some_iff.mp hi2
      obtain ⟨h, e⟩ := this
      rw [List.getElem_range] at e; exact e.symm
    rw [e1, e2, Function.iterate_succ', Function.comp_apply]
    have := hv i
    generalize nextDay^[i] x = y at this
    unfold nextDay dayNumber
    split
    · simp only; omega
    · simp only [List.range_succ, List.map_append, List.sum_append, List.map_cons, List.map_nil, List.sum_cons, List.sum_nil]
      omega

/-- C161.  For which daily records of more than 90 days the function returns: the day of the month of its 91st day, cut to
    the shortest of the months up to the last, must be 1, or later than the day of the month of its last day. -/
theorem C161_returns (times : List MonthDay) (x : List (Option ℝ)) (hd : DailyRecord times)
    (hl : x.length = times.length) (st ed : MonthDay) (hst : times[90]? = some st) (hed : times.getLast? = some ed)
    (d : ℕ) (hleast : IsLeast {d | d = st.day ∨ ∃ m, st.month < m ∧ m ≤ ed.month ∧ d = monthLen m} d) :
    ((∃ out, monthlyIndex times x = .ok out) ↔ st.day = 1 ∨ ed.day < d) ∧
    (¬ (st.day = 1 ∨ ed.day < d) → monthlyIndex times x = .error .valueError) := by
  obtain ⟨hs, he, hle, heq⟩ := monthlyIndex_eq times x hd hl st ed hst hed
  have hmm : st.month + (ed.month - st.month) = ed.month := by omega
  have hl2 := iterate_addMonth_least st (ed.month - st.month)
  rw [hmm] at hl2
  have hdd : d = (addMonth^[ed.month - st.month] st).day := hleast.unique hl2
  rw [← hdd, monthStarts_length st ed hs he] at heq
  have hd1 : d ≤ st.day := hleast.2 (Or.inl rfl)
  have hd0 : 1 ≤ d := by
    rcases hleast.1 with h | ⟨m, _, _, h⟩
    · omega
    · have := monthLen_ge m; omega
  have hcond : (ed.month - st.month + (if d ≤ ed.day then 1 else 0)) ≠
      ed.month + 1 - (if st.day = 1 then st.month else st.month + 1) ↔ ¬ (st.day = 1 ∨ ed.day < d) := by
    by_cases h1 : st.day = 1
    · simp only [h1, if_true, true_or, not_true_eq_false, iff_false, not_not]
      rw [if_pos (by omega)]; omega
    · simp only [h1, if_false, false_or]
      by_cases h2 : d ≤ ed.day
      · rw [if_pos h2]; omega
      · rw [if_neg h2]; omega
  constructor
  · constructor
    · rintro ⟨out, ho⟩
      by_contra hc
      rw [heq, if_pos (hcond.mpr hc)] at ho
      simp at ho
    · intro h
      rw [heq, if_neg (fun hc => hcond.mp hc h)]
      exact ⟨_, rfl⟩
  · intro h
    rw [heq, if_pos (hcond.mpr h)]

/-- C161.  What the months are given: if the 91st day is the first of a month, the value of a month is, up to one common factor,
    the smallest daily value of the 91 days that end with its first day, not of the 90 days that begin with it. -/
theorem C161_window_counterexample (times : List MonthDay) (x : List (Option ℝ)) (hd : DailyRecord times)
    (hl : x.length = times.length) (st ed : MonthDay) (hst : times[90]? = some st) (hed : times.getLast? = some ed)
    (h1 : st.day = 1) (out : List (ℕ × Option ℝ)) (ho : monthlyIndex times x = .ok out) :
    ∃ raw : List (Option ℝ), raw.length = out.length ∧ ∀ (j m : ℕ) (v : Option ℝ), out[j]? = some (m, v) → m = st.month + j ∧
      ∃ w, raw[j]? = some w ∧ SmallestInDays times x (dayNumber ⟨m, 1⟩ - 90) (dayNumber ⟨m, 1⟩) w ∧ Standardized raw w v := by
  obtain ⟨hs, he, hle, heq⟩ := monthlyIndex_eq times x hd hl st ed hst hed
  rw [ho] at heq
  generalize (ed.month - st.month + (if (addMonth^[ed.month - st.month] st).day ≤ ed.day then 1 else 0)) = K at heq
  split at heq
  · simp at heq
  · have := Except.ok.inj heq
    refine ⟨(List.range K).map (fun k => winVal times x (addMonth^[k] st)), ?_, fun j m v hj => ?_⟩
    · rename_i hlen
      rw [this, List.length_zip]
      simp only [List.length_map, List.length_range]
      omega
    · rw [this, List.getElem?_zip_eq_some] at hj
      obtain ⟨hj1, hj2⟩ := hj
      have hm := monthStarts_get st ed hs he j m hj1
      rw [if_pos h1] at hm
      refine ⟨hm, ?_⟩
      simp only at hj2
      rw [List.map_map, List.getElem?_map, Option.map_eq_some_iff] at hj2
      obtain ⟨k, hk, hv⟩ := hj2
      have hkj : k = j := by
        have hlt : j < (List.range K).length := by
          by_contra hc
          rw [List.getElem?_eq_none (by omega)] at hk; simp at hk
        rw [List.getElem?_range (by simpa using hlt)] at hk
        exact (Option.some.inj hk).symm
      subst hkj
      rw [← hv]
      refine ⟨winVal times x (addMonth^[k] st), by rw [List.getElem?_map, hk]; rfl, ?_,
        odiv_stdSkip (List.mem_map.mpr ⟨k, List.mem_of_getElem? hk, rfl⟩)⟩
      rw [iterate_addMonth_one st h1 k, ← hm]
      exact winVal_spec times x ⟨m, 1⟩

/-- C161.  If the 91st day is not the first of a month and the function returns, the value of a month is that of the 91 days that
    end in the month before, on the day of the month of the 91st day. -/
theorem C161_shifted_counterexample (times : List MonthDay) (x : List (Option ℝ)) (hd : DailyRecord times)
    (hl : x.length = times.length) (st ed : MonthDay) (hst : times[90]? = some st) (hed : times.getLast? = some ed)
    (h1 : st.day ≠ 1) (h28 : st.day ≤ 28) (out : List (ℕ × Option ℝ)) (ho : monthlyIndex times x = .ok out) :
    ∃ raw : List (Option ℝ), raw.length = out.length ∧ ∀ (j m : ℕ) (v : Option ℝ), out[j]? = some (m + 1, v) → m = st.month + j ∧
      ∃ w, raw[j]? = some w ∧ SmallestInDays times x (dayNumber ⟨m, st.day⟩ - 90) (dayNumber ⟨m, st.day⟩) w ∧ Standardized raw w v := by
  obtain ⟨hs, he, hle, heq⟩ := monthlyIndex_eq times x hd hl st ed hst hed
  rw [ho] at heq
  have hit : ∀ k, addMonth^[k] st = ⟨st.month + k, st.day⟩ := by
    intro k
    induction k with
    | zero => rfl
    | succ k ih =>
      rw [Function.iterate_succ', Function.comp_apply, ih]
      unfold addMonth
      simp only
      have := monthLen_ge (st.month + k + 1)
      rw [min_eq_left (by omega)]
      rfl
  generalize (ed.month - st.month + (if (addMonth^[ed.month - st.month] st).day ≤ ed.day then 1 else 0)) = K at heq
  split at heq
  · simp at heq
  · have := Except.ok.inj heq
    refine ⟨(List.range K).map (fun k => winVal times x (addMonth^[k] st)), ?_, fun j m v hj => ?_⟩
    · rename_i hlen
      rw [this, List.length_zip]
      simp only [List.length_map, List.length_range]
      omega
    · rw [this, List.getElem?_zip_eq_some] at hj
      obtain ⟨hj1, hj2⟩ := hj
      have hm := monthStarts_get st ed hs he j _ hj1
      rw [if_neg h1] at hm
      have hm' : m = st.month + j := by omega
      refine ⟨hm', ?_⟩
      simp only at hj2
      rw [List.map_map, List.getElem?_map, Option.map_eq_some_iff] at hj2
      obtain ⟨k, hk, hv⟩ := hj2
      have hkj : k = j := by
        have hlt : j < (List.range K).length := by
          by_contra hc
          rw [List.getElem?_eq_none (by omega)] at hk; simp at hk
        rw [List.getElem?_range (by simpa using hlt)] at hk
        exact (Option.some.inj hk).symm
      subst hkj
      rw [← hv]
      refine ⟨winVal times x (addMonth^[k] st), by rw [List.getElem?_map, hk]; rfl, ?_,
        odiv_stdSkip (List.mem_map.mpr ⟨k, List.mem_of_getElem? hk, rfl⟩)⟩
      rw [hit k, ← hm']
      exact winVal_spec times x ⟨m, st.day⟩

/-- C161.  A record of the 240 days from the second of January of year 1 on raises a ValueError; one day earlier it returns. -/
theorem C161_raises_counterexample (x : List (Option ℝ)) (hx : x.length = 240) :
    monthlyIndex (daysFrom ⟨12, 2⟩ 240) x = .error .valueError ∧
    ∃ out, monthlyIndex (daysFrom ⟨12, 1⟩ 240) x = .ok out := by
  constructor
  · have hd := daysFrom_daily ⟨12, 2⟩ (by decide) (by decide) 240
    refine (C161_returns _ x hd (by rw [daysFrom, List.length_map, List.length_range, hx]) ⟨15, 2⟩ ⟨19, 29⟩ (by decide +kernel) (by decide +kernel) 2 ?_).2
      (by decide)
    refine ⟨Or.inl rfl, ?_⟩
    rintro d (rfl | ⟨m, _, _, rfl⟩)
    · exact le_rfl
    · have := monthLen_ge m; omega
  · have hd := daysFrom_daily ⟨12, 1⟩ (by decide) (by decide) 240
    refine (C161_returns _ x hd (by rw [daysFrom, List.length_map, List.length_range, hx]) ⟨15, 1⟩ ⟨19, 28⟩ (by decide +kernel) (by decide +kernel) 1 ?_).1.mpr
      (Or.inl rfl)
    refine ⟨Or.inl rfl, ?_⟩
    rintro d (rfl | ⟨m, _, _, rfl⟩)
    · exact le_rfl
    · have := monthLen_ge m; omega

/-- A record as in `C161_shifted_counterexample` for which the function returns: from the tenth of January to the fifth of
    September. -/
example (x : List (Option ℝ)) (hx : x.length = 239) : ∃ out, monthlyIndex (daysFrom ⟨12, 10⟩ 239) x = .ok out := by
  have hd := daysFrom_daily ⟨12, 10⟩ (by decide) (by decide) 239
  refine (C161_returns _ x hd (by rw [daysFrom, List.length_map, List.length_range, hx]) ⟨15, 10⟩ ⟨20, 5⟩ (by decide +kernel)
    (by decide +kernel) 10 ?_).1.mpr (Or.inr (by decide))
  refine ⟨Or.inl rfl, ?_⟩
  rintro d (rfl | ⟨m, _, _, rfl⟩)
  · exact le_rfl
  · have := monthLen_ge m; omega

/-- C161.  Records of 90 days or less raise an IndexError. -/
theorem C161_short (times : List MonthDay) (x : List (Option ℝ)) (h : times.length ≤ 90) :
    monthlyIndex times x = .error .indexError := by
  unfold monthlyIndex
  rw [List.getElem?_eq_none (by omega)]

end Props

theorem stdSkip_scale (c : ℝ) (hc : 0 ≤ c) (l : List (Option ℝ)) : stdSkip (l.map (oscale c)) = oscale c (stdSkip l) := by
  have hf : (l.map (oscale c)).filterMap id = (l.filterMap id).map (fun v => c * v) := by
    induction l with
    | nil => rfl
    | cons a l ih =>
      rw [List.map_cons]
      cases a with
      | none =>
        show List.filterMap id (none :: l.map (oscale c)) = _
        rw [List.filterMap_cons_none rfl, ih, List.filterMap_cons_none rfl]
      | some v =>
        show List.filterMap id (some (c * v) :: l.map (oscale c)) = _
        have e1 : List.filterMap id (some (c * v) :: l.map (oscale c)) = (c * v) :: List.filterMap id (l.map (oscale c)) := rfl
        have e2 : List.filterMap id (some v :: l) = v :: List.filterMap id l := rfl
        rw [e1, ih, e2, List.map_cons]
  unfold stdSkip
  dsimp only
  rw [hf]
  generalize l.filterMap id = v
  by_cases hv : v = []
  · subst hv; rfl
  · rw [if_neg (by simpa using hv), if_neg hv]
    unfold oscale
    simp only [Option.map_some, List.length_map]
    congr 1
    have hs : (v.map (fun v => c * v)).sum = c * v.sum := by
      rw [List.sum_map_mul_left]; simp
    rw [hs, List.map_map]
    have hq : (v.map ((fun x => (x - c * v.sum / v.length) ^ 2) ∘ fun v => c * v)).sum =
        c ^ 2 * (v.map (fun x => (x - v.sum / v.length) ^ 2)).sum := by
      rw [← List.sum_map_mul_left]
      congr 1
      apply List.map_congr_left
      intro a _
      simp only [Function.comp_apply]
      ring
    rw [hq, mul_div_assoc, Real.sqrt_mul (by positivity), Real.sqrt_sq hc]

theorem normField_scale (c : ℝ) (hc : 0 < c) (nT : ℕ) (x : ℕ → ℕ → Option ℝ) (t i : ℕ) :
    normField nT (fun t i => oscale c (x t i)) t i = normField nT x t i := by
  unfold normField
  have e : (List.range nT).map (fun s => oscale c (x s i)) = ((List.range nT).map (fun s => x s i)).map (oscale c) := by
    rw [List.map_map]; rfl
  dsimp only
  rw [e, stdSkip_scale c hc.le, odiv_scale_right c hc.ne', odiv_scale_left, oscale_oscale, inv_mul_cancel₀ hc.ne']
  generalize odiv _ _ = y
  cases y <;> simp [oscale]

theorem multiField_scale (c d : ℝ) (hc : 0 < c) (hd : 0 < d) (nT nLon : ℕ) (sst wmj : ℕ → ℕ → Option ℝ) :
    multiField nT nLon (fun t i => oscale c (sst t i)) (fun t i => oscale d (wmj t i)) = multiField nT nLon sst wmj := by
  funext t k
  unfold multiField
  rw [normField_scale c hc, normField_scale d hd]

theorem pcRaw_none {nT nLon : ℕ} {sst wmj : ℕ → ℕ → Option ℝ} {eof : ℕ → ℝ} {t i : ℕ} (hi : i < nLon)
    (h : sst t i = none ∨ wmj t i = none) : pcRaw nT nLon sst wmj eof t = none := by
  unfold pcRaw
  rcases h with h | h
  · rw [osum_none (i := nLon + i) (by omega)]
    · rfl
    · unfold multiField normField
      rw [if_neg (by omega), Nat.add_sub_cancel_left, h]; rfl
  · rw [osum_none (i := i) (by omega)]
    · rfl
    · unfold multiField normField
      rw [if_pos hi, h]; rfl

namespace Props

/-- C170.  The daily indices do not depend on the units of the two fields. -/
theorem C170_units (c d : ℝ) (hc : 0 < c) (hd : 0 < d) (nT nLon : ℕ) (sst wmj : ℕ → ℕ → Option ℝ) (e1 e2 : ℕ → ℝ) (t : ℕ) :
    pcMake nT nLon (fun t i => (sst t i).map (fun v => c * v)) (fun t i => (wmj t i).map (fun v => d * v)) e1 e2 t =
      pcMake nT nLon sst wmj e1 e2 t ∧
    pcMaki nT nLon (fun t i => (sst t i).map (fun v => c * v)) (fun t i => (wmj t i).map (fun v => d * v)) e1 e2 t =
      pcMaki nT nLon sst wmj e1 e2 t := by
  have h := multiField_scale c d hc hd nT nLon sst wmj
  unfold oscale at h
  unfold pcMake pcMaki pcNorm pcRaw
  rw [h]
  exact ⟨rfl, rfl⟩

/-- C170.  The first index is never smaller than the second. -/
theorem C170_order (nT nLon : ℕ) (sst wmj : ℕ → ℕ → Option ℝ) (e1 e2 : ℕ → ℝ) (t : ℕ) :
    ((pcMake nT nLon sst wmj e1 e2 t).isSome = (pcMaki nT nLon sst wmj e1 e2 t).isSome) ∧
    ∀ a b, pcMake nT nLon sst wmj e1 e2 t = some a → pcMaki nT nLon sst wmj e1 e2 t = some b → b ≤ a := by
  unfold pcMake pcMaki
  generalize pcNorm nT nLon sst wmj e1 t = p
  generalize pcNorm nT nLon sst wmj e2 t = q
  cases p <;> cases q <;> simp [oadd]
  exact le_abs_self _

/-- Two days and one longitude: both indices exist on both days. -/
theorem C171_example (t : ℕ) (ht : t < 2) :
    let f : ℕ → ℕ → Option ℝ := fun t _ => some (if t = 0 then 1 else -1)
    let e : ℕ → ℝ := fun _ => 1 / 2
    pcMaki 2 1 f f e e t = some (if t = 0 then -2 else 2) := by
  intro f e
  have hstd : stdSkip ((List.range 2).map (fun s => f s 0)) = some 1 := by
    have : (List.range 2).map (fun s => f s 0) = [some 1, some (-1)] := by
      simp [f, List.range_succ]
    rw [this]
    simp [stdSkip]
  have hdat : ∀ s < 2, ∀ k < 2, multiField 2 1 f f s k = some (if s = 0 then 1 else -1) := by
    intro s hs k hk
    unfold multiField normField
    rcases (show k = 0 ∨ k = 1 by omega) with rfl | rfl
    · rw [if_pos (by omega), hstd]; simp [odiv, f]
    · rw [if_neg (by omega), hstd]; simp [odiv, f]
  have hraw : ∀ s < 2, pcRaw 2 1 f f e s = some (if s = 0 then -1 else 1) := by
    intro s hs
    unfold pcRaw
    rw [osum_some (g := fun _ => (1 / 2) * (if s = 0 then 1 else -1))]
    · simp [Finset.sum_range_succ]
      split <;> norm_num
    · intro k hk
      rw [hdat s hs k (by omega)]
      simp [omul, e]
  have hsd : ostd0 2 (pcRaw 2 1 f f e) = some 1 := by
    unfold ostd0
    rw [osum_some (g := fun s => if s = 0 then -1 else 1) hraw]
    simp only [Finset.sum_range_succ, Finset.sum_range_zero, Option.bind_some]
    rw [osum_some (g := fun s => 1)]
    · simp
    · intro s hs
      rw [hraw s hs]
      rcases (show s = 0 ∨ s = 1 by omega) with rfl | rfl <;> norm_num
  unfold pcMaki pcNorm
  rw [hsd, hraw t ht]
  rcases (show t = 0 ∨ t = 1 by omega) with rfl | rfl <;> norm_num [oadd, odiv]

/-- C171.  One missing value of either field, on any day, at any longitude: no day has an index. -/
theorem C171_missing_counterexample (nT nLon : ℕ) (sst wmj : ℕ → ℕ → Option ℝ) (e1 e2 : ℕ → ℝ) (t i : ℕ) (ht : t < nT)
    (hi : i < nLon) (h : sst t i = none ∨ wmj t i = none) (s : ℕ) :
    pcMake nT nLon sst wmj e1 e2 s = none ∧ pcMaki nT nLon sst wmj e1 e2 s = none := by
  have hn : ∀ e, pcNorm nT nLon sst wmj e s = none := by
    intro e
    unfold pcNorm ostd0
    rw [osum_none ht (pcRaw_none hi h)]
    generalize pcRaw nT nLon sst wmj e s = y
    cases y <;> rfl
  unfold pcMake pcMaki
  rw [hn e1, hn e2]
  exact ⟨rfl, rfl⟩

end Props

end Metcalcpy
