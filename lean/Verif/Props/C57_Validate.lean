/-
C57  replace_name inserts the post before the extension (false for names with several dots).
C58  The testing period is ordered, and defaults to yesterday .. today.
C82  get_test_xml returns exactly the XML files modified in the period, sorted.
-/
import Verif.Model.Validate
import Verif.Spec.Date
import Mathlib.Tactic.IntervalCases

namespace Metcalcpy.Props
open Metcalcpy Spec

/-! ### C57 -/

theorem replace_nodot (l p : List Char) (h : '.' ∉ l) : replaceNameChars l p = l := by
  induction l with
  | nil => rfl
  | cons c l ih =>
    have hc : c ≠ '.' := by intro e; apply h; rw [e]; exact List.mem_cons_self
    have := ih (fun hm => h (List.mem_cons_of_mem _ hm))
    simp only [replaceNameChars, List.flatMap_cons, if_neg hc] at this ⊢
    rw [this]; rfl

theorem replace_append (a b p : List Char) :
    replaceNameChars (a ++ b) p = replaceNameChars a p ++ replaceNameChars b p := by
  simp [replaceNameChars]

/-- C57 for names with one dot: the post is put before the extension.  Missing: several dots, where the claim
is false (`C57_counterexample`). -/
theorem C57_one_dot_partial (stem ext post : List Char) (h1 : '.' ∉ stem) (h2 : '.' ∉ ext) :
    replaceName (String.ofList (stem ++ '.' :: ext)) (String.ofList post) =
      String.ofList (stem ++ '_' :: post ++ '.' :: ext) := by
  unfold replaceName
  rw [String.toList_ofList, String.toList_ofList, replace_append, replace_nodot _ _ h1]
  congr 1
  have := replace_nodot ext post h2
  simp only [replaceNameChars, List.flatMap_cons] at this ⊢
  rw [this]; simp

/-- C57: what happens in general: every dot is replaced; a name without a dot is unchanged. -/
theorem C57_all_dots (stem ext post : List Char) (h2 : '.' ∉ ext) :
    replaceName (String.ofList (stem ++ '.' :: ext)) (String.ofList post) =
      String.ofList ((replaceName (String.ofList stem) (String.ofList post)).toList ++
        '_' :: post ++ '.' :: ext) ∧
    replaceName (String.ofList ext) (String.ofList post) = String.ofList ext := by
  constructor
  · unfold replaceName
    simp only [String.toList_ofList]
    rw [replace_append]
    congr 1
    have := replace_nodot ext post h2
    simp only [replaceNameChars, List.flatMap_cons] at this ⊢
    rw [this]; simp
  · unfold replaceName
    rw [String.toList_ofList, String.toList_ofList, replace_nodot _ _ h2]

/-- C57 as stated is false. -/
theorem C57_counterexample :
    ¬ ∀ (stem ext post : List Char), '.' ∉ ext →
      replaceName (String.ofList (stem ++ '.' :: ext)) (String.ofList post) =
        String.ofList (stem ++ '_' :: post ++ '.' :: ext) := by
  intro h
  have h' := h "plot.v1".toList "png".toList "diff".toList (by decide)
  have h'' := congrArg String.toList h'
  revert h''
  unfold replaceName
  rw [String.toList_ofList, String.toList_ofList, String.toList_ofList, String.toList_ofList]
  decide

example : replaceName "plot.png" "diff" = "plot_diff.png" :=
  C57_one_dot_partial "plot".toList "png".toList "diff".toList (by decide) (by decide)

/-! ### C58 -/

theorem not_lt_iff_le (a b : Date) : b.lt a = false ↔ a.le b = true := by
  unfold Date.lt Date.le
  simp only [decide_eq_false_iff_not, decide_eq_true_eq]
  omega

/-- C58: a returned period is ordered; and a request is refused with a KeyError exactly when both ends are
understood and the end is before the start. -/
theorem C58_ordered (startDate endDate : Option String) (now₁ now₂ : Date) :
    (∀ s e, getTestingPeriod startDate endDate now₁ now₂ = .ok (s, e) → s.le e = true) ∧
    (∀ s e, dateOr startDate now₁.prev = .ok s →
      dateOr endDate (.ok now₂) = .ok e →
      getTestingPeriod startDate endDate now₁ now₂ = if s.le e = true then .ok (s, e) else .error .keyError) := by
  unfold getTestingPeriod
  constructor
  · intro s e h
    simp only [bind, Except.bind] at h
    rcases h1 : dateOr startDate now₁.prev with err | s'
    · rw [h1] at h; simp at h
    · rw [h1] at h
      simp only at h
      rcases h2 : dateOr endDate (.ok now₂) with err | e'
      · rw [h2] at h; simp at h
      · rw [h2] at h
        simp only at h
        by_cases hl : e'.lt s' = true
        · rw [if_pos hl] at h; simp at h
        · rw [if_neg hl] at h
          simp only [Except.ok.injEq, Prod.mk.injEq] at h
          obtain ⟨rfl, rfl⟩ := h
          exact (not_lt_iff_le _ _).mp (by simpa using hl)
  · intro s e h1 h2
    simp only [bind, Except.bind]
    rw [h1]
    simp only
    rw [h2]
    simp only
    by_cases hl : e.lt s = true
    · rw [if_pos hl, if_neg]
      intro hc
      rw [(not_lt_iff_le _ _).mpr hc] at hl; simp at hl
    · rw [if_neg hl, if_pos ((not_lt_iff_le _ _).mp (by simpa using hl))]

theorem Date.valid_iff (t : Date) : t.valid = true ↔ 1 ≤ t.year ∧ t.year ≤ 9999 ∧ 1 ≤ t.month ∧ t.month ≤ 12 ∧
    1 ≤ t.day ∧ t.day ≤ daysInMonth t.year t.month := by
  unfold Date.valid; rw [decide_eq_true_eq]

theorem daysBefore_succ (y m : ℕ) (h1 : 1 ≤ m) (h2 : m ≤ 11) :
    daysBefore y (m + 1) = daysBefore y m + daysInMonth y m := by
  unfold daysBefore daysInMonth
  by_cases hl : isLeap y = true <;> simp only [hl] <;> interval_cases m <;> decide

theorem daysBefore_mono (y : ℕ) : ∀ m n, 1 ≤ m → m < n → n ≤ 12 → daysBefore y m + daysInMonth y m ≤ daysBefore y n := by
  intro m n h1 h2 h3
  unfold daysBefore daysInMonth
  by_cases hl : isLeap y = true <;> simp only [hl] <;> interval_cases n <;> interval_cases m <;> decide

theorem daysBefore_year (y m : ℕ) (h1 : 1 ≤ m) (h2 : m ≤ 12) :
    daysBefore y m + daysInMonth y m ≤ 365 + (if isLeap y then 1 else 0) := by
  unfold daysBefore daysInMonth
  by_cases hl : isLeap y = true <;> simp only [hl] <;> interval_cases m <;> decide

/-- Days before 1 January of a year. -/
def daysBeforeYear (y : ℕ) : ℕ := 365 * (y - 1) + (y - 1) / 4 - (y - 1) / 100 + (y - 1) / 400

theorem daysBeforeYear_succ (y : ℕ) (h : 1 ≤ y) :
    daysBeforeYear (y + 1) = daysBeforeYear y + 365 + (if isLeap y then 1 else 0) := by
  unfold daysBeforeYear isLeap
  obtain ⟨k, rfl⟩ : ∃ k, y = k + 1 := ⟨y - 1, by omega⟩
  simp only [Nat.add_sub_cancel]
  by_cases h4 : (k + 1) % 4 = 0 <;> by_cases h100 : (k + 1) % 100 = 0 <;> by_cases h400 : (k + 1) % 400 = 0 <;>
    simp [h4, h100, h400] <;> omega

theorem daysBeforeYear_lt (y z : ℕ) (h : 1 ≤ y) (hz : y < z) :
    daysBeforeYear y + 365 + (if isLeap y then 1 else 0) ≤ daysBeforeYear z := by
  induction z with
  | zero => omega
  | succ z ih =>
    rcases Nat.lt_or_ge y z with h1 | h1
    · have := ih h1
      rw [daysBeforeYear_succ z (by omega)]
      omega
    · have : y = z := by omega
      subst this
      rw [daysBeforeYear_succ y h]

theorem dayNumber_lt {a b : Date} (ha : a.valid = true) (hb : b.valid = true) (h : a.lt b = true) :
    dayNumber a < dayNumber b := by
  rw [Date.valid_iff] at ha hb
  unfold Date.lt at h
  rw [decide_eq_true_eq] at h
  have ea : dayNumber a = daysBeforeYear a.year + daysBefore a.year a.month + a.day := rfl
  have eb : dayNumber b = daysBeforeYear b.year + daysBefore b.year b.month + b.day := rfl
  rw [ea, eb]
  rcases h with h | ⟨h, h' | ⟨h', h''⟩⟩
  · have h1 := daysBeforeYear_lt a.year b.year ha.1 h
    have h2 := daysBefore_year a.year a.month ha.2.2.1 ha.2.2.2.1
    omega
  · have h1 := daysBefore_mono a.year a.month b.month ha.2.2.1 h' hb.2.2.2.1
    rw [← h]; omega
  · rw [← h, ← h']; omega

/-- C58: the order of dates is the order of day numbers. -/
theorem C58_chronological (a b : Date) (ha : a.valid = true) (hb : b.valid = true) :
    a.le b = true ↔ dayNumber a ≤ dayNumber b := by
  constructor
  · intro h
    by_cases hl : a.lt b = true
    · exact (dayNumber_lt ha hb hl).le
    · have hl' := (not_lt_iff_le b a).mp (by simpa using hl)
      have : a = b := by
        unfold Date.le at h hl'
        rw [decide_eq_true_eq] at h hl'
        cases a; cases b
        simp only [Date.mk.injEq] at *
        omega
      rw [this]
  · intro h
    by_contra hc
    have : b.lt a = true := by
      by_contra h2
      exact hc ((not_lt_iff_le a b).mp (by simpa using h2))
    have := dayNumber_lt hb ha this
    omega

/-- C58: without dates the period is yesterday .. today: the start is the day before the first reading of the
clock, and the end the day of the second. -/
theorem C58_default (now₁ now₂ : Date) (h₁ : now₁.valid = true) (h₂ : now₂.valid = true)
    (hle : dayNumber now₁ ≤ dayNumber now₂) (hfirst : now₁ ≠ ⟨1, 1, 1⟩) :
    ∃ s, getTestingPeriod none none now₁ now₂ = .ok (s, now₂) ∧ s.valid = true ∧ dayNumber s + 1 = dayNumber now₁ := by
  have hv := (Date.valid_iff _).mp h₁
  have prev : ∃ s, now₁.prev = .ok s ∧ s.valid = true ∧ dayNumber s + 1 = dayNumber now₁ := by
    obtain ⟨y, m, d⟩ := now₁
    simp only at hv
    unfold Date.prev
    simp only
    by_cases hd : 1 < d
    · refine ⟨⟨y, m, d - 1⟩, by rw [if_pos hd], ?_, ?_⟩
      · rw [Date.valid_iff]; simp only; omega
      · unfold dayNumber; simp only; omega
    · rw [if_neg hd]
      by_cases hm : 1 < m
      · refine ⟨⟨y, m - 1, daysInMonth y (m - 1)⟩, by rw [if_pos hm], ?_, ?_⟩
        · rw [Date.valid_iff]
          have : 1 ≤ daysInMonth y (m - 1) := by
            unfold daysInMonth; split <;> [split; split] <;> omega
          simp only; omega
        · have e := daysBefore_succ y (m - 1) (by omega) (by omega)
          have e2 : m - 1 + 1 = m := by omega
          rw [e2] at e
          unfold dayNumber; simp only; omega
      · rw [if_neg hm]
        have hd1 : d = 1 := by omega
        have hm1 : m = 1 := by omega
        subst hd1 hm1
        have hy : 1 < y := by
          by_contra hc
          apply hfirst
          have : y = 1 := by omega
          rw [this]
        refine ⟨⟨y - 1, 12, 31⟩, by rw [if_pos hy], ?_, ?_⟩
        · rw [Date.valid_iff]
          have : daysInMonth (y - 1) 12 = 31 := by unfold daysInMonth; simp
          simp only [this]; omega
        · have e := daysBeforeYear_succ (y - 1) (by omega)
          have e2 : y - 1 + 1 = y := by omega
          rw [e2] at e
          have e3 : daysBefore (y - 1) 12 + 31 = 365 + (if isLeap (y - 1) then 1 else 0) := by
            unfold daysBefore
            by_cases hl : isLeap (y - 1) = true <;> simp [hl]
          have e4 : daysBefore y 1 = 0 := rfl
          show daysBeforeYear (y - 1) + daysBefore (y - 1) 12 + 31 + 1 = daysBeforeYear y + daysBefore y 1 + 1
          omega
  obtain ⟨s, hs, hsv, hsn⟩ := prev
  refine ⟨s, ?_, hsv, hsn⟩
  rw [(C58_ordered none none now₁ now₂).2 s now₂ hs rfl, if_pos]
  rw [C58_chronological s now₂ hsv h₂]
  omega

theorem digitVal_le (c : Char) (h : c.isDigit = true) : digitVal c ≤ 9 := by
  unfold digitVal
  simp only [Char.isDigit, Bool.and_eq_true, decide_eq_true_eq] at h
  have h2 : c.toNat ≤ 57 := h.2
  have : ('0' : Char).toNat = 48 := rfl
  omega

/-- C58: a date that is understood is a valid calendar date. -/
theorem C58_parsed_valid (s : List Char) (t : Date) (h : strpDate s = .ok t) : t.valid = true := by
  unfold strpDate at h
  split at h
  · split at h
    · split at h
      · simp at h
      · split at h
        · simp at h
        · simp only at h
          split at h
          · rename_i hv
            simp only [Except.ok.injEq] at h
            rw [← h]; exact hv
          · simp at h
    · simp at h
  · simp at h

/-- Two decimal digits. -/
def twoDigits (n : ℕ) : List Char := [Char.ofNat (48 + n / 10), Char.ofNat (48 + n % 10)]
/-- The ISO text of a date, as written by `str(date)`. -/
def isoText (t : Date) : List Char :=
  twoDigits (t.year / 100) ++ twoDigits (t.year % 100) ++ '-' :: twoDigits t.month ++ '-' :: twoDigits t.day

theorem digitVal_ofNat (n : ℕ) (h : n ≤ 9) :
    digitVal (Char.ofNat (48 + n)) = n ∧ (Char.ofNat (48 + n)).isDigit = true := by
  interval_cases n <;> decide

/-- C58: every valid date is understood when it is written in ISO format (as YAML dates are). -/
theorem C58_parses_iso (t : Date) (h : t.valid = true) : strpDate (isoText t) = .ok t := by
  have hv := (Date.valid_iff t).mp h
  have hmax : daysInMonth t.year t.month ≤ 31 := by
    unfold daysInMonth; split <;> [split; split] <;> omega
  have a1 := digitVal_ofNat (t.year / 100 / 10) (by omega)
  have a2 := digitVal_ofNat (t.year / 100 % 10) (by omega)
  have a3 := digitVal_ofNat (t.year % 100 / 10) (by omega)
  have a4 := digitVal_ofNat (t.year % 100 % 10) (by omega)
  have hm : ∀ r, parseMonthDash (twoDigits t.month ++ '-' :: r) = some (t.month, r) := by
    intro r
    obtain ⟨-, -, h1, h2, -⟩ := hv
    generalize t.month = m at *
    interval_cases m <;> rfl
  have hd : parseDayEnd (twoDigits t.day) = some t.day := by
    have h1 := hv.2.2.2.2.1
    have h2 : t.day ≤ 31 := hv.2.2.2.2.2.trans hmax
    generalize t.day = d at *
    interval_cases d <;> rfl
  have e : isoText t = Char.ofNat (48 + t.year / 100 / 10) :: Char.ofNat (48 + t.year / 100 % 10) ::
      Char.ofNat (48 + t.year % 100 / 10) :: Char.ofNat (48 + t.year % 100 % 10) :: '-' ::
      (twoDigits t.month ++ '-' :: twoDigits t.day) := by
    simp [isoText, twoDigits]
  rw [e]
  unfold strpDate
  simp only [a1.2, a2.2, a3.2, a4.2, and_self, if_true, hm, hd]
  have ey : 1000 * digitVal (Char.ofNat (48 + t.year / 100 / 10)) + 100 * digitVal (Char.ofNat (48 + t.year / 100 % 10)) +
      10 * digitVal (Char.ofNat (48 + t.year % 100 / 10)) + digitVal (Char.ofNat (48 + t.year % 100 % 10)) = t.year := by
    rw [a1.1, a2.1, a3.1, a4.1]; omega
  rw [ey, if_pos h]

/-- One decimal digit. -/
def oneDigit (n : ℕ) : List Char := [Char.ofNat (48 + n)]

/-- C58: months and days below 10 may be written with or without a leading zero. -/
theorem C58_parses_unpadded (t : Date) (h : t.valid = true) (month day : List Char)
    (hm : month = twoDigits t.month ∨ (t.month < 10 ∧ month = oneDigit t.month))
    (hd : day = twoDigits t.day ∨ (t.day < 10 ∧ day = oneDigit t.day)) :
    strpDate (twoDigits (t.year / 100) ++ twoDigits (t.year % 100) ++ '-' :: month ++ '-' :: day) = .ok t := by
  have hv := (Date.valid_iff t).mp h
  have hmax : daysInMonth t.year t.month ≤ 31 := by
    unfold daysInMonth; split <;> [split; split] <;> omega
  have a1 := digitVal_ofNat (t.year / 100 / 10) (by omega)
  have a2 := digitVal_ofNat (t.year / 100 % 10) (by omega)
  have a3 := digitVal_ofNat (t.year % 100 / 10) (by omega)
  have a4 := digitVal_ofNat (t.year % 100 % 10) (by omega)
  have hd0 : day.head? ≠ some '-' := by
    have h1 := hv.2.2.2.2.1
    have h2 : t.day ≤ 31 := hv.2.2.2.2.2.trans hmax
    rcases hd with rfl | ⟨hlt, rfl⟩
    · generalize t.day = d at *
      interval_cases d <;> decide
    · generalize t.day = d at *
      interval_cases d <;> decide
  have hm' : ∀ r : List Char, r.head? ≠ some '-' → parseMonthDash (month ++ '-' :: r) = some (t.month, r) := by
    intro r hr
    obtain ⟨-, -, h1, h2, -⟩ := hv
    rcases hm with rfl | ⟨hlt, rfl⟩
    · generalize t.month = m at *
      interval_cases m <;> rfl
    · generalize t.month = m at *
      interval_cases m
      · rcases r with - | ⟨a, r⟩
        · rfl
        · have ha : a ≠ '-' := by simpa using hr
          change parseMonthDash ('1' :: '-' :: a :: r) = _
          rw [parseMonthDash.eq_3]
          · rfl
          · intro c e1 e2; simp at e2; exact ha e2.1
          · intro c e1 e2; simp at e2; exact ha e2.1
      all_goals rfl
  have hd' : parseDayEnd day = some t.day := by
    have h1 := hv.2.2.2.2.1
    have h2 : t.day ≤ 31 := hv.2.2.2.2.2.trans hmax
    rcases hd with rfl | ⟨hlt, rfl⟩
    · generalize t.day = d at *
      interval_cases d <;> rfl
    · generalize t.day = d at *
      interval_cases d <;> rfl
  have e : twoDigits (t.year / 100) ++ twoDigits (t.year % 100) ++ '-' :: month ++ '-' :: day =
      Char.ofNat (48 + t.year / 100 / 10) :: Char.ofNat (48 + t.year / 100 % 10) ::
      Char.ofNat (48 + t.year % 100 / 10) :: Char.ofNat (48 + t.year % 100 % 10) :: '-' ::
      (month ++ '-' :: day) := by
    simp [twoDigits]
  rw [e]
  unfold strpDate
  simp only [a1.2, a2.2, a3.2, a4.2, and_self, if_true, hm' day hd0, hd']
  have ey : 1000 * digitVal (Char.ofNat (48 + t.year / 100 / 10)) + 100 * digitVal (Char.ofNat (48 + t.year / 100 % 10)) +
      10 * digitVal (Char.ofNat (48 + t.year % 100 / 10)) + digitVal (Char.ofNat (48 + t.year % 100 % 10)) = t.year := by
    rw [a1.1, a2.1, a3.1, a4.1]; omega
  rw [ey, if_pos h]

example : strpDate "2020-2-29".toList = .ok ⟨2020, 2, 29⟩ := by decide
example : strpDate "2021-12-5".toList = .ok ⟨2021, 12, 5⟩ := by decide
example : strpDate "2021-02-29".toList = .error .valueError := by decide
example : getTestingPeriod none none ⟨2024, 3, 1⟩ ⟨2024, 3, 1⟩ = .ok (⟨2024, 2, 29⟩, ⟨2024, 3, 1⟩) := by decide
example : getTestingPeriod (some "2024-03-02") (some "2024-03-01") ⟨2024, 3, 1⟩ ⟨2024, 3, 1⟩ = .error .keyError := by
  decide

/-! ### C82 -/

theorem extension_iff (file ext : List Char) (hext : '.' ∉ ext) :
    extensionOf file = '.' :: ext ↔ ∃ stem, file = stem ++ '.' :: ext ∧ ∃ c ∈ stem, c ≠ '.' := by
  have tw : ∀ stem e : List Char, '.' ∉ e → ((stem ++ '.' :: e).reverse.takeWhile (· != '.')).reverse = e := by
    intro stem e he
    rw [List.reverse_append, List.reverse_cons, List.append_assoc, List.takeWhile_append_of_pos]
    · simp
    · intro c hc
      rw [List.mem_reverse] at hc
      simp only [bne_iff_ne, ne_eq]
      rintro rfl; exact he hc
  constructor
  · intro h
    unfold extensionOf at h
    split at h
    · rename_i hd
      obtain ⟨stem, e, hf, he⟩ : ∃ stem e, file = stem ++ '.' :: e ∧ '.' ∉ e := by
        obtain ⟨a, b, hab, hb⟩ := List.eq_append_cons_of_mem (List.mem_reverse.mpr hd)
        refine ⟨b.reverse, a.reverse, ?_, by simpa using hb⟩
        rw [← List.reverse_reverse file, hab]; simp
      subst hf
      simp only [tw stem e he] at h
      have ht : (stem ++ '.' :: e).take ((stem ++ '.' :: e).length - e.length - 1) = stem := by
        have : (stem ++ '.' :: e).length - e.length - 1 = stem.length := by simp; omega
        rw [this, List.take_left']
        rfl
      rw [ht] at h
      split at h
      · rename_i hs
        simp only [List.cons.injEq, true_and] at h
        subst h
        refine ⟨stem, rfl, ?_⟩
        obtain ⟨c, hc, hne⟩ := List.any_eq_true.mp hs
        exact ⟨c, hc, by simpa using hne⟩
      · simp at h
    · simp at h
  · rintro ⟨stem, rfl, c, hc, hne⟩
    unfold extensionOf
    rw [if_pos (by simp)]
    simp only [tw stem ext hext]
    have ht : (stem ++ '.' :: ext).take ((stem ++ '.' :: ext).length - ext.length - 1) = stem := by
      have : (stem ++ '.' :: ext).length - ext.length - 1 = stem.length := by simp; omega
      rw [this, List.take_left']
      rfl
    rw [ht, if_pos]
    rw [List.any_eq_true]
    exact ⟨c, hc, by simpa using hne⟩

/-- `name` is the name of an XML file: something other than dots, then ".xml". -/
def IsXmlName (name : String) : Prop := ∃ stem, name.toList = stem ++ ".xml".toList ∧ ∃ c ∈ stem, c ≠ '.'

/-- C82: the result is sorted, and contains exactly (with multiplicity) the directory followed by the names of the
XML files whose modification date lies in the testing period. -/
theorem C82_selects (dir : String) (files : List (String × Date)) (startDate endDate : Option String)
    (now₁ now₂ s e : Date) (h : getTestingPeriod startDate endDate now₁ now₂ = .ok (s, e)) :
    ∃ r, getTestXml dir files startDate endDate now₁ now₂ = .ok r ∧ r.Pairwise (· ≤ ·) ∧
      (∀ x, x ∈ r ↔ ∃ f ∈ files, x = dir ++ f.1 ∧ IsXmlName f.1 ∧ s.le f.2 = true ∧ f.2.le e = true) ∧
      (files.Nodup → (∀ f ∈ files, ∀ g ∈ files, f.1 = g.1 → f = g) → r.Nodup) := by
  unfold getTestXml
  rw [h]
  simp only [bind, Except.bind]
  have hx : ∀ name : String, extensionOf name.toList = ".xml".toList ↔ IsXmlName name := by
    intro name
    exact extension_iff name.toList "xml".toList (by decide)
  refine ⟨_, rfl, List.pairwise_insertionSort (· ≤ ·) _, ?_, ?_⟩
  · intro x
    rw [(List.perm_insertionSort _ _).mem_iff, List.mem_map]
    constructor
    · rintro ⟨f, hf, rfl⟩
      obtain ⟨hm, hp⟩ := List.mem_filter.mp hf
      simp only [Bool.and_eq_true, decide_eq_true_eq] at hp
      exact ⟨f, hm, rfl, (hx f.1).mp hp.2, hp.1.1, hp.1.2⟩
    · rintro ⟨f, hm, rfl, h1, h2, h3⟩
      refine ⟨f, List.mem_filter.mpr ⟨hm, ?_⟩, rfl⟩
      simp only [Bool.and_eq_true, decide_eq_true_eq]
      exact ⟨⟨h2, h3⟩, (hx f.1).mpr h1⟩
  · intro hn hu
    rw [(List.perm_insertionSort _ _).nodup_iff]
    refine (hn.filter _).map_on ?_
    intro f hf g hg hfg
    refine hu f (List.mem_of_mem_filter hf) g (List.mem_of_mem_filter hg) ?_
    have := congrArg String.toList hfg
    rw [String.toList_append, String.toList_append] at this
    exact String.toList_inj.mp (List.append_cancel_left this)

/-- C82: the order in which the directory is listed does not matter. -/
theorem C82_listing_order (dir : String) (files files' : List (String × Date)) (hp : files.Perm files')
    (startDate endDate : Option String) (now₁ now₂ : Date) :
    getTestXml dir files startDate endDate now₁ now₂ = getTestXml dir files' startDate endDate now₁ now₂ := by
  unfold getTestXml
  rcases getTestingPeriod startDate endDate now₁ now₂ with err | ⟨s, e⟩
  · rfl
  · simp only [bind, Except.bind]
    congr 1
    apply List.Perm.eq_of_pairwise' (r := (· ≤ ·))
    · exact List.pairwise_insertionSort (· ≤ ·) _
    · exact List.pairwise_insertionSort (· ≤ ·) _
    · exact ((List.perm_insertionSort _ _).trans ((hp.filter _).map _)).trans (List.perm_insertionSort _ _).symm

example : (getTestXml "d/" [("b.xml", ⟨2024, 1, 2⟩), ("a.xml", ⟨2024, 1, 3⟩), ("c.png", ⟨2024, 1, 3⟩), (".xml", ⟨2024, 1, 3⟩),
    ("e.xml", ⟨2023, 1, 1⟩)] (some "2024-01-02") (some "2024-01-03") ⟨2024, 5, 5⟩ ⟨2024, 5, 5⟩) =
    .ok ["d/a.xml", "d/b.xml"] := by decide +kernel

end Metcalcpy.Props
