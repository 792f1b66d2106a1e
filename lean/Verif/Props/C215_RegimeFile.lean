/-
C215  The text file of regimes has one line per day with year, month, day and regime.
C216  The time of the netCDF file of regimes counts the days from the first day.
C217  A file that cannot be written leaves the earlier file in place.
C218  Heights rebuilt from patterns are the part of the heights that the patterns explain.
-/
import Verif.Model.RegimeFile
import Verif.Spec.Calendar
import Verif.Props.C132_RegimeIO
import Mathlib.Algebra.BigOperators.Fin
import Mathlib.Algebra.BigOperators.Ring.Finset
import Mathlib.Data.List.GetD
import Mathlib.Tactic.FieldSimp
import Mathlib.Tactic.IntervalCases

namespace Metcalcpy.Props
open Metcalcpy Spec

/-! ### The calendar -/

theorem pyIsLeap_iff (y : ℕ) : pyIsLeap y = true ↔ 4 ∣ y ∧ (¬ 100 ∣ y ∨ 400 ∣ y) := by
  unfold pyIsLeap
  simp only [Bool.and_eq_true, Bool.or_eq_true, beq_iff_eq, bne_iff_ne, ne_eq]
  omega

theorem pyMonthLength_eq (y m : ℕ) (h1 : 1 ≤ m) (h2 : m ≤ 12) : pyMonthLength y m = monthDays y m := by
  unfold pyMonthLength monthDays
  simp only [pyIsLeap_iff]
  by_cases hl : 4 ∣ y ∧ (¬ 100 ∣ y ∨ 400 ∣ y)
  · simp only [hl, and_true, if_true]
    interval_cases m <;> rfl
  · simp only [hl, and_false, if_false]
    interval_cases m <;> rfl

theorem daysBeforeYr_succ (y : ℕ) (h : 1 ≤ y) :
    daysBeforeYr (y + 1) = daysBeforeYr y + 365 + if pyIsLeap y = true then 1 else 0 := by
  unfold daysBeforeYr
  by_cases hl : pyIsLeap y = true
  · rw [if_pos hl]
    rw [pyIsLeap_iff] at hl
    omega
  · rw [if_neg hl]
    rw [pyIsLeap_iff] at hl
    omega

theorem daysBeforeYr_mono {y z : ℕ} (hy : 1 ≤ y) (h : y ≤ z) : daysBeforeYr y ≤ daysBeforeYr z := by
  induction z, h using Nat.le_induction with
  | base => exact le_rfl
  | succ z hz ih =>
    rw [daysBeforeYr_succ z (hy.trans hz)]
    omega

theorem daysBeforeMonth_succ (y m : ℕ) (h1 : 1 ≤ m) (h2 : m < 12) :
    daysBeforeMonth y (m + 1) = daysBeforeMonth y m + monthDays y m := by
  rw [← pyMonthLength_eq y m h1 (by omega)]
  unfold daysBeforeMonth pyMonthLength
  by_cases hl : pyIsLeap y = true
  · simp only [hl, and_true]
    interval_cases m <;> rfl
  · simp only [hl, and_false, Bool.false_eq_true]
    interval_cases m <;> rfl

theorem daysBeforeMonth_last (y : ℕ) : daysBeforeMonth y 12 + 31 = 365 + if pyIsLeap y = true then 1 else 0 := by
  unfold daysBeforeMonth
  by_cases hl : pyIsLeap y = true <;> simp [hl]

theorem daysBeforeMonth_mono (y m k : ℕ) (h1 : 1 ≤ m) (h : m ≤ k) (h2 : k ≤ 12) : daysBeforeMonth y m ≤ daysBeforeMonth y k := by
  induction k, h using Nat.le_induction with
  | base => exact le_rfl
  | succ k hk ih =>
    rw [daysBeforeMonth_succ y k (by omega) (by omega)]
    have := ih (by omega)
    omega

theorem monthDays_december (y : ℕ) : monthDays y 12 = 31 := rfl

theorem ordinal_next (t : ℕ × ℕ × ℕ) (h : IsDay t) : ordinal (dayAfter t) = ordinal t + 1 ∧ IsDay (dayAfter t) := by
  obtain ⟨y, m, d⟩ := t
  obtain ⟨h1, h2, h3, h4, h5⟩ := h
  simp only at h1 h2 h3 h4 h5
  unfold dayAfter ordinal
  simp only
  split
  · rename_i hlt
    exact ⟨by simp only; omega, h1, h2, h3, by simp only; omega, hlt⟩
  · split
    · rename_i hge hm
      refine ⟨?_, h1, by simp only; omega, by simp only; omega, le_rfl, ?_⟩
      · simp only
        rw [daysBeforeMonth_succ y m h2 hm]
        omega
      · simp only [monthDays]
        split_ifs <;> omega
    · rename_i hge hm
      obtain rfl : m = 12 := by omega
      rw [monthDays_december] at hge h5
      refine ⟨?_, by simp only; omega, le_rfl, by simp only; omega, le_rfl, ?_⟩
      · simp only
        rw [daysBeforeYr_succ y h1]
        have := daysBeforeMonth_last y
        have h0 : daysBeforeMonth (y + 1) 1 = 0 := by simp [daysBeforeMonth]
        omega
      · show 1 ≤ monthDays (y + 1) 1
        simp [monthDays]

theorem ordinal_year_end (t : ℕ × ℕ × ℕ) (h : IsDay t) : ordinal t ≤ daysBeforeYr (t.1 + 1) ∧ daysBeforeYr t.1 < ordinal t := by
  obtain ⟨y, m, d⟩ := t
  obtain ⟨h1, h2, h3, h4, h5⟩ := h
  simp only at h1 h2 h3 h4 h5
  unfold ordinal
  simp only
  rw [daysBeforeYr_succ y h1]
  have hb : daysBeforeMonth y m + monthDays y m ≤ daysBeforeMonth y 12 + 31 := by
    rcases Nat.lt_or_ge m 12 with hm | hm
    · rw [← daysBeforeMonth_succ y m h2 hm]
      have := daysBeforeMonth_mono y (m + 1) 12 (by omega) (by omega) le_rfl
      omega
    · obtain rfl : m = 12 := by omega
      rw [monthDays_december]
  have := daysBeforeMonth_last y
  omega

theorem ordinal_inj {s t : ℕ × ℕ × ℕ} (hs : IsDay s) (ht : IsDay t) (h : ordinal s = ordinal t) : s = t := by
  obtain ⟨a1, a2⟩ := ordinal_year_end s hs
  obtain ⟨b1, b2⟩ := ordinal_year_end t ht
  obtain ⟨y, m, d⟩ := s
  obtain ⟨y', m', d'⟩ := t
  obtain ⟨h1, h2, h3, h4, h5⟩ := hs
  obtain ⟨g1, g2, g3, g4, g5⟩ := ht
  simp only at *
  have hy : y = y' := by
    rcases lt_trichotomy y y' with hl | hl | hl
    · have := daysBeforeYr_mono (y := y + 1) (z := y') (by omega) hl
      omega
    · exact hl
    · have := daysBeforeYr_mono (y := y' + 1) (z := y) (by omega) hl
      omega
  subst hy
  unfold ordinal at h
  simp only at h
  have key : ∀ m k d e : ℕ, 1 ≤ m → m < k → k ≤ 12 → d ≤ monthDays y m → 1 ≤ e →
      daysBeforeMonth y m + d < daysBeforeMonth y k + e := by
    intro m k d e q1 q2 q3 q4 q5
    have := daysBeforeMonth_mono y (m + 1) k (by omega) q2 q3
    rw [daysBeforeMonth_succ y m q1 (by omega)] at this
    omega
  have hm : m = m' := by
    rcases lt_trichotomy m m' with hl | hl | hl
    · have := key m m' d d' h2 hl g3 h5 g4
      omega
    · exact hl
    · have := key m' m d' d g2 hl h3 g5 h4
      omega
  subst hm
  obtain rfl : d = d' := by omega
  rfl

theorem ordinal_iterate (n : ℕ) (t : ℕ × ℕ × ℕ) (h : IsDay t) :
    ordinal (dayAfter^[n] t) = ordinal t + n ∧ IsDay (dayAfter^[n] t) := by
  induction n with
  | zero => exact ⟨rfl, h⟩
  | succ n ih =>
    rw [Function.iterate_succ_apply']
    obtain ⟨i1, i2⟩ := ih
    obtain ⟨j1, j2⟩ := ordinal_next _ i2
    exact ⟨by omega, j2⟩

theorem iterate_reaches {s t : ℕ × ℕ × ℕ} (hs : IsDay s) (ht : IsDay t) (n : ℕ) (h : ordinal t = ordinal s + n) :
    dayAfter^[n] s = t := by
  obtain ⟨i1, i2⟩ := ordinal_iterate n s hs
  exact ordinal_inj i2 ht (by omega)

/-! ### Valid times -/

/-- `v` begins with four digits of the year, two of the month and two of the day. -/
def IsStamp (v : List Char) (t : ℕ × ℕ × ℕ) : Prop :=
  ∃ yt mt dt rest : List Char, v = yt ++ mt ++ dt ++ rest ∧ yt.length = 4 ∧ mt.length = 2 ∧ dt.length = 2 ∧
    (∀ c ∈ yt ++ mt ++ dt, c.isDigit = true) ∧ decimalNumber yt = t.1 ∧ decimalNumber mt = t.2.1 ∧ decimalNumber dt = t.2.2

theorem stampParts_eq (yt mt dt rest : List Char) (h1 : yt.length = 4) (h2 : mt.length = 2) (h3 : dt.length = 2) :
    stampParts (yt ++ mt ++ dt ++ rest) = (yt, mt, dt) := by
  unfold stampParts
  have e1 : (yt ++ mt ++ dt ++ rest).take 4 = yt := by
    rw [← h1, List.append_assoc, List.append_assoc, List.take_left]
  have e2 : (yt ++ mt ++ dt ++ rest).drop 4 = mt ++ dt ++ rest := by
    rw [← h1, List.append_assoc, List.append_assoc, List.drop_left, List.append_assoc]
  have e3 : (yt ++ mt ++ dt ++ rest).drop 6 = dt ++ rest := by
    have : (yt ++ mt).length = 6 := by simp [h1, h2]
    rw [← this, List.append_assoc, List.drop_left]
  rw [e1, e2, e3]
  refine Prod.ext rfl (Prod.ext ?_ ?_)
  · show (mt ++ dt ++ rest).take 2 = mt
    rw [← h2, List.append_assoc, List.take_left]
  · show (dt ++ rest).take 2 = dt
    rw [← h3, List.take_left]

theorem decimalNumber_append (a b : List Char) : decimalNumber (a ++ b) = decimalNumber a * 10 ^ b.length + decimalNumber b := by
  unfold decimalNumber
  rw [List.reverse_append, List.map_append, Nat.ofDigits_append, List.length_map, List.length_reverse]
  ring

theorem intOf_digits (ds : List Char) (hne : ds ≠ []) (h : ∀ c ∈ ds, c.isDigit = true) : intOf ds = .ok (decimalNumber ds : ℤ) := by
  have : IsIntText (String.ofList ds) (decimalNumber ds : ℤ) :=
    ⟨[], [], _, _, by simp, digitText_of_digits ds hne h, .inl ⟨by simp, rfl⟩⟩
  unfold intOf
  rw [(pyInt?_iff _ _).mpr this]

theorem stampDate_ok (v : List Char) (t : ℕ × ℕ × ℕ) (h : IsStamp v t) (hd : IsDay t) (hy : t.1 ≤ 9999) :
    stampDate v = .ok t ∧ intOf ((stampParts v).1 ++ (stampParts v).2.1 ++ (stampParts v).2.2) =
      .ok ((10000 * t.1 + 100 * t.2.1 + t.2.2 : ℕ) : ℤ) := by
  obtain ⟨yt, mt, dt, rest, rfl, l1, l2, l3, hc, e1, e2, e3⟩ := h
  obtain ⟨y, m, d⟩ := t
  obtain ⟨h1, h2, h3, h4, h5⟩ := hd
  simp only at *
  have n1 : yt ≠ [] := fun h0 => by simp [h0] at l1
  have n2 : mt ≠ [] := fun h0 => by simp [h0] at l2
  have n3 : dt ≠ [] := fun h0 => by simp [h0] at l3
  unfold stampDate
  rw [stampParts_eq yt mt dt rest l1 l2 l3]
  simp only
  rw [intOf_digits yt n1 (fun c hx => hc c (by simp [hx])), intOf_digits mt n2 (fun c hx => hc c (by simp [hx])),
    intOf_digits dt n3 (fun c hx => hc c (by simp [hx])), e1, e2, e3]
  refine ⟨?_, ?_⟩
  · simp only [bind, Except.bind]
    unfold mkDate
    rw [Int.toNat_natCast, Int.toNat_natCast, Int.toNat_natCast, pyMonthLength_eq y m h2 h3]
    rw [if_pos ⟨by omega, by omega, by omega, by omega, by omega, by omega⟩]
  · rw [intOf_digits _ (by simp [n1]) hc, decimalNumber_append, decimalNumber_append, e1, e2, e3, l2, l3]
    congr 2
    ring

/-! ### C215 -/

theorem columnsOf_padLeft (w : ℕ) (t : List Char) (ht : t ≠ []) (hb : ∀ c ∈ t, c ≠ ' ' ∧ c ≠ '\n') (c : Char)
    (h : (c == ' ' || c == '\n') = true) (l : List Char) : columnsOf (padLeft w t ++ c :: l) = t :: columnsOf l := by
  unfold padLeft
  generalize w - t.length = n
  induction n with
  | zero => simpa using columnsOf_word t ht hb c h l
  | succ n ih =>
    rw [List.replicate_succ, List.cons_append, List.cons_append, columnsOf_blank _ (by decide)]
    exact ih

theorem columnsOf_empty (w : ℕ) (l : List Char) : columnsOf (padLeft w [] ++ l) = columnsOf l := by
  unfold padLeft
  generalize w - ([] : List Char).length = n
  induction n with
  | zero => rfl
  | succ n ih =>
    rw [List.replicate_succ, List.cons_append, List.cons_append, columnsOf_blank _ (by decide)]
    exact ih

theorem digit_not_blank (c : Char) (h : c.isDigit = true) : c ≠ ' ' ∧ c ≠ '\n' := by
  constructor <;> (rintro rfl; revert h; decide)

theorem regime_text (r : ℕ) : Nat.toDigits 10 r ++ ['.', '0'] ≠ [] ∧
    ∀ c ∈ Nat.toDigits 10 r ++ ['.', '0'], c ≠ ' ' ∧ c ≠ '\n' := by
  refine ⟨by simp, ?_⟩
  intro c hc
  rw [List.mem_append] at hc
  rcases hc with hc | hc
  · exact digit_not_blank c (Nat.isDigit_of_mem_toDigits (by norm_num) (by norm_num) hc)
  · simp only [List.mem_cons, List.not_mem_nil, or_false] at hc
    rcases hc with rfl | rfl <;> decide

/-- C215: days with a valid time: the text file has a header and one line per day, in the order of the days; read at blanks, a
line has the digits of year, month and day of the valid time and the regime. -/
theorem C215_text (old : Option RegimeFile) (valid : List (List Char)) (wrc : List ℕ) (hlen : valid.length = wrc.length)
    (hv : ∀ v ∈ valid, ∃ t, IsStamp v t) :
    ∃ lines, writeKMeans "text" old valid wrc = (some (.text ("# Year Month Day WeatherRegime\n".toList :: lines)), .ok ()) ∧
      lines.length = valid.length ∧
      ∀ (k : ℕ) v r, valid[k]? = some v → wrc[k]? = some r → ∃ line, lines[k]? = some line ∧
        ∃ y m d : List Char, columnsOf line = [y, m, d, Nat.toDigits 10 r ++ ['.', '0']] ∧ (y ++ m ++ d) <+: v ∧
          y.length = 4 ∧ m.length = 2 ∧ d.length = 2 := by
  refine ⟨(valid.zip wrc).map fun p => regimeLine p.1 p.2, ?_, by simp [hlen], ?_⟩
  · unfold writeKMeans
    rw [if_neg (by simpa using hlen), if_neg (by decide), if_pos rfl]
    rfl
  · intro k v r h1 h2
    have hz : (valid.zip wrc)[k]? = some (v, r) := by rw [List.getElem?_zip_eq_some]; exact ⟨h1, h2⟩
    refine ⟨_, by rw [List.getElem?_map, hz]; rfl, ?_⟩
    obtain ⟨t, yt, mt, dt, rest, rfl, l1, l2, l3, hc, _⟩ := hv v (List.mem_of_getElem? h1)
    refine ⟨yt, mt, dt, ?_, ⟨rest, rfl⟩, l1, l2, l3⟩
    have n1 : yt ≠ [] := fun h0 => by simp [h0] at l1
    have n2 : mt ≠ [] := fun h0 => by simp [h0] at l2
    have n3 : dt ≠ [] := fun h0 => by simp [h0] at l3
    unfold regimeLine
    simp only [stampParts_eq yt mt dt rest l1 l2 l3]
    rw [columnsOf_padLeft 6 yt n1 (fun c hx => digit_not_blank c (hc c (by simp [hx]))) ' ' (by decide),
      columnsOf_padLeft 3 mt n2 (fun c hx => digit_not_blank c (hc c (by simp [hx]))) ' ' (by decide),
      columnsOf_padLeft 4 dt n3 (fun c hx => digit_not_blank c (hc c (by simp [hx]))) ' ' (by decide),
      columnsOf_padLeft 6 _ (regime_text r).1 (regime_text r).2 '\n' (by decide)]
    rfl

/-- C215: a day whose file was missing (valid time empty) has a line with the regime only. -/
theorem C215_missing_day (r : ℕ) : columnsOf (regimeLine [] r) = [Nat.toDigits 10 r ++ ['.', '0']] := by
  unfold regimeLine
  have : stampParts [] = ([], [], []) := rfl
  simp only [this]
  rw [columnsOf_empty, columnsOf_blank _ (by decide), columnsOf_empty, columnsOf_blank _ (by decide), columnsOf_empty,
    columnsOf_blank _ (by decide), columnsOf_padLeft 6 _ (regime_text r).1 (regime_text r).2 '\n' (by decide)]
  rfl

/-! ### C216 -/

theorem mapM_of_forall₂ {α β γ : Type} {R : α → β → Prop} {f : α → Except PyErr γ} {g : β → γ} {as : List α} {bs : List β}
    (h : List.Forall₂ R as bs) (hf : ∀ a, ∀ b ∈ bs, R a b → f a = .ok (g b)) : as.mapM f = .ok (bs.map g) := by
  induction h with
  | nil => rw [List.mapM_nil]; rfl
  | @cons a b as bs h1 _ ih =>
    rw [List.mapM_cons, hf a b (by simp) h1, ih fun a b hb => hf a b (by simp [hb])]
    rfl

theorem mapM_has_error {α β : Type} {f : α → Except PyErr β} : ∀ (l : List α) (x : α) (e : PyErr), x ∈ l → f x = .error e →
    ∃ e', l.mapM f = .error e'
  | [], _, _, h, _ => by simp at h
  | a :: l, x, e, h, he => by
    rw [List.mapM_cons]
    cases ha : f a with
    | error e1 => exact ⟨e1, rfl⟩
    | ok b =>
      rcases List.mem_cons.mp h with rfl | h
      · rw [he] at ha; simp at ha
      · obtain ⟨e', h'⟩ := mapM_has_error l x e h he
        rw [h']
        exact ⟨e', rfl⟩

/-- C216: days of the calendar, years up to 9999: the netCDF file counts the time from the first day, and going on from that day by
as many days as the time says (or, for a negative time, from the day to the first) meets the day; the date is year, month and
day in decimal digits; the regimes are in the order of the days. -/
theorem C216_time (old : Option RegimeFile) (valid : List (List Char)) (wrc : List ℕ) (hlen : valid.length = wrc.length)
    (days : List (ℕ × ℕ × ℕ)) (hne : days ≠ []) (hv : List.Forall₂ IsStamp valid days) (hd : ∀ t ∈ days, IsDay t ∧ t.1 ≤ 9999) :
    ∃ first time date, days.head? = some first ∧
      writeKMeans "netcdf" old valid wrc = (some (.netcdf first time date wrc), .ok ()) ∧
      time.length = days.length ∧ date = days.map (fun t => ((10000 * t.1 + 100 * t.2.1 + t.2.2 : ℕ) : ℤ)) ∧
      ∀ (k : ℕ) t τ, days[k]? = some t → time[k]? = some τ →
        (0 ≤ τ → dayAfter^[τ.toNat] first = t) ∧ (τ ≤ 0 → dayAfter^[(-τ).toNat] t = first) := by
  obtain ⟨first, rest, rfl⟩ := List.exists_cons_of_ne_nil hne
  cases hv with
  | @cons v _ vs _ h1 h2 =>
    have hrows : (v :: vs).mapM (fun v => do
        let d ← stampDate v
        let p := stampParts v
        let n ← intOf (p.1 ++ p.2.1 ++ p.2.2)
        return ((ordinal d : ℤ) - ordinal first, n)) =
        .ok ((first :: rest).map fun t => ((ordinal t : ℤ) - ordinal first, ((10000 * t.1 + 100 * t.2.1 + t.2.2 : ℕ) : ℤ))) := by
      refine mapM_of_forall₂ (R := IsStamp) (.cons h1 h2) ?_
      intro w t ht hw
      obtain ⟨s1, s2⟩ := stampDate_ok w t hw (hd t ht).1 (hd t ht).2
      simp only [s1, s2, bind, Except.bind, pure, Except.pure]
    refine ⟨first, (first :: rest).map fun t => (ordinal t : ℤ) - ordinal first, _, rfl, ?_, by simp, rfl, ?_⟩
    · unfold writeKMeans
      rw [if_neg (by simpa using hlen), if_pos rfl]
      unfold netcdfRegimes
      simp only
      rw [(stampDate_ok v first h1 (hd first (by simp)).1 (hd first (by simp)).2).1]
      simp only [bind, Except.bind, pure, Except.pure] at hrows ⊢
      rw [hrows]
      simp only [List.map_map]
      rfl
    · intro k t τ e1 e2
      rw [List.getElem?_map, e1] at e2
      simp only [Option.map_some, Option.some.injEq] at e2
      have ht := (hd t (List.mem_of_getElem? e1)).1
      have hf := (hd first (by simp)).1
      exact ⟨fun h => iterate_reaches hf ht _ (by omega), fun h => iterate_reaches ht hf _ (by omega)⟩

/-! ### C217 -/

/-- C217: when one valid time is no date, the earlier file is gone and the error is reported. -/
theorem C217_old_file_lost (old : Option RegimeFile) (valid : List (List Char)) (wrc : List ℕ) (v : List Char) (hv : v ∈ valid)
    (e : PyErr) (he : stampDate v = .error e) (hlen : valid.length = wrc.length) :
    ∃ e', writeKMeans "netcdf" old valid wrc = (none, .error e') := by
  unfold writeKMeans
  rw [if_neg (by simpa using hlen), if_pos rfl]
  have : ∃ e', netcdfRegimes valid wrc = .error e' := by
    unfold netcdfRegimes
    cases valid with
    | nil => exact ⟨_, rfl⟩
    | cons w ws =>
      simp only
      cases stampDate w with
      | error e1 => exact ⟨e1, rfl⟩
      | ok ref =>
        simp only [bind, Except.bind]
        obtain ⟨e', h'⟩ := mapM_has_error (f := fun v => (do
            let d ← stampDate v
            let p := stampParts v
            let n ← intOf (p.1 ++ p.2.1 ++ p.2.2)
            return ((ordinal d : ℤ) - ordinal ref, n) : Except PyErr (ℤ × ℤ))) (w :: ws) v e hv (by
          simp only [he, bind, Except.bind])
        simp only [bind, Except.bind, pure, Except.pure] at h' ⊢
        rw [h']
        exact ⟨e', rfl⟩
  obtain ⟨e', h⟩ := this
  rw [h]
  exact ⟨e', rfl⟩

/-- C217 is false: a missing day (empty valid time) in the list, and the file of an earlier run is removed. -/
theorem C217_counterexample : ∃ (old : RegimeFile) (valid : List (List Char)) (wrc : List ℕ),
    writeKMeans "netcdf" (some old) valid wrc = (none, .error .valueError) :=
  ⟨.netcdf (2000, 12, 1) [0] [20001201] [1], ["20001201_000000".toList, []], [1, 2], by decide +kernel⟩

/-! ### C218 -/

/-- The entry of a table. -/
def entry {R : Type} [Field R] (M : List (List R)) (i j : ℕ) : R := (M.getD i []).getD j 0

/-- C218: `pc` of `n` days and `K` components, uncorrelated and of the same mean square, and `eofs` the covariances of the
components with the heights `X`: the heights rebuilt differ from `X` by a part uncorrelated with every component, and are `X`
itself when `X` is a combination of the components. -/
theorem C218_projection {R : Type} [Field R] (n K G : ℕ) (N : R) (hN : N ≠ 0) (pc eofs : List (List R)) (X : ℕ → ℕ → R)
    (hpc : pc.length = n) (hrow : ∀ r ∈ pc, r.length = K) (he : eofs.length = K) (her : ∀ r ∈ eofs, r.length = G) (hK : 0 < K)
    (horth : ∀ k < K, ∀ l < K, ∑ t ∈ Finset.range n, entry pc t k * entry pc t l = if k = l then N else 0)
    (hcov : ∀ k < K, ∀ g < G, entry eofs k g = (∑ t ∈ Finset.range n, entry pc t k * X t g) / N) :
    ∃ A, reconstructHeights K eofs pc = .ok A ∧ A.length = n ∧ (∀ r ∈ A, r.length = G) ∧
      (∀ k < K, ∀ g < G, ∑ t ∈ Finset.range n, entry pc t k * (X t g - entry A t g) = 0) ∧
      ((∃ D : ℕ → ℕ → R, ∀ t < n, ∀ g < G, X t g = ∑ k ∈ Finset.range K, entry pc t k * D k g) →
        ∀ t < n, ∀ g < G, entry A t g = X t g) := by
  have hG : (eofs.headD []).length = G := by
    obtain ⟨r, rs, rfl⟩ := List.exists_cons_of_ne_nil (show eofs ≠ [] from fun h0 => by simp [h0] at he; omega)
    exact her r (by simp)
  have hrun : reconstructHeights K eofs pc = .ok (pc.map fun r => (List.range G).map fun g =>
      ((List.range K).map fun k => r.getD k 0 * entry eofs k g).sum) := by
    unfold reconstructHeights
    rw [if_neg (by simpa using he), if_neg (by simpa using hrow), hG]
    rfl
  have hA : ∀ t < n, ∀ g < G, entry (pc.map fun r => (List.range G).map fun g =>
      ((List.range K).map fun k => r.getD k 0 * entry eofs k g).sum) t g =
      ∑ k ∈ Finset.range K, entry pc t k * entry eofs k g := by
    intro t ht g hg
    have ht' : t < pc.length := hpc ▸ ht
    rw [Finset.sum_range, ← List.sum_ofFn]
    unfold entry
    rw [List.getD_eq_getElem?_getD (l := pc.map _), List.getElem?_map, List.getElem?_eq_getElem ht', Option.map_some,
      Option.getD_some, List.getD_eq_getElem _ _ (by simpa using hg), List.getElem_map, List.getElem_range,
      List.getD_eq_getElem pc [] ht']
    congr 1
    apply List.ext_getElem
    · simp
    · intro k h1 h2
      simp
  have hproj : ∀ (Y : ℕ → ℕ → R) (E : ℕ → ℕ → R), (∀ t < n, ∀ g < G, Y t g = ∑ l ∈ Finset.range K, entry pc t l * E l g) →
      ∀ k < K, ∀ g < G, ∑ t ∈ Finset.range n, entry pc t k * Y t g = N * E k g := by
    intro Y E hY k hk g hg
    calc ∑ t ∈ Finset.range n, entry pc t k * Y t g
        = ∑ t ∈ Finset.range n, ∑ l ∈ Finset.range K, entry pc t k * entry pc t l * E l g := by
          apply Finset.sum_congr rfl
          intro t ht
          rw [hY t (Finset.mem_range.mp ht) g hg, Finset.mul_sum]
          exact Finset.sum_congr rfl fun l _ => by ring
      _ = ∑ l ∈ Finset.range K, (∑ t ∈ Finset.range n, entry pc t k * entry pc t l) * E l g := by
          rw [Finset.sum_comm]
          exact Finset.sum_congr rfl fun l _ => by rw [Finset.sum_mul]
      _ = ∑ l ∈ Finset.range K, if k = l then N * E l g else 0 := by
          apply Finset.sum_congr rfl
          intro l hl
          rw [horth k hk l (Finset.mem_range.mp hl)]
          split <;> simp
      _ = N * E k g := by rw [Finset.sum_ite_eq, if_pos (Finset.mem_range.mpr hk)]
  refine ⟨_, hrun, by simpa using hpc, ?_, ?_, ?_⟩
  · intro r hr
    obtain ⟨_, _, rfl⟩ := List.mem_map.mp hr
    simp
  · intro k hk g hg
    have h1 := hproj _ (fun k g => entry eofs k g) hA k hk g hg
    simp only [mul_sub]
    rw [Finset.sum_sub_distrib, h1, hcov k hk g hg]
    field_simp
    simp
  · rintro ⟨D, hD⟩ t ht g hg
    rw [hA t ht g hg, hD t ht g hg]
    apply Finset.sum_congr rfl
    intro k hk
    rw [Finset.mem_range] at hk
    rw [hcov k hk g hg, hproj X D hD k hk g hg, mul_div_cancel_left₀ _ hN]

/-! ### Examples -/

example : IsStamp "20000229_120000".toList (2000, 2, 29) ∧ IsDay (2000, 2, 29) := by
  refine ⟨⟨"2000".toList, "02".toList, "29".toList, "_120000".toList, by decide, by decide, by decide, by decide, by decide +kernel,
    by decide +kernel, by decide +kernel, by decide +kernel⟩, by decide, by decide, by decide, by decide, by decide⟩

example : writeKMeans "netcdf" none ["20001231_000000".toList, "20010101_000000".toList, "20011201_000000".toList] [2, 1, 3] =
    (some (.netcdf (2000, 12, 31) [0, 1, 335] [20001231, 20010101, 20011201] [2, 1, 3]), .ok ()) := by decide +kernel

example : writeKMeans "text" none ["20001231_000000".toList] [2] =
    (some (.text ["# Year Month Day WeatherRegime\n".toList, "  2000  12   31    2.0\n".toList]), .ok ()) := by decide +kernel

example : reconstructHeights (R := ℚ) 1 [[3, 0]] [[1], [-1]] = .ok [[3, 0], [-3, 0]] := by decide +kernel

end Metcalcpy.Props
