/-
C278  Which exception a call with unusable input raises: tropical diagnostics, blocking and weather regimes.
-/
import Verif.Props.C278_Errors

namespace Metcalcpy.Props
open Metcalcpy

/-! ### Waves -/

/-- Selecting waves raises exactly if a wavenumber is not among those of the transform, and then a KeyError. -/
theorem selWaves_error (fc : List (ℕ × ℂ)) (w : List ℕ) (e : PyErr) :
    selWaves fc w = .error e ↔ e = .keyError ∧ ∃ k ∈ w, ∀ p ∈ fc, p.1 ≠ k := by
  induction w with
  | nil => simp [selWaves]
  | cons k ks ih =>
    unfold selWaves
    cases hf : fc.find? (fun p => p.1 = k) with
    | none =>
      have hk : ∀ p ∈ fc, p.1 ≠ k := by simpa [List.find?_eq_none] using hf
      constructor
      · intro h
        exact ⟨(Except.error.inj h).symm, k, by simp, hk⟩
      · rintro ⟨rfl, -⟩
        rfl
    | some p =>
      have hp := List.mem_of_find?_eq_some hf
      have hpk : p.1 = k := by simpa using List.find?_some hf
      have : (do return (p :: (← selWaves fc ks)) : Except PyErr (List (ℕ × ℂ))) = .error e ↔ selWaves fc ks = .error e := by
        cases selWaves fc ks <;> simp [bind, Except.bind, pure, Except.pure]
      refine this.trans (ih.trans (and_congr_right fun _ => ⟨?_, ?_⟩))
      · rintro ⟨j, hj, h⟩
        exact ⟨j, by simp [hj], h⟩
      · rintro ⟨j, hj, h⟩
        rcases List.mem_cons.mp hj with rfl | hj
        · exact absurd hpk (h p hp)
        · exact ⟨j, hj, h⟩

/-- The coefficients of zonal waves: an unknown package and an empty circle are ValueErrors, a wavenumber above half the number of
longitudes is a KeyError, and nothing else is refused. -/
theorem C278_waves (x : List ℝ) (waves : Option (List ℕ)) (pkg : String) (e : PyErr) :
    zonalWaveCoeffs x waves pkg = .error e ↔
      (e = .valueError ∧ (x = [] ∨ (pkg ≠ "scipy" ∧ pkg ≠ "xrft"))) ∨
      (e = .keyError ∧ x ≠ [] ∧ (pkg = "scipy" ∨ pkg = "xrft") ∧ ∃ w, waves = some w ∧ ∃ k ∈ w, x.length / 2 < k) := by
  unfold zonalWaveCoeffs
  by_cases hp : pkg ≠ "scipy" ∧ pkg ≠ "xrft"
  · rw [if_pos hp]
    constructor
    · intro h
      exact Or.inl ⟨(Except.error.inj h).symm, Or.inr hp⟩
    · rintro (⟨rfl, -⟩ | ⟨-, -, h, -⟩)
      · rfl
      · tauto
  · rw [if_neg hp]
    by_cases hx : x = []
    · rw [if_pos (by simp [hx])]
      constructor
      · intro h
        exact Or.inl ⟨(Except.error.inj h).symm, Or.inl hx⟩
      · rintro (⟨rfl, -⟩ | ⟨-, h, -⟩)
        · rfl
        · exact absurd hx h
    · rw [if_neg (by simpa using hx)]
      have hp' : pkg = "scipy" ∨ pkg = "xrft" := by tauto
      cases waves with
      | none => simp [hx, hp]
      | some w =>
        dsimp only
        rw [selWaves_error]
        have hiff : ∀ k : ℕ, (∀ p ∈ (List.range (x.length / 2 + 1)).map fun k => (k, rfftAt x k), p.1 ≠ k) ↔ x.length / 2 < k := by
          intro k
          constructor
          · intro h
            by_contra hk
            exact h (k, rfftAt x k) (List.mem_map.mpr ⟨k, List.mem_range.mpr (by omega), rfl⟩) rfl
          · intro hk p hp
            obtain ⟨j, hj, rfl⟩ := List.mem_map.mp hp
            rw [List.mem_range] at hj
            dsimp only
            omega
        simp only [hiff]
        constructor
        · rintro ⟨rfl, h⟩
          exact Or.inr ⟨rfl, hx, hp', w, rfl, h⟩
        · rintro (⟨-, h | h⟩ | ⟨rfl, -, -, w', hw, h⟩)
          · exact absurd h hx
          · exact absurd h hp
          · obtain rfl := Option.some.inj hw
            exact ⟨rfl, h⟩

/-- Symmetric and antisymmetric parts: latitudes of another number than the rows of the data are an IndexError, an unknown option is an
UnboundLocalError. -/
theorem C278_symmetric (X lat : List ℚ) (opt : String) :
    (opt ≠ "symm" → opt ≠ "asymm" → opt ≠ "anti-symm" → getSymmasymm X lat opt = .error .unboundLocalError) ∧
      (opt = "symm" ∨ opt = "asymm" ∨ opt = "anti-symm" → X.length ≠ lat.length → getSymmasymm X lat opt = .error .indexError) := by
  constructor
  · intro h1 h2 h3
    unfold getSymmasymm
    rw [if_neg h1, if_neg (by tauto)]
  · intro ho hl
    have hm : ∀ p, maskRows X lat p = .error .indexError := fun p => by unfold maskRows; rw [if_neg hl]
    unfold getSymmasymm
    simp only [hm, bind, Except.bind]
    rcases ho with rfl | rfl | rfl <;> simp

/-! ### Activity of waves -/

/-- Removing the annual cycle with 0 times a day is a ValueError, with any other number no error. -/
theorem C278_annual (spd : ℕ) (days : List YMD) (vals : List Cell) (data : List GridField) (e : PyErr) :
    (removeAnnual spd days vals = .error e ↔ e = .valueError ∧ spd = 0) ∧
      (gridAnomalies spd days data = .error e ↔ e = .valueError ∧ spd = 0) := by
  unfold gridAnomalies removeAnnual
  by_cases h : spd = 0
  · simp [h, eq_comm]
  · simp only [h, if_false, and_false, iff_false]
    constructor
    · split <;> simp
    · simp

/-- The patterns for a month: annual patterns serve every month; otherwise a month without patterns is an IndexError. -/
theorem C278_patterns (eofs : List (List GridField)) (month : ℕ) (e : PyErr) :
    patternsFor eofs month = .error e ↔ e = .indexError ∧ eofs.length ≠ 1 ∧ eofs.length ≤ month - 1 := by
  unfold patternsFor
  by_cases h1 : eofs.length = 1
  · simp [h1]
  · rw [if_neg h1]
    cases hg : eofs[month - 1]? with
    | none =>
      rw [List.getElem?_eq_none_iff] at hg
      simp [h1, hg, eq_comm]
    | some q =>
      have := (List.getElem?_eq_some_iff.mp hg).1
      simp only [reduceCtorEq, false_iff]
      rintro ⟨-, -, h⟩
      omega

/-- The skill of waves without any time is an IndexError. -/
theorem C278_skill (corr : List Cell → List Cell → Cell) (act : List (List (List Cell))) (n : ℕ) :
    waveSkill corr act n 0 = .error .indexError := by
  unfold waveSkill
  rw [if_pos rfl]

/-! ### Indices of the Madden-Julian oscillation -/

/-- The mean of the last 120 days: fewer than two times, or more times than values, is an IndexError; two equal first times an
OverflowError; nothing else is refused. -/
theorem C278_mean120 (times : List ℚ) (col : List Cell) (e : PyErr) :
    rem120dayMean times col = .error e ↔
      (e = .indexError ∧ times.length < 2) ∨
      (∃ t0 t1 ts, times = t0 :: t1 :: ts ∧ ((e = .overflowError ∧ t1 = t0) ∨ (e = .indexError ∧ t1 ≠ t0 ∧ col.length < times.length))) := by
  rcases times with _ | ⟨t0, _ | ⟨t1, ts⟩⟩
  · simp [rem120dayMean, eq_comm]
  · simp [rem120dayMean, eq_comm]
  · unfold rem120dayMean
    by_cases h0 : t1 = t0
    · subst h0
      simp [eq_comm]
    · have h0' : ¬ (t1 - t0 = 0) := fun h => h0 (by linarith)
      simp only [h0', if_false]
      by_cases hl : col.length < (t0 :: t1 :: ts).length
      · rw [if_pos hl]
        constructor
        · intro h
          exact Or.inr ⟨t0, t1, ts, rfl, Or.inr ⟨(Except.error.inj h).symm, h0, hl⟩⟩
        · rintro (⟨-, h⟩ | ⟨a, b, c, h, ⟨-, h'⟩ | ⟨rfl, -⟩⟩)
          · simp at h
          · simp only [List.cons.injEq] at h
            exact absurd (h.2.1.trans (h'.trans h.1.symm)) h0
          · rfl
      · rw [if_neg hl]
        simp only [reduceCtorEq, false_iff]
        rintro (⟨-, h⟩ | ⟨a, b, c, h, ⟨-, h'⟩ | ⟨-, -, h'⟩⟩)
        · simp at h
        · simp only [List.cons.injEq] at h
          exact absurd (h.2.1.trans (h'.trans h.1.symm)) h0
        · exact hl h'

/-- The projection of the field of a day on its patterns: a day of the year without patterns is an IndexError, a field or patterns of
different sizes a ValueError, and nothing else is refused. -/
theorem C278_projection (eof1 eof2 : List (List ℚ)) (doy : ℕ) (field : List ℚ) (e : PyErr) :
    regressDay eof1 eof2 (doy, field) = .error e ↔
      (e = .indexError ∧ (eof1[doy - 1]? = none ∨ eof2[doy - 1]? = none)) ∨
      (e = .valueError ∧ ∃ e1 e2, eof1[doy - 1]? = some e1 ∧ eof2[doy - 1]? = some e2 ∧
        (e1.length ≠ e2.length ∨ field.length ≠ e1.length)) := by
  unfold regressDay
  dsimp only
  cases h1 : eof1[doy - 1]? with
  | none => simp [eq_comm]
  | some e1 =>
    cases h2 : eof2[doy - 1]? with
    | none => simp [eq_comm]
    | some e2 =>
      dsimp only
      unfold regressOntoEofs
      by_cases hl : e1.length ≠ e2.length ∨ field.length ≠ e1.length
      · rw [if_pos hl]
        constructor
        · intro h
          exact Or.inr ⟨(Except.error.inj h).symm, e1, e2, rfl, rfl, hl⟩
        · rintro (⟨-, h | h⟩ | ⟨rfl, -⟩)
          · cases h
          · cases h
          · rfl
      · rw [if_neg hl]
        dsimp only
        constructor
        · intro h
          split at h <;> cases h
        · rintro (⟨-, h | h⟩ | ⟨-, a, b, ha, hb, h⟩)
          · cases h
          · cases h
          · obtain rfl := Option.some.inj ha
            obtain rfl := Option.some.inj hb
            exact absurd h hl

/-- The same for the projection of the outgoing radiation. -/
theorem C278_omi (eof1 eof2 : List (List ℝ)) (doy : ℕ) (field : List ℝ) (e : PyErr) :
    omiDay eof1 eof2 doy field = .error e ↔
      (e = .indexError ∧ (eof1[doy - 1]? = none ∨ eof2[doy - 1]? = none)) ∨
      (e = .valueError ∧ ∃ e1 e2, eof1[doy - 1]? = some e1 ∧ eof2[doy - 1]? = some e2 ∧
        ¬ (e1.length = field.length ∧ e2.length = field.length)) := by
  unfold omiDay
  cases h1 : eof1[doy - 1]? with
  | none => simp [eq_comm]
  | some e1 =>
    cases h2 : eof2[doy - 1]? with
    | none => simp [eq_comm]
    | some e2 =>
      dsimp only
      by_cases hl : e1.length = field.length ∧ e2.length = field.length
      · rw [if_pos hl]
        simp [hl]
      · rw [if_neg hl]
        constructor
        · intro h
          exact Or.inr ⟨(Except.error.inj h).symm, e1, e2, rfl, rfl, hl⟩
        · rintro (⟨-, h | h⟩ | ⟨rfl, -⟩)
          · cases h
          · cases h
          · rfl

/-- The stress of the Madden-Julian oscillation: ten times or fewer, and exactly one point with data, are IndexErrors; so are fewer than
four patterns once the filters have passed. -/
theorem C278_stress (nT nG : ℕ) (flxa : ℕ → ℕ → Option ℝ) (nE : ℕ) (eof : ℕ → ℕ → Option ℝ) (f1 f2 : FiltBank) :
    (nT ≤ 10 → calcTauMJO nT nG flxa nE eof f1 f2 = .error .indexError) ∧
      ((validPoints nG flxa).length = 1 → calcTauMJO nT nG flxa nE eof f1 f2 = .error .indexError) ∧
      (bandPassCheck nT (validPoints nG flxa).length f1 f2 = .ok () → nE < 4 →
        calcTauMJO nT nG flxa nE eof f1 f2 = .error .indexError) := by
  unfold calcTauMJO
  refine ⟨fun h => by rw [if_pos h], fun h => ?_, fun h h4 => ?_⟩
  · simp only [h, if_true, ite_self]
  · simp only [h, h4, if_true, ite_self]

/-- No latitudes have no Kelvin structure (IndexError); the Makiran-Kelvin window without a day is a ValueError. -/
theorem C278_kelvin (times : List MonthDay) (x : List (Option ℝ)) (d : MonthDay) (hl : times.length = x.length) :
    kelvinStructure [] = .error .indexError ∧
      (∀ e, windowMin times x d = .error e ↔ e = .valueError ∧ ∀ t ∈ times, ¬ (dayNumber d ≤ dayNumber t + 90 ∧ dayNumber t ≤ dayNumber d)) := by
  refine ⟨rfl, fun e => ?_⟩
  unfold windowMin
  have hw : (times.zip x).filter (fun p => decide (dayNumber d ≤ dayNumber p.1 + 90 ∧ dayNumber p.1 ≤ dayNumber d)) = [] ↔
      ∀ t ∈ times, ¬ (dayNumber d ≤ dayNumber t + 90 ∧ dayNumber t ≤ dayNumber d) := by
    rw [List.filter_eq_nil_iff]
    constructor
    · intro h t ht
      obtain ⟨i, hi, rfl⟩ := List.getElem_of_mem ht
      have hm : (times[i], x[i]'(by omega)) ∈ times.zip x :=
        List.mem_iff_getElem.mpr ⟨i, by rw [List.length_zip]; omega, by rw [List.getElem_zip]⟩
      simpa using h _ hm
    · intro h p hp
      have := h p.1 (List.of_mem_zip hp).1
      simpa using this
  dsimp only
  by_cases h : (times.zip x).filter (fun p => decide (dayNumber d ≤ dayNumber p.1 + 90 ∧ dayNumber p.1 ≤ dayNumber d)) = []
  · rw [if_pos h]
    have := hw.mp h
    constructor
    · intro h'
      exact ⟨(Except.error.inj h').symm, this⟩
    · rintro ⟨rfl, -⟩
      rfl
  · rw [if_neg h]
    simp only [reduceCtorEq, false_iff]
    rintro ⟨-, h'⟩
    exact h (hw.mpr h')

/-! ### Blocking and weather regimes -/

/-- Every error of the model of read_nc_met is a ValueError. -/
theorem readNcMet_kind (files : List (Option MetFile)) (ns ds : ℕ) (e : PyErr) (h : readNcMet files ns ds = .error e) :
    e = .valueError := by
  have hf : ∀ a b (l : List (Option MetFile)) e, l.mapM (fileField a b) = .error e → e = .valueError := by
    intro a b l
    clear * -
    induction l with
    | nil => intro e h; cases h
    | cons q l ih =>
      intro e h
      rw [List.mapM_cons] at h
      cases hc : fileField a b q with
      | error e' =>
        rw [hc] at h
        obtain rfl : e' = e := by simpa [bind, Except.bind] using h
        cases q with
        | none => cases hc
        | some f =>
          unfold fileField at hc
          dsimp only at hc
          split at hc
          · cases hc
          · exact (Except.error.inj hc).symm
      | ok v =>
        rw [hc] at h
        cases hm : l.mapM (fileField a b) with
        | error e' =>
          rw [hm] at h
          obtain rfl : e' = e := by simpa [bind, Except.bind] using h
          exact ih _ hm
        | ok vs => rw [hm] at h; cases h
  unfold readNcMet at h
  cases hr : files.reduceOption with
  | nil =>
    rw [hr] at h
    exact (Except.error.inj h).symm
  | cons f fs =>
    rw [hr] at h
    dsimp only at h
    cases hm : files.mapM (fileField f.lats.length f.lons.length) with
    | error e' =>
      rw [hm] at h
      obtain rfl : e' = e := by simpa [bind, Except.bind] using h
      exact hf _ _ _ _ hm
    | ok vs =>
      rw [hm] at h
      simp only [bind, Except.bind] at h
      split at h
      · cases h
      · exact (Except.error.inj h).symm

/-- Reading fields when at least one file is there: another number of files than days of the seasons is an error, and every error (also
a field of another shape than the first) is a ValueError. The plain Exception of a list without any file is not among the kinds. -/
theorem C278_read (files : List (Option MetFile)) (ns ds : ℕ) (f₀ : MetFile) (h₀ : some f₀ ∈ files) :
    (files.length ≠ ns * ds → readNcMet files ns ds = .error .valueError) ∧
      (∀ e, readNcMet files ns ds = .error e → e = .valueError) := by
  have hall : ∀ e, readNcMet files ns ds = .error e → e = .valueError := by
    intro e h
    exact readNcMet_kind files ns ds e h
  refine ⟨fun hl => ?_, hall⟩
  cases hr : readNcMet files ns ds with
  | error e => rw [hall e hr]
  | ok v =>
    exfalso
    unfold readNcMet at hr
    cases hf : files.reduceOption with
    | nil =>
      have : f₀ ∈ files.reduceOption := by simpa [List.reduceOption] using h₀
      rw [hf] at this
      cases this
    | cons f fs =>
      rw [hf] at hr
      dsimp only at hr
      cases hm : files.mapM (fileField f.lats.length f.lons.length) with
      | error e' => rw [hm] at hr; cases hr
      | ok vs =>
        rw [hm] at hr
        simp only [bind, Except.bind, if_neg hl] at hr
        cases hr

/-- Blocking of a day with a profile of mean latitudes that does not fit the longitudes: IndexError when the profile is longer,
ValueError when it is shorter (a profile of one latitude is left out, numpy repeats it). -/
theorem C278_profile (db : ℤ) (deltas : List ℤ) (mean : List ℚ) (n : ℕ) (day : List (List Cell)) :
    (n < mean.length → iblDay "PH" db deltas mean n day = .error .indexError) ∧
      (mean.length ≠ 1 → mean.length < n → iblDay "PH" db deltas mean n day = .error .valueError) := by
  unfold iblDay
  constructor
  · intro h
    rw [if_pos ⟨rfl, h⟩]
  · intro _ h
    rw [if_neg (by rintro ⟨-, h'⟩; omega), if_pos ⟨rfl, h⟩]

/-- Writing the regimes: other numbers of times and regimes are a ValueError that leaves the earlier file; a netCDF file without any time
is an IndexError. -/
theorem C278_write (type : String) (old : Option RegimeFile) (valid : List (List Char)) (wrc : List ℕ) :
    (valid.length ≠ wrc.length → writeKMeans type old valid wrc = (old, .error .valueError)) ∧
      writeKMeans "netcdf" old [] [] = (none, .error .indexError) := by
  constructor
  · intro h
    unfold writeKMeans
    rw [if_pos h]
  · rfl

/-- Heights from patterns: another number of patterns, or of values on a day, than asked for is a ValueError; nothing else is refused. -/
theorem C278_heights {R : Type} [Field R] (npcs : ℕ) (eofs pc : List (List R)) (e : PyErr) :
    reconstructHeights npcs eofs pc = .error e ↔ e = .valueError ∧ (eofs.length ≠ npcs ∨ ∃ r ∈ pc, r.length ≠ npcs) := by
  unfold reconstructHeights
  by_cases h1 : eofs.length ≠ npcs
  · rw [if_pos h1]
    constructor
    · intro h; exact ⟨(Except.error.inj h).symm, Or.inl h1⟩
    · rintro ⟨rfl, -⟩; rfl
  · rw [if_neg h1]
    by_cases h2 : ∃ r ∈ pc, r.length ≠ npcs
    · rw [if_pos (by simpa using h2)]
      constructor
      · intro h; exact ⟨(Except.error.inj h).symm, Or.inr h2⟩
      · rintro ⟨rfl, -⟩; rfl
    · rw [if_neg (by simpa using h2)]
      simp only [reduceCtorEq, false_iff]
      rintro ⟨-, h | h⟩
      · exact h1 h
      · exact h2 h

/-- Reordering with an order that is too short is an IndexError. -/
theorem C278_order {α : Type} (kmeans : List α) (perc : List ℚ) (days : List (ℚ × ℚ)) (n : ℕ) (h : 0 < n) :
    reorderRegimes kmeans perc days n [] = .error .indexError := by
  unfold reorderRegimes
  obtain ⟨m, rfl⟩ : ∃ m, n = m + 1 := ⟨n - 1, by omega⟩
  rw [List.range_succ_eq_map, List.mapM_cons]
  rfl

example : writeKMeans "text" none ["20200101".toList] [] = (none, .error .valueError) ∧
    reconstructHeights (R := ℚ) 2 [[1], [2]] [[1]] = .error .valueError ∧ rem120dayMean [0, 0] [] = .error .overflowError ∧
    regressDay [[1]] [[1]] (2, [1]) = .error .indexError := by
  decide +kernel

end Metcalcpy.Props
