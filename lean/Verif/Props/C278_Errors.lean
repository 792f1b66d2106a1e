/-
C278  Which exception a call with unusable input raises.
-/
import Verif.Model.Bootstrap
import Verif.Model.Runs
import Verif.Model.Acf
import Verif.Model.Thresh
import Verif.Model.Prepare
import Verif.Model.Validate
import Verif.Model.EventEqualize
import Verif.Model.Permutations
import Verif.Model.WaveAct
import Verif.Model.MjoEnso
import Verif.Model.MakiIndex
import Verif.Model.OmiIndex
import Verif.Model.Waves
import Verif.Model.SpacetimeFilter
import Verif.Model.RegimeFile
import Verif.Model.BlockingRun
import Verif.Model.AggEclv
import Verif.Model.DiffSig
import Mathlib.Tactic.Linarith

namespace Metcalcpy.Props
open Metcalcpy

/-! ### Statistics and tables -/

/-- The bootstrap with batches of size 0 raises a ValueError, with any number of threads. -/
theorem C278_batch {σ α β : Type} (G : Rng σ) (values : List α) (L : ℕ) (stat : List (List α) → List β) (n : ℕ) (threads : ℤ)
    (cpu : ℕ) (s : σ) (seeds : ℕ → List ℕ) (states : List σ) (schedule : List PoolEvent) :
    bootstrapDistribution G values L stat n (some 0) threads cpu s seeds states schedule = some (.error .valueError) := by
  unfold bootstrapDistribution
  simp only [Option.getD_some, bootstrapSim, if_true]
  split_ifs <;> rfl

/-- Arithmetic with a bootstrap result raises exactly if its value or a bound is missing, and then a TypeError. -/
theorem C278_boot_arithmetic (r : BootResult) (op : BootOp) (e : PyErr) :
    bootApply r op = .error e ↔ e = .typeError ∧ (r.lower = none ∨ r.value = none ∨ r.upper = none) := by
  rcases r with ⟨_ | l, _ | v, _ | u⟩ <;> simp [bootApply, eq_comm]

/-- The runs test with a threshold other than 'median' and 'mean' raises a TypeError, or a ZeroDivisionError when no value is left; with
these thresholds and no value left it raises a ValueError (a StatisticsError). -/
theorem C278_runs (phi : ℝ → ℝ) (x : List Cell) (alt thr : String)
    (ha : alt = "two.sided" ∨ alt = "left.sided" ∨ alt = "right.sided") (hx : x ≠ []) :
    ((∃ c ∈ x, c ≠ none) → thr ≠ "median" → thr ≠ "mean" → runsTest phi x alt thr = .error .typeError) ∧
      ((∀ c ∈ x, c = none) → thr ≠ "median" → thr ≠ "mean" → runsTest phi x alt thr = .error .zeroDivisionError) ∧
      ((∀ c ∈ x, c = none) → thr = "median" ∨ thr = "mean" → runsTest phi x alt thr = .error .valueError) := by
  have h1 : ¬ (alt ≠ "two.sided" ∧ alt ≠ "left.sided" ∧ alt ≠ "right.sided") := by tauto
  have h2 : x.length ≠ 0 := by simpa using hx
  have hn : (∀ c ∈ x, c = none) → removeNone x = [] := by
    intro h
    unfold removeNone
    rw [List.filterMap_eq_nil_iff]
    intro c hc
    simp [h c hc]
  refine ⟨?_, ?_, ?_⟩
  · rintro ⟨c, hc, hc0⟩ m1 m2
    unfold runsTest
    have : removeNone x ≠ [] := by
      unfold removeNone
      rw [Ne, List.filterMap_eq_nil_iff]
      intro h
      exact hc0 (by simpa using h c hc)
    simp only [h1, h2, m1, m2, this, if_false]
  · intro h m1 m2
    unfold runsTest
    simp only [h1, h2, m1, m2, hn h, if_false, if_true]
  · rintro h (m | m)
    · unfold runsTest
      simp only [h1, h2, m, hn h, if_false, if_true]
      rfl
    · unfold runsTest
      simp only [h1, h2, m, hn h, if_false, if_true]
      rfl

/-- The counts of a contingency table: asking for the total of a column that does not exist is a TypeError. -/
theorem C278_counts (t : Table) (a b : String) (h : a ∉ t.cols ∨ b ∉ t.cols) :
    ctcCount2 t a b = .error .typeError ∧ (a ∉ t.cols → ctcCount t a = .error .typeError) := by
  have hs : ∀ c, c ∉ t.cols → sumColumn t c = none := by
    intro c hc
    have : columnData t c = none := by
      unfold columnData Table.colIdx?
      rw [List.findIdx?_eq_none_iff.mpr]
      intro x hx
      simp only [beq_eq_false_iff_ne, ne_eq]
      rintro rfl
      exact hc hx
    unfold sumColumn
    rw [this]
  constructor
  · unfold ctcCount2
    rcases h with h | h
    · rw [hs a h]
    · rw [hs b h]
      cases sumColumn t a <;> rfl
  · intro ha
    unfold ctcCount
    rw [hs a ha]

/-- The base rate of a table without one of its three columns is an IndexError. -/
theorem C278_baser (t : Table) (h : "fy_oy" ∉ t.cols ∨ "fn_oy" ∉ t.cols ∨ "total" ∉ t.cols) :
    ctcBaser t = .error .indexError := by
  have hs : ∀ c, c ∉ t.cols → rawSum t c = .error .indexError := by
    intro c hc
    have : columnData t c = none := by
      unfold columnData Table.colIdx?
      rw [List.findIdx?_eq_none_iff.mpr]
      intro x hx
      simp only [beq_eq_false_iff_ne, ne_eq]
      rintro rfl
      exact hc hx
    unfold rawSum
    rw [this]
  have hk : ∀ c, rawSum t c = .error .indexError ∨ ∃ q, rawSum t c = .ok q := by
    intro c
    unfold rawSum
    cases columnData t c with
    | none => exact Or.inl rfl
    | some l => exact Or.inr ⟨_, rfl⟩
  unfold ctcBaser
  rcases hk "fy_oy" with h1 | ⟨q1, h1⟩
  · rw [h1]; rfl
  · rcases hk "fn_oy" with h2 | ⟨q2, h2⟩
    · rw [h1, h2]; rfl
    · rcases h with h | h | h
      · rw [hs _ h] at h1; cases h1
      · rw [hs _ h] at h2; cases h2
      · rw [h1, h2, hs _ h]; rfl

/-- Preparing lines for a statistic without the total, or without the first column of the statistic, is a KeyError. -/
theorem C278_prepare (t : Table) (c : String) (cs : List String) (h : c ∉ t.cols ∨ "total" ∉ t.cols) :
    prepareFields t (some (c :: cs)) = .error .keyError := by
  have hs : ∀ c, c ∉ t.cols → t.colIdx? c = none := by
    intro c hc
    unfold Table.colIdx?
    rw [List.findIdx?_eq_none_iff]
    intro x hx
    simp only [beq_eq_false_iff_ne, ne_eq]
    rintro rfl
    exact hc hx
  simp only [prepareFields, List.foldlM_cons]
  have : mulColumn "total" t c = .error .keyError := by
    unfold mulColumn
    rcases h with h | h
    · rw [hs c h]
    · rw [hs _ h]
      cases t.colIdx? c <;> rfl
  rw [this]
  rfl

/-- Sorting thresholds of which one looks like a number and is none raises a ValueError, and so does every mixture of numbers and texts;
no other exception is raised by a frame with rows. -/
theorem C278_thresholds {α : Type} (float : List Char → Option ℚ) (asc : Bool) (rows : List (String × α)) (hne : rows ≠ []) (e : PyErr)
    (h : sortByThresh float asc rows = .error e) : e = .valueError := by
  have hcl : ∀ (rows : List (String × α)) e, rows.mapM (fun r => classify float r.1) = .error e → e = .valueError := by
    intro rows
    clear * -
    induction rows with
    | nil => intro e h; cases h
    | cons r rs ih =>
      intro e h
      rw [List.mapM_cons] at h
      cases hc : classify float r.1 with
      | error e' =>
        rw [hc] at h
        obtain rfl : e' = e := by simpa [bind, Except.bind] using h
        unfold classify at hc
        split at hc
        · split at hc
          · cases hc
          · exact (Except.error.inj hc).symm
        · cases hc
      | ok v =>
        rw [hc] at h
        cases hm : rs.mapM (fun r => classify float r.1) with
        | error e' =>
          rw [hm] at h
          obtain rfl : e' = e := by simpa [bind, Except.bind] using h
          exact ih _ hm
        | ok vs => rw [hm] at h; cases h
  unfold sortByThresh at h
  cases hm : rows.mapM (fun r => classify float r.1) with
  | error e' =>
    rw [hm] at h
    obtain rfl : e' = e := by simpa [bind, Except.bind] using h
    exact hcl _ _ hm
  | ok cls =>
    rw [hm] at h
    simp only [bind, Except.bind] at h
    have hl : cls.length = rows.length := by
      clear * - hm
      induction rows generalizing cls with
      | nil => cases hm; rfl
      | cons r rs ih =>
        rw [List.mapM_cons] at hm
        cases hc : classify float r.1 with
        | error e => rw [hc] at hm; cases hm
        | ok v =>
          rw [hc] at hm
          cases h2 : rs.mapM (fun r => classify float r.1) with
          | error e => rw [h2] at hm; cases hm
          | ok vs =>
            rw [h2] at hm
            cases hm
            simp [ih vs h2]
    cases hg : cls.getLast? with
    | none =>
      rw [List.getLast?_eq_none_iff] at hg
      subst hg
      exact absurd (List.length_eq_zero_iff.mp hl.symm) hne
    | some q =>
      rw [hg] at h
      obtain ⟨o, v⟩ := q
      cases v with
      | num v =>
        dsimp only at h
        split at h
        · exact (Except.error.inj h).symm
        · cases h
      | text v =>
        dsimp only at h
        split at h
        · exact (Except.error.inj h).symm
        · cases h

/-- A text that is no date raises a ValueError and nothing else. -/
theorem C278_dates (s : List Char) (e : PyErr) (h : strpDate s = .error e) : e = .valueError := by
  unfold strpDate at h
  split at h
  · split at h
    · split at h
      · exact (Except.error.inj h).symm
      · split at h
        · exact (Except.error.inj h).symm
        · dsimp only at h
          split at h
          · cases h
          · exact (Except.error.inj h).symm
    · exact (Except.error.inj h).symm
  · exact (Except.error.inj h).symm

/-- Equalizing against values needs the lead time: a frame with valid times and no lead times is a KeyError. -/
theorem C278_against_values (f : Frame) (cases : List String) (v : ℕ) (hv : f.idx? "fcst_valid" = some v)
    (hl : f.idx? "fcst_lead" = none) : eventEqualizeAgainstValues f cases = .error .keyError := by
  unfold eventEqualizeAgainstValues
  rw [hv, hl]

/-- Equalization with fewer lists of fixed values than fixed variables raises an IndexError if one of the variables without a list is
not among the exceptions; it raises nothing else. -/
theorem C278_fixed_values (d : List (String × List String)) (vs : List String) (vals : List (List String)) (e : PyErr) :
    addFixVars d vs vals = .error e ↔ e = .indexError ∧ ∃ i v, vs[i]? = some v ∧ vals.length ≤ i ∧ v ∉ exceptionColumns := by
  induction vs generalizing d vals with
  | nil => simp [addFixVars]
  | cons v vs ih =>
    unfold addFixVars
    by_cases hv : v ∈ exceptionColumns
    · rw [if_pos hv, ih]
      refine and_congr_right fun _ => ⟨?_, ?_⟩
      · rintro ⟨i, w, h1, h2, h3⟩
        refine ⟨i + 1, w, by simpa using h1, ?_, h3⟩
        rw [List.length_tail] at h2
        omega
      · rintro ⟨i, w, h1, h2, h3⟩
        cases i with
        | zero =>
          obtain rfl : v = w := by simpa using h1
          exact absurd hv h3
        | succ i => exact ⟨i, w, by simpa using h1, by rw [List.length_tail]; omega, h3⟩
    · rw [if_neg hv]
      cases vals with
      | nil =>
        constructor
        · intro h
          exact ⟨(Except.error.inj h).symm, 0, v, rfl, Nat.zero_le _, hv⟩
        · rintro ⟨rfl, -⟩
          rfl
      | cons w ws =>
        dsimp only
        rw [ih]
        refine and_congr_right fun _ => ⟨?_, ?_⟩
        · rintro ⟨i, u, h1, h2, h3⟩
          exact ⟨i + 1, u, by simpa using h1, by simpa using h2, h3⟩
        · rintro ⟨i, u, h1, h2, h3⟩
          cases i with
          | zero => simp at h2
          | succ i => exact ⟨i, u, by simpa using h1, by simpa using h2, h3⟩

/-- The list of permutations from an index beyond the lists is an IndexError, and no other call raises. -/
theorem C278_permutations {α : Type} (l : List (List α)) (i : ℕ) (e : PyErr) :
    createPermutationsMvList l i = .error e ↔ e = .indexError ∧ l ≠ [] ∧ l.length ≤ i := by
  unfold createPermutationsMvList
  by_cases h0 : l = []
  · simp [h0]
  · by_cases h1 : l.length ≤ i
    · simp [h0, h1, eq_comm]
    · simp [h0, h1]

/-- The economic value with a step of 0 is a ZeroDivisionError, with any other step no error. -/
theorem C278_steps (step : ℚ) (e : PyErr) : clSteps step = .error e ↔ e = .zeroDivisionError ∧ step = 0 := by
  unfold clSteps
  by_cases h : step = 0 <;> simp [h, eq_comm]

/-- The significance of a difference of which one value is missing is a TypeError, unless the statistic has no perfect score. -/
theorem C278_significance (stat : String) (v : PyNum) (p : ℚ) (h : upper stat ∉ naPerfScoreStats) :
    sigAdjust stat .none v p = .error .typeError ∧ sigAdjust stat v .none p = .error .typeError := by
  unfold sigAdjust
  rw [if_neg h, if_neg h]
  cases v <;> exact ⟨rfl, rfl⟩

example : createPermutationsMvList [[1, 2], [3]] 2 = .error .indexError ∧ clSteps 0 = .error .zeroDivisionError ∧
    addFixVars [] ["vx_mask", "fcst_lev"] [["EAST"]] = .error .indexError ∧ (strpDate "2020-13-01".toList).isOk = false := by
  decide +kernel

end Metcalcpy.Props
