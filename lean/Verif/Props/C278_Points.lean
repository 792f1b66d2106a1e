/-
C278  Which exception a call raises: the relative width of an interval, and points of ECLV curves with limits.
-/
import Verif.Model.BootWidth
import Verif.Model.AggEclvBoot
import Verif.Model.AggEclv

namespace Metcalcpy.Props
open Metcalcpy

/-- The relative width of an interval: without a value or a bound it is a TypeError, unless the value is zero; nothing else is refused. -/
theorem C278_error_fraction (r : BootResult) (e : PyErr) :
    errorFraction r = .error e ↔ e = .typeError ∧ r.value ≠ some 0 ∧ (r.value = none ∨ r.upper = none ∨ r.lower = none) := by
  unfold errorFraction
  by_cases h : r.value = some 0
  · simp [h]
  · rw [if_neg h]
    unfold errorWidth
    cases hu : r.upper with
    | none => simp [bind, Except.bind, h, eq_comm]
    | some u =>
      cases hl : r.lower with
      | none => simp [bind, Except.bind, h, eq_comm]
      | some l =>
        cases hv : r.value with
        | none => simp [bind, Except.bind, eq_comm]
        | some v => simp [bind, Except.bind]

/-- C278 (example): the interval is there but the value is not. -/
example := (C278_error_fraction ⟨none, some 1, some 2⟩ .typeError).mpr (by simp)

/-- A point of an ECLV plot with limits for which no row is found: nothing if the table has thresholds, otherwise a TypeError (the
missing result is used as if it were there). -/
theorem C278_eclv_no_rows (npf cbb : Bool) (m : CiMethod) (lt : String) (cols : List String) (steps : List ℚ) (f : Frame)
    (names : List String) (draws : List String → ℚ → List (List ℕ)) (point : List String)
    (h1 : ∃ q ∈ names.zip point, q.1 ∈ f.cols)
    (h2 : ∀ r ∈ f.rows, ∃ q ∈ names.zip point, ∃ i, f.idx? q.1 = some i ∧ partMatches (cellAt r i) q.2 = false) :
    eclvPointBoot npf cbb m lt cols steps f names draws point = if "thresh_i" ∈ f.cols then .ok [] else .error .typeError := by
  have hidx : ∀ c, c ∈ f.cols ↔ (f.idx? c).isSome = true := by
    intro c
    unfold Frame.idx?
    rw [List.findIdx?_isSome]
    simp
  have hr : eclvRows f (names.zip point) = .ok [] := by
    unfold eclvRows
    dsimp only
    rw [if_neg, List.filter_eq_nil_iff.mpr]
    · intro r hr
      obtain ⟨q, hq, i, hi, hf⟩ := h2 r hr
      simp only [List.all_eq_true, not_forall]
      exact ⟨_, List.mem_filterMap.mpr ⟨q, hq, by rw [hi]; rfl⟩, by simp [hf]⟩
    · obtain ⟨q, hq, hc⟩ := h1
      obtain ⟨i, hi⟩ := Option.isSome_iff_exists.mp ((hidx _).mp hc)
      rw [List.isEmpty_iff]
      intro he
      have : (fun r => partMatches (cellAt r i) q.2) ∈ (names.zip point).filterMap
          (fun q => (f.idx? q.1).map (fun i (r : List Val) => partMatches (cellAt r i) q.2)) :=
        List.mem_filterMap.mpr ⟨q, hq, by rw [hi]; rfl⟩
      rw [he] at this
      cases this
  unfold eclvPointBoot
  rw [hr]
  simp only [bind, Except.bind, List.isEmpty_nil, if_true]
  by_cases ht : "thresh_i" ∈ f.cols
  · obtain ⟨i, hi⟩ := Option.isSome_iff_exists.mp ((hidx _).mp ht)
    simp [ht, eclvThresholds, hi]
  · have hi : f.idx? "thresh_i" = none := by
      cases h : f.idx? "thresh_i" with
      | none => rfl
      | some i => exact absurd ((hidx _).mpr (by rw [h]; rfl)) ht
    simp [ht, eclvThresholds, hi]

/-- C278 (example): a table without thresholds, and a model that is not in it. -/
example := C278_eclv_no_rows true false .perc "ctc" [] [] ⟨["model"], [[.str "A"]]⟩ ["model"] (fun _ _ => []) ["B"]
  (by decide) (by
    intro r hr
    simp only [List.mem_singleton] at hr
    subst hr
    exact ⟨("model", "B"), by simp, 0, by decide +kernel, by decide +kernel⟩)

/-- If at the first threshold of a point there is no economic value, or no limits, the point is a TypeError. -/
theorem C278_eclv_no_value (npf cbb : Bool) (m : CiMethod) (lt : String) (cols : List String) (steps : List ℚ) (f : Frame)
    (names : List String) (draws : List String → ℚ → List (List ℕ)) (point : List String) {rows : List (List Val)} {t : Table}
    {th : ℚ} {ths : List ℚ} {v : Option EconValue} {l : Option (List (Option ℚ × Option ℚ))}
    (h1 : eclvRows f (names.zip point) = .ok rows) (h2 : rows ≠ []) (h3 : frameTable f cols rows = .ok t)
    (h4 : eclvThresholds f rows = th :: ths) (h5 : eclvBootstrap npf cbb m lt steps t th (draws point th) = .ok (v, l))
    (h6 : v = none ∨ l = none) :
    eclvPointBoot npf cbb m lt cols steps f names draws point = .error .typeError := by
  unfold eclvPointBoot
  rw [h1]
  simp only [bind, Except.bind]
  have h2' : rows.isEmpty = false := by simpa using h2
  rw [h2', h3, h4]
  simp only [Bool.false_eq_true, if_false]
  rw [List.mapM_cons]
  rcases h6 with rfl | rfl
  · simp only [h5, bind, Except.bind]
  · cases v <;> simp only [h5, bind, Except.bind]

/-- A table of contingency counts that has no case at all. -/
def exNoCases : Frame := ⟨["model", "fy_oy", "fy_on", "fn_oy", "fn_on"], [[.str "A", .num 0 "0", .num 0 "0", .num 0 "0", .num 0 "0"]]⟩

theorem exNoCases_boot : eclvBootstrap true false .perc "ctc" [1 / 2]
    ⟨["fy_oy", "fy_on", "fn_oy", "fn_on"], [[some 0, some 0, some 0, some 0]]⟩ 0 [[0]] = .ok (none, none) := by
  have h : (match eclvBootstrap true false .perc "ctc" [1 / 2]
      ⟨["fy_oy", "fy_on", "fn_oy", "fn_on"], [[some 0, some 0, some 0, some 0]]⟩ 0 [[0]] with
    | .ok (none, none) => true
    | _ => false) = true := by decide +kernel
  split at h
  · assumption
  · cases h

/-- C278 (example): no case, no economic value. -/
example := C278_eclv_no_value true false .perc "ctc" ["fy_oy", "fy_on", "fn_oy", "fn_on"] [1 / 2] exNoCases ["model"] (fun _ _ => [[0]])
  ["A"] (rows := exNoCases.rows) (t := ⟨["fy_oy", "fy_on", "fn_oy", "fn_on"], [[some 0, some 0, some 0, some 0]]⟩) (th := 0) (ths := [])
  (v := none) (l := none) (by decide +kernel) (by decide) (by decide +kernel) (by decide +kernel) exNoCases_boot (.inl rfl)

end Metcalcpy.Props
