/-
C258  Whole bootstrapped runs with two axes: each axis is bootstrapped with the positions drawn for it.
-/
import Verif.Props.C257_Runs

namespace Metcalcpy.Props

open Metcalcpy Spec

open Classical in
/-- The rows `out` of an axis: first one row for every combination of the requested values, which counts the input rows of its
combination and shows their bootstrap with the positions `draws` drawn for it; then rows of derived curves. -/
def AxisBootstrapped (statOf : String → List (List Val) → Except PyErr PyNum) (s : BootSettings) (f : Frame) (c : AggConfig)
    (draws : ℕ → ℕ → List (List ℕ)) (out : List BootOut) : Prop :=
  ∃ plain derived, out = plain ++ derived ∧
    (∀ p, p ∈ plain.map BootOut.point ↔ List.Forall₂ (fun x q => x ∈ q.2) p (requestedValues c)) ∧
    plain.length = ((requestedValues c).map (fun q => q.2.length)).prod ∧
    ∀ (i : ℕ) (o : BootOut), plain[i]? = some o → ∀ rows, rows = f.rows.filter (fun r =>
        decide (RowOf f (((requestedValues c).map Prod.fst).zip o.point) c.fcstVars.head? r)) →
      o.fcstVar = c.fcstVars.head? ∧ o.nstats = rows.length ∧
      (rows = [] → o.value = .none ∧ o.lower = none ∧ o.upper = none) ∧
      (rows ≠ [] → ∃ st, o.point.getLast? = some st ∧
        ShowsBootstrap statOf s f rows (lower st) (draws i rows.length) o)

/-- C258 (partial), for a run with one or two axes without event equalization: the rows of the first axis come first, bootstrapped
with the positions drawn for it, then those of the second axis, if it has series, bootstrapped with its own positions. -/
theorem C258_two_axes_partial {f : Frame} {p : AggParams} (hoff : p.eventEqual = "False" ∨ p.eventEqual = "")
    (R : ∀ a ∈ [p.axis₁, p.axis₂], BootRequest f (p.config a)) (hne : f.rows ≠ [] ∧ f.cols ≠ [])
    (statOf : String → List (List Val) → Except PyErr PyNum) (etb : List PyNum → List PyNum → PyNum) (s : BootSettings)
    (draws₁ draws₂ : ℕ → ℕ → List (List ℕ)) (k : ℕ)
    (hkey : ∀ a ∈ [p.axis₁, p.axis₂], ∀ st ∈ a.stats, ∀ rows, rows ≠ [] → (∀ r ∈ rows, r ∈ f.rows) →
      statOf (lower st) rows ≠ .error .keyError)
    (hdraw₁ : ∀ i n, IndexMatrix n k (draws₁ i n)) (hdraw₂ : ∀ i n, IndexMatrix n k (draws₂ i n))
    (hplain : ∀ a ∈ [p.axis₁, p.axis₂], ∀ q ∈ requestedValues (p.config a), ∀ v ∈ q.2, isDerivedPoint (some [v]) = false)
    (out : List BootOut) (h : bootRun statOf etb s draws₁ draws₂ f p = .ok out) :
    ∃ first second, out = first ++ second ∧ AxisBootstrapped statOf s f (p.config p.axis₁) draws₁ first ∧
      (p.axis₂.series = [] → second = []) ∧
      (p.axis₂.series ≠ [] → AxisBootstrapped statOf s f (p.config p.axis₂) draws₂ second) := by
  have hoff' : truthy (parseBool p.eventEqual) = false := by rcases hoff with h | h <;> rw [h] <;> rfl
  unfold bootRun at h
  simp only [hoff', Bool.false_eq_true, if_false, bind, Except.bind] at h
  cases b1 : bootAxis statOf etb s draws₁ f (p.config p.axis₁) with
  | error e => rw [b1] at h; simp at h
  | ok q₁ =>
    rw [b1] at h
    simp only at h
    have s1 := C258_rows_partial (R p.axis₁ (by simp)) statOf etb s draws₁ k hne (hkey p.axis₁ (by simp)) hdraw₁
      (hplain p.axis₁ (by simp)) _ b1
    split_ifs at h with hx
    · simp only [Except.ok.injEq] at h
      rw [List.isEmpty_iff] at hx
      exact ⟨q₁, [], by simp [h], s1, fun _ => rfl, fun hn => absurd hx hn⟩
    · cases b2 : bootAxis statOf etb s draws₂ f (p.config p.axis₂) with
      | error e => rw [b2] at h; simp at h
      | ok q₂ =>
        rw [b2] at h
        simp only [Except.ok.injEq] at h
        rw [List.isEmpty_iff] at hx
        exact ⟨q₁, q₂, h.symm, s1, fun hn => absurd hn hx, fun _ => C258_rows_partial (R p.axis₂ (by simp)) statOf etb s
          draws₂ k hne (hkey p.axis₂ (by simp)) hdraw₂ (hplain p.axis₂ (by simp)) _ b2⟩

/-! ### Example -/

/-- Other positions than `threeDraws`: the last line of the point every time. -/
def lastDraws (_ n : ℕ) : List (List ℕ) := List.replicate 3 (List.replicate n (n - 1))

theorem lastDraws_ok (i n : ℕ) : IndexMatrix n 3 (lastDraws i n) := by
  refine ⟨by simp [lastDraws], fun row hr => ?_⟩
  obtain rfl := List.eq_of_mem_replicate hr
  refine ⟨by simp, fun j hj => ?_⟩
  have := List.eq_of_mem_replicate hj
  have h0 : n ≠ 0 := by rintro rfl; simp at hj
  omega

/-- With different positions on the two axes the limits of the second axis are those of its own. -/
theorem exBothAxes_own : bootRun meanOfX (fun _ _ => .none) ⟨1 / 2, .perc, false⟩ threeDraws lastDraws bootTable exBothAxes = .ok
    [⟨["B", "12", "ME"], some "TMP", .num (31 / 6), some (23 / 40), some (1171 / 120), 2⟩,
     ⟨["A", "12", "ME"], some "TMP", .num (5 / 2), none, none, 2⟩] := by
  decide +kernel

example := C258_two_axes_partial (Or.inl rfl) exBothAxes_request ⟨by decide, by decide⟩ meanOfX (fun _ _ => .none)
  ⟨1 / 2, .perc, false⟩ threeDraws lastDraws 3 (by intro a _ st _ rows _ _; simp [meanOfX]) threeDraws_ok lastDraws_ok
  (by decide) _ exBothAxes_own

end Metcalcpy.Props
