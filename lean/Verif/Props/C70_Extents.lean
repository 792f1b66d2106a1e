/-
C70, C158, C168  Exactly when the claims hold.
-/
import Verif.Props.C69_VectorCorr
import Verif.Props.C157_Symmetry
import Verif.Props.C168_TauMJO

namespace Metcalcpy.Props
open Metcalcpy Spec

/-- C70, exactly when it holds: the number is the direction in degrees, from 0 to 360, only for winds with no first component and a positive
second one, for which it is zero. -/
theorem C70_exactly_partial (u v : ℝ) (h : ¬ (|u| < 1 / 10 ^ 5 ∧ |v| < 1 / 10 ^ 5)) :
    calcDirection u v = some (if 0 ≤ Complex.arg ⟨v, u⟩ then Complex.arg ⟨v, u⟩ * (180 / Real.pi)
      else Complex.arg ⟨v, u⟩ * (180 / Real.pi) + 360) ↔ u = 0 ∧ 0 < v := by
  rw [C70_direction_actual u v h]
  have hpi := Real.pi_pos
  have hne : (180 / Real.pi) - 1 ≠ 0 := by
    have h4 := Real.pi_le_four
    have : 1 < 180 / Real.pi := by rw [lt_div_iff₀ hpi]; linarith
    linarith
  have key : (some (if 0 ≤ Complex.arg ⟨v, u⟩ then Complex.arg ⟨v, u⟩ else Complex.arg ⟨v, u⟩ + 360) =
      some (if 0 ≤ Complex.arg ⟨v, u⟩ then Complex.arg ⟨v, u⟩ * (180 / Real.pi)
      else Complex.arg ⟨v, u⟩ * (180 / Real.pi) + 360)) ↔ Complex.arg ⟨v, u⟩ = 0 := by
    rw [Option.some_inj]
    constructor
    · intro e
      have : Complex.arg ⟨v, u⟩ * ((180 / Real.pi) - 1) = 0 := by
        split at e <;> linarith
      exact (mul_eq_zero.1 this).resolve_right hne
    · intro e
      rw [e]
      simp
  rw [key, Complex.arg_eq_zero_iff]
  constructor
  · rintro ⟨h1, h2⟩
    refine ⟨h2, lt_of_le_of_ne h1 fun e => h ⟨?_, ?_⟩⟩
    · rw [show u = 0 from h2]; norm_num
    · rw [← show (0 : ℝ) = v from e]; norm_num
  · rintro ⟨h1, h2⟩
    exact ⟨h2.le, h1⟩

/-- A wind with equal components is not among them. -/
example : calcDirection 1 1 ≠ some (if 0 ≤ Complex.arg ⟨1, 1⟩ then Complex.arg ⟨1, 1⟩ * (180 / Real.pi)
      else Complex.arg ⟨1, 1⟩ * (180 / Real.pi) + 360) :=
  (C70_exactly_partial 1 1 (by norm_num)).not.mpr (by norm_num)

/-- C158, exactly when it holds: the two functions give the same spectra of the same coefficients only when there is no quadrature
spectrum. -/
theorem C158_exactly_partial (c : List (ℂ × ℂ)) : crossAtComplex c = crossAt c ↔ (crossAt c).quad = 0 := by
  obtain ⟨h1, h2, h3, h4⟩ := C158_quadrature_counterexample c
  constructor
  · intro e
    rw [e] at h4
    linarith
  · intro e
    cases ha : crossAtComplex c with
    | mk a b d q =>
      cases hb : crossAt c with
      | mk a' b' d' q' =>
        rw [ha, hb] at h1 h2 h3 h4
        rw [hb] at e
        dsimp only at h1 h2 h3 h4 e
        subst h1 h2 h3
        rw [h4, e]
        simp

/-- A wave a quarter of a period behind. -/
example : crossAtComplex [(1, Complex.I)] ≠ crossAt [(1, Complex.I)] :=
  (C158_exactly_partial _).not.mpr (by simp [crossAt])

/-- C168, exactly when it holds: at a point that takes part and has a value, `c` times the flux gives `c` times the MJO flux only when `c` is
one or the MJO flux is zero. -/
theorem C168_exactly_partial (nT nG : ℕ) (flxa : ℕ → ℕ → Option ℝ) (nE : ℕ) (eof : ℕ → ℕ → Option ℝ)
    (f1 f2 : FiltBank) (c : ℝ) (hc : 0 < c) (out : ℕ → ℕ → Option ℝ) (h : calcTauMJO nT nG flxa nE eof f1 f2 = .ok out) :
    ∃ out', calcTauMJO nT nG (fun t g => (flxa t g).map (fun v => c * v)) nE eof f1 f2 = .ok out' ∧
      ∀ t g v, g < nG → flxa 10 g ≠ none → out t g = some v → (out' t g = some (c * v) ↔ c = 1 ∨ v = 0) := by
  obtain ⟨out', h1, h2⟩ := C168_quadratic_counterexample nT nG flxa nE eof f1 f2 c hc out h
  refine ⟨out', h1, fun t g v hg hf hv => ?_⟩
  rw [h2 t g hg hf, hv, Option.map_some, Option.some_inj]
  constructor
  · intro e
    have : (c - 1) * (c * v) = 0 := by linarith [e]
    rcases mul_eq_zero.1 this with h | h
    · left; linarith
    · exact Or.inr ((mul_eq_zero.1 h).resolve_left hc.ne')
  · rintro (rfl | rfl) <;> simp

/-- Twice a flux does not give twice the MJO flux. -/
example : ∃ out out' v, calcTauMJO 12 2 (fun t g => some (if g = 0 then (-1) ^ t else 0)) 4
      (fun _ p => some (if p = 0 then 1 else 0)) ⟨0, 0, fun _ _ => 0⟩ ⟨0, 0, fun _ _ => 0⟩ = .ok out ∧
    calcTauMJO 12 2 (fun t g => (some (if g = 0 then (-1) ^ t else 0)).map fun v => 2 * v) 4
      (fun _ p => some (if p = 0 then 1 else 0)) ⟨0, 0, fun _ _ => 0⟩ ⟨0, 0, fun _ _ => 0⟩ = .ok out' ∧
    out 0 0 = some v ∧ out' 0 0 ≠ some (2 * v) := by
  obtain ⟨out, v, h, hv, hne⟩ := C168_example
  obtain ⟨out', h1, h2⟩ := C168_exactly_partial _ _ _ _ _ _ _ 2 (by norm_num) out h
  exact ⟨out, out', v, h, h1, hv, fun e => ((h2 0 0 v (by norm_num) (by simp) hv).1 e).elim (by norm_num) hne⟩

end Metcalcpy.Props
