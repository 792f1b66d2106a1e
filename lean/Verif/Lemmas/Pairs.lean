import Verif.Lemmas.Prepare
import Verif.Lemmas.Ctc
import Mathlib.Tactic.Ring
import Mathlib.Tactic.FieldSimp
import Mathlib.Tactic.Linarith

namespace Metcalcpy
open Spec

/-- Sums of a prepared table. -/
theorem prepared_sums {α : Type*} {t : Table} {bs : List (List α)} (hr : t.rows ≠ [])
    (hne : ∀ b ∈ bs, b ≠ []) (htot : CompleteColumn t "total" (bs.map (fun b => (b.length : ℚ))))
    (g : String → α → ℚ) (fields : List String) (hnd : fields.Nodup) (hnt : "total" ∉ fields)
    (hc : ∀ c ∈ fields, CompleteColumn t c (bs.map (avg (g c)))) :
    ∃ t', prepareFields t (some fields) = .ok t' ∧ t'.rows ≠ [] ∧
      sumColumn t' "total" = some (bs.flatten.length : ℚ) ∧
      (∀ c ∈ fields, sumColumn t' c = some (bs.flatten.map (g c)).sum) ∧
      0 < (bs.flatten.length : ℚ) := by
  obtain ⟨t', h1, h2, h3, h4⟩ := mulColumns_ok (fun c => bs.map (avg (g c))) fields htot hnd hnt hc
  have hr' : t'.rows ≠ [] := by
    intro h; apply hr
    rw [h] at h2; exact List.eq_nil_of_length_eq_zero (by simpa using h2.symm)
  have hbs : bs ≠ [] := by
    rintro rfl
    have := IsColumn.length htot
    apply hr; exact List.eq_nil_of_length_eq_zero (by simpa using this.symm)
  refine ⟨t', h1, hr', ?_, ?_, flatten_pos hbs hne⟩
  · rw [sumColumn_of_complete hr' (h4 _ _ hnt htot), sum_lengths]
  · intro c hcm
    rw [sumColumn_of_complete hr' (h3 c hcm), sum_weighted _ _ hne]

section sums
variable {α : Type*} (ps : List α)

theorem sum_map_add' (g h : α → ℚ) :
    (ps.map (fun p => g p + h p)).sum = (ps.map g).sum + (ps.map h).sum := by
  induction ps with
  | nil => simp
  | cons p ps ih => simp only [List.map_cons, List.sum_cons, ih]; ring

theorem sum_map_sub' (g h : α → ℚ) :
    (ps.map (fun p => g p - h p)).sum = (ps.map g).sum - (ps.map h).sum := by
  induction ps with
  | nil => simp
  | cons p ps ih => simp only [List.map_cons, List.sum_cons, ih]; ring

theorem sum_map_mul_left' (c : ℚ) (g : α → ℚ) :
    (ps.map (fun p => c * g p)).sum = c * (ps.map g).sum := by
  induction ps with
  | nil => simp
  | cons p ps ih => simp only [List.map_cons, List.sum_cons, ih]; ring

theorem sum_map_const' (c : ℚ) : (ps.map (fun _ => c)).sum = ps.length * c := by
  induction ps with
  | nil => simp
  | cons p ps ih => simp only [List.map_cons, List.sum_cons, ih, List.length_cons]; push_cast; ring

theorem sum_sq_nonneg' (g : α → ℚ) : 0 ≤ (ps.map (fun p => (g p) ^ 2)).sum := by
  apply List.sum_nonneg
  intro x hx
  obtain ⟨p, -, rfl⟩ := List.mem_map.mp hx
  positivity

end sums

theorem avg_nonneg_sq {α : Type*} (g : α → ℚ) (ps : List α) : 0 ≤ avg (fun p => (g p) ^ 2) ps :=
  div_nonneg (sum_sq_nonneg' ps g) (Nat.cast_nonneg _)

theorem avg_add {α : Type*} (g h : α → ℚ) (ps : List α) :
    avg (fun p => g p + h p) ps = avg g ps + avg h ps := by
  unfold avg; rw [sum_map_add', add_div]

theorem avg_sub {α : Type*} (g h : α → ℚ) (ps : List α) :
    avg (fun p => g p - h p) ps = avg g ps - avg h ps := by
  unfold avg; rw [sum_map_sub', sub_div]

theorem avg_mul_left {α : Type*} (c : ℚ) (g : α → ℚ) (ps : List α) :
    avg (fun p => c * g p) ps = c * avg g ps := by
  unfold avg; rw [sum_map_mul_left', mul_div_assoc]

theorem avg_const {α : Type*} (c : ℚ) (ps : List α) (h : (ps.length : ℚ) ≠ 0) :
    avg (fun _ => c) ps = c := by
  unfold avg; rw [sum_map_const', mul_div_cancel_left₀ _ h]

theorem avg_congr {α : Type*} {g h : α → ℚ} (ps : List α) (e : ∀ p, g p = h p) : avg g ps = avg h ps := by
  rw [show g = h from funext e]

/-- Mean of a product of deviations. -/
theorem avg_dev {α : Type*} (g h : α → ℚ) (ps : List α) (hn : (ps.length : ℚ) ≠ 0) :
    avg (fun p => (g p - avg g ps) * (h p - avg h ps)) ps =
      avg (fun p => g p * h p) ps - avg g ps * avg h ps := by
  have e : ∀ p, (g p - avg g ps) * (h p - avg h ps) =
      (g p * h p - avg g ps * h p) - (avg h ps * g p - avg g ps * avg h ps) := fun p => by ring
  rw [avg_congr ps e, avg_sub, avg_sub, avg_sub, avg_mul_left, avg_mul_left, avg_const _ _ hn]
  ring

theorem meanError_eq (ps : List Pair) : meanError ps = avg Prod.fst ps - avg Prod.snd ps := by
  unfold meanError; rw [avg_sub (fun p : Pair => p.1) (fun p : Pair => p.2)]

theorem mse_eq (ps : List Pair) : meanSquaredError ps =
    avg (fun p => p.1 * p.1) ps + avg (fun p => p.2 * p.2) ps - 2 * avg (fun p => p.1 * p.2) ps := by
  unfold meanSquaredError
  have e : ∀ p : Pair, (p.1 - p.2) ^ 2 = (p.1 * p.1 + p.2 * p.2) - 2 * (p.1 * p.2) := fun p => by ring
  rw [avg_congr ps e, avg_sub, avg_add, avg_mul_left]

theorem bcmse_eq (ps : List Pair) (hn : (ps.length : ℚ) ≠ 0) :
    biasCorrectedMse ps = meanSquaredError ps - meanError ps ^ 2 := by
  have := avg_dev (fun p : Pair => p.1 - p.2) (fun p : Pair => p.1 - p.2) ps hn
  have e1 : biasCorrectedMse ps = avg (fun p : Pair => (p.1 - p.2 - avg (fun p : Pair => p.1 - p.2) ps) *
      (p.1 - p.2 - avg (fun p : Pair => p.1 - p.2) ps)) ps := by
    unfold biasCorrectedMse meanError
    exact avg_congr ps (fun p => by ring)
  have e2 : meanSquaredError ps = avg (fun p : Pair => (p.1 - p.2) * (p.1 - p.2)) ps := by
    unfold meanSquaredError
    exact avg_congr ps (fun p => by ring)
  rw [e1, e2, this]
  unfold meanError
  ring

theorem variance_eq (g : Pair → ℚ) (ps : List Pair) (hn : (ps.length : ℚ) ≠ 0) :
    variance g ps = avg (fun p => g p * g p) ps - avg g ps ^ 2 := by
  have := avg_dev g g ps hn
  unfold variance
  rw [avg_congr ps (h := fun p => (g p - avg g ps) * (g p - avg g ps)) (fun p => by ring), this]
  ring

theorem covariance_eq (ps : List Pair) (hn : (ps.length : ℚ) ≠ 0) :
    covariance ps = avg (fun p => p.1 * p.2) ps - avg Prod.fst ps * avg Prod.snd ps :=
  avg_dev Prod.fst Prod.snd ps hn

/-- Cauchy-Schwarz for lists. -/
theorem cauchy_list {α : Type*} (g h : α → ℚ) (ps : List α) :
    (ps.map (fun p => g p * h p)).sum ^ 2 ≤
      (ps.map (fun p => g p ^ 2)).sum * (ps.map (fun p => h p ^ 2)).sum := by
  induction ps with
  | nil => simp
  | cons p ps ih =>
    simp only [List.map_cons, List.sum_cons]
    have hA := sum_sq_nonneg' ps g
    have hB := sum_sq_nonneg' ps h
    set s := (ps.map (fun p => g p * h p)).sum
    set A := (ps.map (fun p => g p ^ 2)).sum
    set B := (ps.map (fun p => h p ^ 2)).sum
    set a := g p
    set b := h p
    have key : |2 * s * (a * b)| ≤ A * b ^ 2 + B * a ^ 2 := by
      apply abs_le_of_sq_le_sq _ (by positivity)
      have h1 : (2 * s * (a * b)) ^ 2 = 4 * (s ^ 2 * (a * b) ^ 2) := by ring
      have h2 : s ^ 2 * (a * b) ^ 2 ≤ A * B * (a * b) ^ 2 :=
        mul_le_mul_of_nonneg_right ih (by positivity)
      have h3 : 0 ≤ (A * b ^ 2 - B * a ^ 2) ^ 2 := by positivity
      rw [h1]
      nlinarith [h2, h3]
    have := le_of_abs_le key
    nlinarith [this, ih]

theorem cov_sq_le (ps : List Pair) (hn : 0 < (ps.length : ℚ)) :
    covariance ps ^ 2 ≤ variance Prod.fst ps * variance Prod.snd ps := by
  have := cauchy_list (fun p : Pair => p.1 - avg Prod.fst ps) (fun p : Pair => p.2 - avg Prod.snd ps) ps
  unfold covariance variance avg at *
  rw [div_pow, div_mul_div_comm, ← pow_two]
  exact div_le_div_of_nonneg_right this (by positivity)

end Metcalcpy
