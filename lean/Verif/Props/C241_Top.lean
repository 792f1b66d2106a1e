/-
C241  What the interpolation gives in the top interval.
-/
import Verif.Props.C240_VerticalMissing

namespace Metcalcpy.Props
open Metcalcpy Spec

variable {K : Type} [Field K] [LinearOrder K]

theorem gInterp_weight [IsStrictOrderedRing K] {c eta : K} {z f : ℕ → Option K} (n k : ℕ) (hk : k < n) (u : K) (hu : 0 < u)
    (hw : ∀ j < n, gWeights n c eta z j = if j = k then u else 0) : gInterp n c eta z f = (f k).map (u * ·) := by
  unfold gInterp
  have hr : List.range n = List.range k ++ k :: List.range' (k + 1) (n - k - 1) := by
    conv_lhs => rw [show n = k + ((n - k - 1) + 1) by omega, List.range_add, List.range_succ_eq_map]
    simp [List.range'_eq_map_range, Function.comp_def, Nat.succ_eq_add_one]
    intro a _
    omega
  rw [hr, List.foldl_append, gFold_zero _ _ (List.range k) _ (by
    intro j hj
    rw [List.mem_range] at hj
    rw [hw j (by omega), if_neg (by omega)]), List.foldl_cons, gFold_skip _ _ _ _ _ (by
    intro j h1 h2
    rw [hw j (by omega), if_neg (by omega)])]
  have w0 : gWeights n c eta z k = u := by rw [hw k (by omega), if_pos rfl]
  simp only [gAdd, w0, gt_iff_lt, hu, if_true]
  rw [if_pos (by omega)]
  cases f k <;> simp

/-- C241, actual behaviour in the top interval: strictly between the two highest layers the value of the top layer, present or missing, is
left out of the sum: the result is the value of the layer below it times its weight, and missing exactly when this value is. -/
theorem C241_top_interval [IsStrictOrderedRing K] (surfaces field : List (Option K)) (c eta : K) (k : ℕ) (h₀ h₁ : K) (v₀ : Option K)
    (H : HeightsIncrease c surfaces) (hk : k + 2 = field.length)
    (s0 : surfaces[k]? = some (some h₀)) (s1 : surfaces[k + 1]? = some (some h₁)) (f0 : field[k]? = some v₀)
    (hlo : c * h₀ < eta) (hhi : eta < c * h₁) :
    verticalInterpMissing surfaces field c [eta] = [v₀.map ((c * h₁ - eta) / (c * h₁ - c * h₀) * ·)] := by
  unfold verticalInterpMissing
  simp only [List.map_cons, List.map_nil, List.cons.injEq, and_true]
  set z : ℕ → Option K := fun k => (surfaces[k]?).join with hz
  have hon : (gAbove c eta z (k + 1) && gBelow c eta z k) = true := by
    rw [Bool.and_eq_true]
    exact ⟨gAbove_iff.2 ⟨h₁, s1, hhi⟩, gBelow_iff.2 ⟨h₀, s0, hlo⟩⟩
  have hoff : ∀ j < field.length - 1, j ≠ k → (gAbove c eta z (j + 1) && gBelow c eta z j) = false := by
    intro j _ hjk
    rw [← Bool.not_eq_true, Bool.and_eq_true]
    rintro ⟨a, b⟩
    obtain ⟨x, hx, hx'⟩ := gAbove_iff.1 a
    obtain ⟨y, hy, hy'⟩ := gBelow_iff.1 b
    rcases Nat.lt_or_gt_of_ne hjk with h | h
    · have := height_order H (show j + 1 ≤ k by omega) hx s0
      linarith
    · have := height_order H (show k + 1 ≤ j by omega) s1 hy
      linarith
  have hden : 0 < c * h₁ - c * h₀ := by linarith
  set u := (eta - c * h₀) / (c * h₁ - c * h₀) with hu
  have hu1 : u < 1 := by rw [hu, div_lt_one hden]; linarith
  have hinit : ∀ j, gInit c eta z j = 0 := by
    intro j
    have : gAbove c eta z 0 = false := by
      rw [← Bool.not_eq_true]
      intro a
      obtain ⟨x, hx, hx'⟩ := gAbove_iff.1 a
      have := height_order H (Nat.zero_le k) hx s0
      linarith
    simp [gInit, this]
  have htop : gBelow c eta z (field.length - 1) = false := by
    rw [← Bool.not_eq_true]
    intro a
    obtain ⟨x, hx, hx'⟩ := gBelow_iff.1 a
    have := height_order H (show k + 1 ≤ field.length - 1 by omega) s1 hx
    linarith
  have he : (c * h₁ - eta) / (c * h₁ - c * h₀) = 1 - u := by
    rw [hu, eq_sub_iff_add_eq, ← add_div, div_eq_one_iff_eq hden.ne']
    ring
  rw [he, gInterp_weight field.length k (by omega) (1 - u) (by linarith)]
  · simp only [f0, Option.join_some]
  · intro j hj
    rw [gWeights_eq, gAfter_on (field.length - 1) k (by omega) hoff]
    dsimp only
    rw [htop]
    have e : gStep c eta z (gInit c eta z) (k + 1) j = if j = k then 1 - u else if j = k + 1 then u else 0 := by
      simp only [gStep, Nat.add_sub_cancel, hon, hinit, if_true]
      have : (gDist c eta z k).getD 0 / (((z (k + 1)).getD 0 - (z k).getD 0) * c) = u := by
        simp only [gDist, hz, s0, s1, Option.join_some, Option.map_some, Option.getD_some, hu]
        congr 1
        ring
      rw [this]
    rw [e]
    by_cases e1 : j = field.length - 1
    · rw [if_pos e1, if_neg (show ¬ j = k by omega)]
      simp
    · rw [if_neg e1]
      by_cases e2 : j = k
      · rw [if_pos e2, if_pos e2]
      · rw [if_neg e2, if_neg e2, if_neg (show ¬ j = k + 1 by omega)]

/-- C241, extent in the top interval: it is the linear interpolation exactly when the value of the top layer is zero, or the value of the
layer below is missing. -/
theorem C241_top_exactly_partial [IsStrictOrderedRing K] (surfaces field : List (Option K)) (c eta : K) (k : ℕ) (h₀ h₁ : K)
    (v₀ v₁ : Option K) (H : HeightsIncrease c surfaces) (hk : k + 2 = field.length)
    (s0 : surfaces[k]? = some (some h₀)) (s1 : surfaces[k + 1]? = some (some h₁)) (f0 : field[k]? = some v₀)
    (hlo : c * h₀ < eta) (hhi : eta < c * h₁) :
    verticalInterpMissing surfaces field c [eta] = [lineCell (c * h₀) v₀ (c * h₁) v₁ eta] ↔ v₀ = none ∨ v₁ = some 0 := by
  rw [C241_top_interval surfaces field c eta k h₀ h₁ v₀ H hk s0 s1 f0 hlo hhi]
  have hd : c * h₁ - c * h₀ ≠ 0 := by
    have : 0 < c * h₁ - c * h₀ := by linarith
    exact this.ne'
  have hn : eta - c * h₀ ≠ 0 := by
    have : 0 < eta - c * h₀ := by linarith
    exact this.ne'
  cases v₀ with
  | none => simp [lineCell]
  | some a =>
    cases v₁ with
    | none => simp [lineCell]
    | some b =>
      simp only [lineCell, Option.map_some, Option.bind_some, List.cons.injEq, Option.some.injEq, and_true, reduceCtorEq, false_or]
      have e : a + (b - a) * ((eta - c * h₀) / (c * h₁ - c * h₀)) =
          (c * h₁ - eta) / (c * h₁ - c * h₀) * a + b * ((eta - c * h₀) / (c * h₁ - c * h₀)) := by
        have e1 : (c * h₁ - eta) / (c * h₁ - c * h₀) = 1 - (eta - c * h₀) / (c * h₁ - c * h₀) := by
          rw [eq_sub_iff_add_eq, ← add_div, div_eq_one_iff_eq hd]
          ring
        rw [e1]
        ring
      rw [e, eq_comm, add_eq_left, mul_eq_zero]
      exact or_iff_left (div_ne_zero hn hd)

/-- C241 (example): the top value is missing, the result is not. -/
example := C241_top_interval [some 0, some 5, some 10] [some 8, some 8, (none : Option ℚ)] 1 (15 / 2) 1 5 10 (some 8) (by
  intro i j a b hij hi hj
  obtain ⟨h1, -⟩ := List.getElem?_eq_some_iff.1 hi
  obtain ⟨h2, -⟩ := List.getElem?_eq_some_iff.1 hj
  simp only [List.length_cons, List.length_nil, zero_add, Nat.reduceAdd] at h1 h2
  interval_cases i <;> interval_cases j <;> simp_all <;> subst hi <;> subst hj <;> norm_num) rfl rfl rfl rfl (by norm_num) (by norm_num)

end Metcalcpy.Props
