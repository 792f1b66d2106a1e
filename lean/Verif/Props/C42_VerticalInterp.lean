/-
C42  Vertical interpolation is a convex combination of the two bracketing layers
     (false of the code in the top interval and at exact hits).
-/
import Verif.Model.VerticalInterp
import Verif.Spec.VerticalInterp
import Mathlib.Algebra.BigOperators.Group.Finset.Basic
import Mathlib.Algebra.BigOperators.Fin
import Mathlib.Tactic.Ring
import Mathlib.Tactic.FieldSimp
import Mathlib.Tactic.Linarith
import Mathlib.Tactic.NormNum

namespace Metcalcpy.Props
open Metcalcpy Spec

variable {n : ℕ} {c eta : ℚ} {z f : ℕ → ℚ}

theorem vfold_eq (w : ℕ → ℚ) (f : ℕ → ℚ) (n : ℕ) :
    (List.range n).foldl (fun (s : ℚ × ℕ) k => if w k > 0 then (s.1 + w k * f k, s.2 + 1) else s) (0, 0) =
      (∑ k ∈ Finset.range n, (if w k > 0 then w k * f k else 0),
        ((List.range n).filter (fun k => decide (w k > 0))).length) := by
  induction n with
  | zero => simp
  | succ n ih =>
    rw [List.range_succ, List.foldl_append, ih, Finset.sum_range_succ]
    by_cases h : w n > 0 <;> simp [h]

theorem vcount_pos (w : ℕ → ℚ) (n : ℕ) :
    0 < ((List.range n).filter (fun k => decide (w k > 0))).length ↔ ∃ k < n, w k > 0 := by
  rw [List.length_pos_iff_exists_mem]
  simp

theorem vInterp_eq (n : ℕ) (c eta : ℚ) (z f : ℕ → ℚ) :
    ((∃ k < n, vWeights n c eta z k > 0) → vInterp n c eta z f =
      some (∑ k ∈ Finset.range n, (if vWeights n c eta z k > 0 then vWeights n c eta z k * f k else 0))) ∧
    ((¬ ∃ k < n, vWeights n c eta z k > 0) → vInterp n c eta z f = none) := by
  unfold vInterp
  simp only [vfold_eq]
  constructor
  · intro h
    rw [if_pos ((vcount_pos _ _).mpr h)]
  · intro h
    rw [if_neg (fun h' => h ((vcount_pos _ _).mp h'))]

/-- The weights after the first `m` iterations. -/
def vAfter (c eta : ℚ) (z : ℕ → ℚ) (m : ℕ) : ℕ → ℚ :=
  ((List.range m).map (· + 1)).foldl (vStep c eta z) (vInit c eta z)

theorem vAfter_succ (m : ℕ) : vAfter c eta z (m + 1) = vStep c eta z (vAfter c eta z m) (m + 1) := by
  simp [vAfter, List.range_succ, List.foldl_append]

theorem vStep_off {w : ℕ → ℚ} {k : ℕ} (h : ¬ (vDist c eta z k < 0 ∧ vDist c eta z (k - 1) > 0)) :
    vStep c eta z w k = w := by
  funext j
  simp only [vStep, if_neg h, ite_self]

theorem vAfter_off (m : ℕ) (h : ∀ k < m, ¬ (vDist c eta z (k + 1) < 0 ∧ vDist c eta z k > 0)) :
    vAfter c eta z m = vInit c eta z := by
  induction m with
  | zero => rfl
  | succ m ih => rw [vAfter_succ, vStep_off (by simpa using h m (by omega)), ih (fun k hk => h k (by omega))]

theorem vAfter_on (m k : ℕ) (hk : k < m) (hon : vDist c eta z (k + 1) < 0 ∧ vDist c eta z k > 0)
    (h : ∀ j < m, j ≠ k → ¬ (vDist c eta z (j + 1) < 0 ∧ vDist c eta z j > 0)) :
    vAfter c eta z m = vStep c eta z (vInit c eta z) (k + 1) := by
  induction m with
  | zero => omega
  | succ m ih =>
    rw [vAfter_succ]
    rcases Nat.lt_succ_iff_lt_or_eq.mp hk with h1 | h1
    · rw [vStep_off (by simpa using h m (by omega) (by omega)), ih h1 (fun j hj => h j (by omega))]
    · subst h1
      rw [vAfter_off k (fun j hj => h j (by omega) (by omega))]

theorem vWeights_eq : vWeights n c eta z =
    fun j => if j = n - 1 then (if vDist c eta z (n - 1) > 0 then 1 else 0) else vAfter c eta z (n - 1) j := rfl

/-- Strictly increasing heights. -/
def Mono (n : ℕ) (c : ℚ) (z : ℕ → ℚ) : Prop := ∀ i j, i < j → j < n → c * z i < c * z j

theorem mono_le (M : Mono n c z) {i j : ℕ} (h : i ≤ j) (hj : j < n) : c * z i ≤ c * z j := by
  rcases Nat.lt_or_eq_of_le h with h | h
  · exact (M i j h hj).le
  · rw [h]

theorem vInterp_below (M : Mono n c z) (hn : 2 ≤ n) (h : eta < c * z 0) : vInterp n c eta z f = some (f 0) := by
  have hd : ∀ j < n, vDist c eta z j < 0 := by
    intro j hj
    have := mono_le M (Nat.zero_le j) hj
    simp only [vDist]; linarith
  have hw : ∀ j < n, vWeights n c eta z j = if j = 0 then 1 else 0 := by
    intro j hj
    rw [vWeights_eq, vAfter_off]
    · simp only
      by_cases h1 : j = n - 1
      · have := hd (n - 1) (by omega)
        rw [if_pos h1, if_neg (not_lt.mpr this.le), if_neg (by omega)]
      · rw [if_neg h1]
        simp only [vInit, if_pos (hd 0 (by omega))]
    · intro k hk hc
      exact absurd hc.2 (not_lt.mpr (hd k (by omega)).le)
  rw [(vInterp_eq n c eta z f).1 ⟨0, by omega, by rw [hw 0 (by omega)]; norm_num⟩]
  congr 1
  rw [Finset.sum_eq_single 0]
  · rw [hw 0 (by omega)]; norm_num
  · intro j hj hj0
    rw [hw j (Finset.mem_range.mp hj), if_neg hj0]; norm_num
  · intro h0; exact absurd (Finset.mem_range.mpr (by omega)) h0

theorem vInterp_above (M : Mono n c z) (hn : 1 ≤ n) (h : c * z (n - 1) < eta) :
    vInterp n c eta z f = some (f (n - 1)) := by
  have hd : ∀ j < n, 0 < vDist c eta z j := by
    intro j hj
    have := mono_le M (show j ≤ n - 1 by omega) (by omega)
    simp only [vDist]; linarith
  have hw : ∀ j < n, vWeights n c eta z j = if j = n - 1 then 1 else 0 := by
    intro j hj
    rw [vWeights_eq, vAfter_off]
    · simp only
      by_cases h1 : j = n - 1
      · rw [if_pos h1, if_pos (hd (n - 1) (by omega)), if_pos h1]
      · rw [if_neg h1, if_neg h1]
        simp only [vInit, if_neg (not_lt.mpr (hd 0 (by omega)).le), ite_self]
    · intro k hk hc
      exact absurd hc.1 (not_lt.mpr (hd (k + 1) (by omega)).le)
  rw [(vInterp_eq n c eta z f).1 ⟨n - 1, by omega, by rw [hw _ (by omega)]; norm_num⟩]
  congr 1
  rw [Finset.sum_eq_single (n - 1)]
  · rw [hw _ (by omega)]; norm_num
  · intro j hj hj0
    rw [hw j (Finset.mem_range.mp hj), if_neg hj0]; norm_num
  · intro h0; exact absurd (Finset.mem_range.mpr (by omega)) h0

theorem vInterp_hit (M : Mono n c z) {k : ℕ} (hk : k < n) (h : eta = c * z k) :
    vInterp n c eta z f = none := by
  apply (vInterp_eq n c eta z f).2
  rintro ⟨j, hj, hp⟩
  have hoff : ∀ i < n - 1, ¬ (vDist c eta z (i + 1) < 0 ∧ vDist c eta z i > 0) := by
    rintro i hi ⟨h1, h2⟩
    simp only [vDist, h] at h1 h2
    have a : k < i + 1 := by
      by_contra hc
      have := mono_le M (show i + 1 ≤ k by omega) hk
      linarith
    have b : i < k := by
      by_contra hc
      have := mono_le M (show k ≤ i by omega) (by omega)
      linarith
    omega
  rw [vWeights_eq, vAfter_off _ hoff] at hp
  have a : ¬ vDist c eta z (n - 1) > 0 := by
    have := mono_le M (show k ≤ n - 1 by omega) (by omega)
    simp only [vDist, h]; linarith
  have b : ¬ vDist c eta z 0 < 0 := by
    have := mono_le M (Nat.zero_le k) hk
    simp only [vDist, h]; linarith
  simp only [if_neg a, vInit, if_neg b, ite_self] at hp
  exact absurd hp (lt_irrefl _)

theorem vInterp_between (M : Mono n c z) (k : ℕ) (hk : k + 1 < n) (h0 : c * z k < eta)
    (h1 : eta < c * z (k + 1)) :
    vInterp n c eta z f = some (if k + 2 < n then lineAt (c * z k) (f k) (c * z (k + 1)) (f (k + 1)) eta
      else f k * ((c * z (k + 1) - eta) / (c * z (k + 1) - c * z k))) := by
  have hon : vDist c eta z (k + 1) < 0 ∧ vDist c eta z k > 0 := by
    simp only [vDist]; constructor <;> linarith
  have hoff : ∀ j < n - 1, j ≠ k → ¬ (vDist c eta z (j + 1) < 0 ∧ vDist c eta z j > 0) := by
    rintro j hj hjk ⟨a, b⟩
    simp only [vDist] at a b
    rcases Nat.lt_or_gt_of_ne hjk with h | h
    · have := mono_le M (show j + 1 ≤ k by omega) (by omega)
      linarith
    · have := mono_le M (show k + 1 ≤ j by omega) (by omega)
      linarith
  have hden : 0 < c * z (k + 1) - c * z k := by linarith
  have hden' : (z (k + 1) - z k) * c = c * z (k + 1) - c * z k := by ring
  have hinit : ∀ j, vInit c eta z j = 0 := by
    intro j
    have : ¬ vDist c eta z 0 < 0 := by
      have := mono_le M (Nat.zero_le k) (by omega)
      simp only [vDist]; linarith
    simp only [vInit, if_neg this, ite_self]
  have htop : ¬ vDist c eta z (n - 1) > 0 := by
    have := mono_le M (show k + 1 ≤ n - 1 by omega) (by omega)
    simp only [vDist]; linarith
  set a := (eta - c * z k) / (c * z (k + 1) - c * z k) with ha
  have ha0 : 0 < a := div_pos (by linarith) hden
  have ha1 : a < 1 := by rw [ha, div_lt_one hden]; linarith
  have hw : ∀ j < n, vWeights n c eta z j =
      if j = k then 1 - a else if j = k + 1 then (if k + 2 < n then a else 0) else 0 := by
    intro j hj
    rw [vWeights_eq, vAfter_on (n - 1) k (by omega) hon hoff]
    simp only [if_neg htop]
    have hstep : vStep c eta z (vInit c eta z) (k + 1) j =
        if j = k then 1 - a else if j = k + 1 then a else 0 := by
      simp only [vStep, Nat.add_sub_cancel, if_pos hon, hinit, hden']
      rfl
    rw [hstep]
    by_cases e1 : j = n - 1
    · rw [if_pos e1]
      by_cases e2 : j = k
      · omega
      · rw [if_neg e2]
        by_cases e3 : j = k + 1
        · rw [if_pos e3, if_neg (by omega)]
        · rw [if_neg e3]
    · rw [if_neg e1]
      by_cases e2 : j = k
      · rw [if_pos e2, if_pos e2]
      · rw [if_neg e2, if_neg e2]
        by_cases e3 : j = k + 1
        · rw [if_pos e3, if_pos e3, if_pos (by omega)]
        · rw [if_neg e3, if_neg e3]
  have hwk : vWeights n c eta z k = 1 - a := by rw [hw k (by omega), if_pos rfl]
  have hwk1 : vWeights n c eta z (k + 1) = if k + 2 < n then a else 0 := by
    rw [hw (k + 1) hk, if_neg (by omega), if_pos rfl]
  rw [(vInterp_eq n c eta z f).1 ⟨k, by omega, by rw [hwk]; linarith⟩]
  congr 1
  rw [Finset.sum_eq_add k (k + 1) (by omega)]
  · rw [hwk, hwk1, if_pos (by linarith)]
    have e : 1 - a = (c * z (k + 1) - eta) / (c * z (k + 1) - c * z k) := by
      rw [ha, eq_div_iff hden.ne', sub_mul, div_mul_cancel₀ _ hden.ne']; ring
    by_cases h2 : k + 2 < n
    · simp only [if_pos h2, if_pos ha0, lineAt, ← ha]
      ring
    · simp only [if_neg h2, lt_irrefl, gt_iff_lt, if_false, e]
      ring
  · intro j hj hjk
    rw [hw j (Finset.mem_range.mp hj), if_neg hjk.1, if_neg hjk.2]; norm_num
  · intro h'; exact absurd (Finset.mem_range.mpr (by omega)) h'
  · intro h'; exact absurd (Finset.mem_range.mpr (by omega)) h'

/-! ### The property -/

theorem mono_of_increasing {zs : List ℚ} (h : Increasing (zs.map (c * ·))) :
    Mono zs.length c (fun k => zs.getD k 0) := by
  intro i j hij hj
  have := List.pairwise_iff_getElem.mp h i j (by simpa using by omega) (by simpa using hj) hij
  simp only [List.getElem_map] at this
  simpa [List.getD_eq_getElem?_getD, List.getElem?_eq_getElem hj,
    List.getElem?_eq_getElem (show i < zs.length by omega)] using this

theorem getD_of_some {l : List ℚ} {k : ℕ} {x : ℚ} (h : l[k]? = some x) : l.getD k 0 = x := by
  simp [List.getD_eq_getElem?_getD, h]

theorem lt_of_some {l : List ℚ} {k : ℕ} {x : ℚ} (h : l[k]? = some x) : k < l.length := by
  by_contra hc
  rw [List.getElem?_eq_none (by omega)] at h
  simp at h

theorem getElem?_scaled {zs : List ℚ} {k : ℕ} {h : ℚ} (e : (zs.map (c * ·))[k]? = some h) :
    c * zs.getD k 0 = h ∧ k < zs.length := by
  have hk := lt_of_some e
  rw [List.length_map] at hk
  refine ⟨?_, hk⟩
  rw [List.getElem?_map, List.getElem?_eq_getElem hk] at e
  simp at e
  simp [List.getD_eq_getElem?_getD, List.getElem?_eq_getElem hk, e]

/-- C42, inside the column except for its top interval: between two neighbouring layers the result is the
linear interpolation.  `surfaces.map (c * ·)` are the heights in the unit of the levels.
(The full statement, which includes the top interval and levels equal to a height, is false: see
`C42_top_interval`, `C42_exact_hit`.) -/
theorem C42_between_partial (surfaces field : List ℚ) (c eta : ℚ) (k : ℕ) (h₀ v₀ h₁ v₁ h₂ v₂ : ℚ)
    (hlen : surfaces.length = field.length) (hinc : Increasing (surfaces.map (c * ·)))
    (l0 : IsLayer (surfaces.map (c * ·)) field k h₀ v₀)
    (l1 : IsLayer (surfaces.map (c * ·)) field (k + 1) h₁ v₁)
    (l2 : IsLayer (surfaces.map (c * ·)) field (k + 2) h₂ v₂) (hlo : h₀ < eta) (hhi : eta < h₁) :
    verticalInterp surfaces field c [eta] = [some (lineAt h₀ v₀ h₁ v₁ eta)] := by
  obtain ⟨e0, _⟩ := getElem?_scaled l0.1
  obtain ⟨e1, _⟩ := getElem?_scaled l1.1
  obtain ⟨e2, hk2⟩ := getElem?_scaled l2.1
  simp only [verticalInterp, List.map_cons, List.map_nil]
  rw [← hlen, vInterp_between (mono_of_increasing hinc) k (by omega) (by rw [e0]; exact hlo)
    (by rw [e1]; exact hhi), if_pos hk2]
  simp only [e0, e1]
  rw [getD_of_some l0.2, getD_of_some l1.2]

/-- C42, consequence: the interpolated value lies between the values of the two layers. -/
theorem C42_convex_partial (surfaces field : List ℚ) (c eta : ℚ) (k : ℕ) (h₀ v₀ h₁ v₁ h₂ v₂ : ℚ)
    (hlen : surfaces.length = field.length) (hinc : Increasing (surfaces.map (c * ·)))
    (l0 : IsLayer (surfaces.map (c * ·)) field k h₀ v₀)
    (l1 : IsLayer (surfaces.map (c * ·)) field (k + 1) h₁ v₁)
    (l2 : IsLayer (surfaces.map (c * ·)) field (k + 2) h₂ v₂) (hlo : h₀ < eta) (hhi : eta < h₁) :
    ∃ v, verticalInterp surfaces field c [eta] = [some v] ∧ min v₀ v₁ ≤ v ∧ v ≤ max v₀ v₁ := by
  refine ⟨_, C42_between_partial surfaces field c eta k h₀ v₀ h₁ v₁ h₂ v₂ hlen hinc l0 l1 l2 hlo hhi, ?_⟩
  have hd : 0 < h₁ - h₀ := by linarith
  have a0 : 0 ≤ (eta - h₀) / (h₁ - h₀) := div_nonneg (by linarith) hd.le
  have a1 : (eta - h₀) / (h₁ - h₀) ≤ 1 := by rw [div_le_one hd]; linarith
  unfold lineAt
  generalize (eta - h₀) / (h₁ - h₀) = a at *
  rcases le_total v₀ v₁ with h | h
  · rw [min_eq_left h, max_eq_right h]; constructor <;> nlinarith
  · rw [min_eq_right h, max_eq_left h]; constructor <;> nlinarith

/-- C42, outside the column (at least two layers): the value of the nearest layer. -/
theorem C42_outside (surfaces field : List ℚ) (c eta : ℚ) (h₀ v₀ h₁ v₁ : ℚ)
    (hlen : surfaces.length = field.length) (hinc : Increasing (surfaces.map (c * ·)))
    (hn : 2 ≤ field.length) (l0 : IsLayer (surfaces.map (c * ·)) field 0 h₀ v₀)
    (l1 : IsLayer (surfaces.map (c * ·)) field (field.length - 1) h₁ v₁) :
    (eta < h₀ → verticalInterp surfaces field c [eta] = [some v₀]) ∧
    (h₁ < eta → verticalInterp surfaces field c [eta] = [some v₁]) := by
  obtain ⟨e0, _⟩ := getElem?_scaled l0.1
  obtain ⟨e1, _⟩ := getElem?_scaled l1.1
  simp only [verticalInterp, List.map_cons, List.map_nil]
  rw [← hlen] at hn e1 ⊢
  constructor
  · intro h
    rw [vInterp_below (mono_of_increasing hinc) hn (by rw [e0]; exact h), getD_of_some l0.2]
  · intro h
    rw [vInterp_above (mono_of_increasing hinc) (by omega) (by rw [e1]; exact h), hlen, getD_of_some l1.2]

/-- C42 fails in the top interval: the contribution of the top layer is dropped. -/
theorem C42_top_interval (surfaces field : List ℚ) (c eta : ℚ) (k : ℕ) (h₀ v₀ h₁ v₁ : ℚ)
    (hlen : surfaces.length = field.length) (hinc : Increasing (surfaces.map (c * ·)))
    (hk : k + 2 = field.length) (l0 : IsLayer (surfaces.map (c * ·)) field k h₀ v₀)
    (l1 : IsLayer (surfaces.map (c * ·)) field (k + 1) h₁ v₁) (hlo : h₀ < eta) (hhi : eta < h₁) :
    verticalInterp surfaces field c [eta] =
      [some (lineAt h₀ v₀ h₁ v₁ eta - v₁ * ((eta - h₀) / (h₁ - h₀)))] := by
  obtain ⟨e0, _⟩ := getElem?_scaled l0.1
  obtain ⟨e1, hk1⟩ := getElem?_scaled l1.1
  simp only [verticalInterp, List.map_cons, List.map_nil]
  rw [← hlen, vInterp_between (mono_of_increasing hinc) k hk1 (by rw [e0]; exact hlo)
    (by rw [e1]; exact hhi), if_neg (by omega)]
  simp only [e0, e1]
  rw [getD_of_some l0.2]
  have hd : h₁ - h₀ ≠ 0 := by
    have : 0 < h₁ - h₀ := by linarith
    exact this.ne'
  simp only [lineAt, List.cons.injEq, Option.some.injEq, and_true]
  field_simp
  ring

/-- C42 fails at the layers themselves: a level equal to a height gives NaN. -/
theorem C42_exact_hit (surfaces field : List ℚ) (c eta : ℚ) (k : ℕ)
    (hlen : surfaces.length = field.length) (hinc : Increasing (surfaces.map (c * ·)))
    (hk : (surfaces.map (c * ·))[k]? = some eta) :
    verticalInterp surfaces field c [eta] = [none] := by
  obtain ⟨e0, hk'⟩ := getElem?_scaled hk
  simp only [verticalInterp, List.map_cons, List.map_nil]
  rw [← hlen, vInterp_hit (mono_of_increasing hinc) hk' e0.symm]

/-- C42 fails for a column of one layer: a level below it gives NaN. -/
theorem C42_single_layer (h v eta : ℚ) :
    (eta < h → verticalInterp [h] [v] 1 [eta] = [none]) ∧
    (h < eta → verticalInterp [h] [v] 1 [eta] = [some v]) := by
  constructor
  · intro e
    have : ¬ h < eta := not_lt.mpr e.le
    simp [verticalInterp, vInterp, vWeights, vDist, List.range_succ, this]
  · intro e
    simp [verticalInterp, vInterp, vWeights, vDist, List.range_succ, e]

/-- C42: levels are treated independently of each other. -/
theorem C42_levels_independent (surfaces field : List ℚ) (c : ℚ) (levels levels' : List ℚ) :
    verticalInterp surfaces field c (levels ++ levels') =
      verticalInterp surfaces field c levels ++ verticalInterp surfaces field c levels' := by
  simp [verticalInterp]

/-- C42 as stated is false: with layers at 0 and 10, the value at 5 of a constant field 8 is 4. -/
theorem C42_counterexample :
    ¬ ∀ (surfaces field : List ℚ) (eta h₀ v₀ h₁ v₁ : ℚ) (k : ℕ), surfaces.length = field.length →
      Increasing (surfaces.map (1 * ·)) → IsLayer (surfaces.map (1 * ·)) field k h₀ v₀ →
      IsLayer (surfaces.map (1 * ·)) field (k + 1) h₁ v₁ → h₀ < eta → eta < h₁ →
      verticalInterp surfaces field 1 [eta] = [some (lineAt h₀ v₀ h₁ v₁ eta)] := by
  intro h
  have := h [0, 10] [8, 8] 5 0 8 10 8 0 rfl (by norm_num [Increasing]) ⟨by norm_num, by norm_num⟩
    ⟨by norm_num, by norm_num⟩ (by norm_num) (by norm_num)
  revert this
  decide +kernel

example : verticalInterp [1, 2, 4] [10, 20, 60] 100 [50, 150, 250, 200, 500] =
    [some 10, some 15, some 15, none, some 60] := by decide +kernel

example : verticalInterp [1, 2, 4] [10, 20, 60] 100 [150] = [some (lineAt 100 10 200 20 150)] :=
  C42_between_partial _ _ 100 150 0 100 10 200 20 400 60 rfl (by norm_num [Increasing])
    ⟨by norm_num, by norm_num⟩ ⟨by norm_num, by norm_num⟩ ⟨by norm_num, by norm_num⟩ (by norm_num)
    (by norm_num)

end Metcalcpy.Props
