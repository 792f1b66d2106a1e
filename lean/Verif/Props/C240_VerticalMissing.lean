/-
C240  Layers below the ground do not influence the interpolation.
C241  Where interpolated values are missing.
C242  From pressure levels to values at heights.
-/
import Verif.Model.VerticalMissing
import Verif.Props.C42_VerticalInterp
import Verif.Props.C137_HeightPressure
import Mathlib.Tactic.Ring
import Mathlib.Tactic.FieldSimp
import Mathlib.Tactic.Linarith
import Mathlib.Tactic.NormNum
import Mathlib.Tactic.IntervalCases

namespace Metcalcpy.Props
open Metcalcpy Spec

variable {K : Type} [Field K] [LinearOrder K]

/-- The weights after the first `m` iterations. -/
def gAfter (c eta : K) (z : ℕ → Option K) (m : ℕ) : ℕ → K :=
  ((List.range m).map (· + 1)).foldl (gStep c eta z) (gInit c eta z)

theorem gAfter_succ {c eta : K} {z : ℕ → Option K} (m : ℕ) : gAfter c eta z (m + 1) = gStep c eta z (gAfter c eta z m) (m + 1) := by
  simp [gAfter, List.range_succ, List.foldl_append]

theorem gWeights_eq {c eta : K} {z : ℕ → Option K} (n : ℕ) : gWeights n c eta z =
    fun j => if j = n - 1 then (if gBelow c eta z (n - 1) then 1 else 0) else gAfter c eta z (n - 1) j := rfl

theorem gStep_off {c eta : K} {z : ℕ → Option K} {w : ℕ → K} {k : ℕ} (h : (gAbove c eta z k && gBelow c eta z (k - 1)) = false) :
    gStep c eta z w k = w := by
  funext j
  simp [gStep, h]

theorem gAfter_off {c eta : K} {z : ℕ → Option K} (m : ℕ) (h : ∀ k < m, (gAbove c eta z (k + 1) && gBelow c eta z k) = false) :
    gAfter c eta z m = gInit c eta z := by
  induction m with
  | zero => rfl
  | succ m ih => rw [gAfter_succ, gStep_off (by simpa using h m (by omega)), ih (fun k hk => h k (by omega))]

theorem gAfter_on {c eta : K} {z : ℕ → Option K} (m k : ℕ) (hk : k < m)
    (h : ∀ j < m, j ≠ k → (gAbove c eta z (j + 1) && gBelow c eta z j) = false) :
    gAfter c eta z m = gStep c eta z (gInit c eta z) (k + 1) := by
  induction m with
  | zero => omega
  | succ m ih =>
    rw [gAfter_succ]
    rcases Nat.lt_succ_iff_lt_or_eq.mp hk with h1 | h1
    · rw [gStep_off (by simpa using h m (by omega) (by omega)), ih h1 (fun j hj => h j (by omega))]
    · subst h1
      rw [gAfter_off k (fun j hj => h j (by omega) (by omega))]

/-- Weights of a column whose first `m` heights are missing and whose next height is not above the target. -/
theorem gAfter_ground {c eta : K} {z : ℕ → Option K} (m : ℕ) (hm : 0 < m) (hz : ∀ k < m, z k = none) (h0 : gAbove c eta z m = false)
    (t : ℕ) : gAfter c eta z (m + t) = fun j => if j < m then 0 else gAfter c eta (fun k => z (m + k)) t (j - m) := by
  have hi : gInit c eta z = fun _ => 0 := by
    funext j
    simp [gInit, gAbove, gDist, hz 0 hm]
  induction t with
  | zero =>
    rw [Nat.add_zero, gAfter_off, hi]
    · funext j
      have : gInit c eta (fun k => z (m + k)) = fun _ => 0 := by
        funext j
        have : gAbove c eta (fun k => z (m + k)) 0 = false := h0
        simp [gInit, this]
      simp [gAfter, this]
    · intro k hk
      have : gBelow c eta z k = false := by simp [gBelow, gDist, hz k hk]
      rw [this, Bool.and_false]
  | succ t ih =>
    rw [← Nat.add_assoc, gAfter_succ, ih, gAfter_succ]
    funext j
    simp only [gStep, Nat.add_sub_cancel]
    have e1 : gAbove c eta z (m + t + 1) = gAbove c eta (fun k => z (m + k)) (t + 1) := rfl
    have e2 : gBelow c eta z (m + t) = gBelow c eta (fun k => z (m + k)) t := rfl
    have e3 : gDist c eta z (m + t) = gDist c eta (fun k => z (m + k)) t := rfl
    rw [e1, e2, e3]
    by_cases hj : j < m
    · rw [if_neg (by omega), if_neg (by omega), if_pos hj, if_pos hj]
    · rw [if_neg hj]
      have a : (j = m + t) = (j - m = t) := by simp only [eq_iff_iff]; omega
      have b : (j = m + (t + 1)) = (j - m = t + 1) := by simp only [eq_iff_iff]; omega
      simp only [Nat.add_assoc, a, b, if_neg hj]

theorem gFold_zero (w : ℕ → K) (f : ℕ → Option K) (l : List ℕ) (s : Option K × ℕ) (h : ∀ k ∈ l, w k = 0) :
    l.foldl (gAdd w f) s = s := by
  induction l generalizing s with
  | nil => rfl
  | cons k l ih =>
    rw [List.foldl_cons, show gAdd w f s k = s by simp [gAdd, h k (by simp)]]
    exact ih _ fun j hj => h j (by simp [hj])

theorem gInterp_none {c eta : K} {z f : ℕ → Option K} (n : ℕ) (h : ∀ k < n, gWeights n c eta z k = 0) : gInterp n c eta z f = none := by
  unfold gInterp
  rw [gFold_zero _ _ _ _ fun k hk => h k (List.mem_range.1 hk)]
  simp

theorem gInterp_ground {c eta : K} {z f : ℕ → Option K} (n m : ℕ) (hm : 0 < m) (hmn : m < n) (hz : ∀ k < m, z k = none)
    (h0 : gAbove c eta z m = false) :
    gInterp n c eta z f = gInterp (n - m) c eta (fun k => z (m + k)) (fun k => f (m + k)) := by
  have hw : gWeights n c eta z = fun j => if j < m then 0 else gWeights (n - m) c eta (fun k => z (m + k)) (j - m) := by
    rw [gWeights_eq, gWeights_eq]
    funext j
    dsimp only
    obtain ⟨t, ht⟩ : ∃ t, n - 1 = m + t := ⟨n - 1 - m, by omega⟩
    have ht' : n - m - 1 = t := by omega
    rw [ht, ht', gAfter_ground m hm hz h0]
    by_cases hj : j < m
    · rw [if_neg (by omega)]
      simp [hj]
    · rw [if_neg hj]
      by_cases e : j = m + t
      · subst e
        simp [gBelow, gDist]
      · rw [if_neg e, if_neg (by omega)]
        simp [hj]
  unfold gInterp
  have hr : List.range n = List.range m ++ (List.range (n - m)).map (m + ·) := by
    conv_lhs => rw [show n = m + (n - m) by omega]
    rw [List.range_add]
  rw [hr, List.foldl_append, gFold_zero _ _ (List.range m) _ (by intro k hk; rw [hw]; simp [List.mem_range.1 hk]), List.foldl_map]
  have : (fun s k => gAdd (gWeights n c eta z) f s (m + k)) = gAdd (gWeights (n - m) c eta fun k => z (m + k)) fun k => f (m + k) := by
    funext s k
    simp [gAdd, hw]
  rw [this]

/-- C240.  For a column whose lowest layers have no height (they lie below the ground), the value at a level that is not below the first
layer with a height is that of the column without the layers below the ground, and the value at a level that is not above any
height is missing.  The values of the field below the ground have no influence. -/
theorem C240_ground [IsStrictOrderedRing K] (m : ℕ) (hm : 0 < m) (zs gs fs : List (Option K)) (c eta : K) (hg : gs.length = m)
    (hf : fs.length = zs.length) :
    (∀ h, zs.head? = some (some h) → c * h ≤ eta →
      verticalInterpMissing (List.replicate m none ++ zs) (gs ++ fs) c [eta] = verticalInterpMissing zs fs c [eta]) ∧
    ((∀ h, some h ∈ zs → eta ≤ c * h) → verticalInterpMissing (List.replicate m none ++ zs) (gs ++ fs) c [eta] = [none]) := by
  have hz : ∀ k < m, (((List.replicate m (none : Option K) ++ zs)[k]?).join) = none := by
    intro k hk
    rw [List.getElem?_append_left (by simpa using hk), List.getElem?_replicate_of_lt hk]
    rfl
  have hs : ∀ k, (List.replicate m (none : Option K) ++ zs)[m + k]? = zs[k]? := by
    intro k
    rw [List.getElem?_append_right (by simp)]
    simp
  have hs' : ∀ k, (gs ++ fs)[m + k]? = fs[k]? := by
    intro k
    rw [List.getElem?_append_right (by omega)]
    simp [hg]
  unfold verticalInterpMissing
  simp only [List.map_cons, List.map_nil, List.cons.injEq, and_true]
  constructor
  · intro h hh hle
    cases zs with
    | nil => simp at hh
    | cons z0 zs =>
      rw [List.head?_cons, Option.some.injEq] at hh
      subst hh
      rw [gInterp_ground _ m hm (by simp only [List.length_append, hf, List.length_cons]; omega) hz]
      · simp only [hs, hs', List.length_append, hg, Nat.add_sub_cancel_left]
      · have := hs 0
        rw [Nat.add_zero] at this
        simp [gAbove, gDist, this, hle]
  · intro hall
    have hb : ∀ k, gBelow c eta (fun k => (((List.replicate m (none : Option K) ++ zs)[k]?).join)) k = false := by
      intro k
      unfold gBelow gDist
      dsimp only
      cases hk : (((List.replicate m (none : Option K) ++ zs)[k]?).join) with
      | none => rfl
      | some h =>
        have : some h ∈ zs := by
          rw [Option.join_eq_some_iff] at hk
          have := List.mem_of_getElem? hk
          simpa using this
        simpa using hall h this
    apply gInterp_none
    intro k _
    rw [gWeights_eq]
    dsimp only
    rw [hb, gAfter_off _ fun k _ => by rw [hb, Bool.and_false]]
    simp [gInit, gAbove, gDist, hz 0 hm]

/-- Two layers below the ground, with nonsense in the field. -/
example : verticalInterpMissing [none, none, some 1, some 2, some 4] [some 900, none, some 10, some 20, some (60 : ℚ)] 100 [50, 150, 500] =
    [none, some 15, some 60] := by decide +kernel

example : verticalInterpMissing (List.replicate 2 none ++ [some 1, some 2, some 4]) ([some 900, none] ++ [some 10, some 20, some (60 : ℚ)]) 100 [150] =
    verticalInterpMissing [some 1, some 2, some 4] [some 10, some 20, some 60] 100 [150] :=
  (C240_ground (K := ℚ) 2 (by decide) [some 1, some 2, some 4] [some 900, none] [some 10, some 20, some 60] 100 150 rfl rfl).1 1 rfl
    (by norm_num)

theorem gAfter_no_height {c eta : K} {z : ℕ → Option K} {j : ℕ} (hz : z j = none) (m : ℕ) : gAfter c eta z m j = 0 := by
  have ha : gAbove c eta z j = false := by simp [gAbove, gDist, hz]
  have hb : gBelow c eta z j = false := by simp [gBelow, gDist, hz]
  induction m with
  | zero =>
    by_cases h0 : j = 0
    · subst h0
      simp [gAfter, gInit, ha]
    · simp [gAfter, gInit, h0]
  | succ m ih =>
    rw [gAfter_succ]
    simp only [gStep, Nat.add_sub_cancel, ih]
    by_cases h1 : j = m
    · subst h1
      simp [hb]
    · rw [if_neg h1]
      by_cases h2 : j = m + 1
      · subst h2
        simp [ha]
      · rw [if_neg h2]

theorem gWeights_no_height {c eta : K} {z : ℕ → Option K} {j : ℕ} (hz : z j = none) (n : ℕ) : gWeights n c eta z j = 0 := by
  rw [gWeights_eq]
  dsimp only
  by_cases h : j = n - 1
  · rw [if_pos h, ← h]
    simp [gBelow, gDist, hz]
  · rw [if_neg h, gAfter_no_height hz]

theorem gInterp_congr {c eta : K} {z f g : ℕ → Option K} (n : ℕ) (h : ∀ k < n, gWeights n c eta z k > 0 → f k = g k) :
    gInterp n c eta z f = gInterp n c eta z g := by
  have : ∀ (l : List ℕ) (s : Option K × ℕ), (∀ k ∈ l, k < n) → l.foldl (gAdd (gWeights n c eta z) f) s = l.foldl (gAdd (gWeights n c eta z) g) s := by
    intro l
    induction l with
    | nil => intro _ _; rfl
    | cons k l ih =>
      intro s hl
      rw [List.foldl_cons, List.foldl_cons, ih _ fun j hj => hl j (by simp [hj])]
      congr 1
      unfold gAdd
      by_cases hk : gWeights n c eta z k > 0
      · rw [h k (hl k (by simp)) hk]
      · rw [if_neg hk, if_neg hk]
  unfold gInterp
  rw [this _ _ fun k hk => List.mem_range.1 hk]

/-- C240, second part: the values of the field on layers without height, wherever these are, have no influence on the result. -/
theorem C240_no_height (surfaces field field' : List (Option K)) (c : K) (levels : List K) (hl : field.length = field'.length)
    (h : ∀ (k : ℕ) x, surfaces[k]? = some (some x) → field[k]? = field'[k]?) :
    verticalInterpMissing surfaces field c levels = verticalInterpMissing surfaces field' c levels := by
  unfold verticalInterpMissing
  apply List.map_congr_left
  intro eta _
  rw [hl]
  apply gInterp_congr
  intro k _ hw
  cases hz : (surfaces[k]?).join with
  | none =>
    rw [gWeights_no_height (by exact hz)] at hw
    exact absurd hw (lt_irrefl _)
  | some x => rw [h k x (Option.join_eq_some_iff.1 hz)]

/-! ### C241 -/

/-- The heights that are present increase, in the unit of the levels. -/
def HeightsIncrease (c : K) (surfaces : List (Option K)) : Prop :=
  ∀ (i j : ℕ) a b, i < j → surfaces[i]? = some (some a) → surfaces[j]? = some (some b) → c * a < c * b

/-- The value at `x` on the line through two points; missing if one of their values is. -/
def lineCell (x₀ : K) (y₀ : Option K) (x₁ : K) (y₁ : Option K) (x : K) : Option K :=
  y₀.bind fun a => y₁.map fun b => a + (b - a) * ((x - x₀) / (x₁ - x₀))

theorem gAbove_iff [IsStrictOrderedRing K] {c eta : K} {surfaces : List (Option K)} {k : ℕ} :
    gAbove c eta (fun k => (surfaces[k]?).join) k = true ↔ ∃ h, surfaces[k]? = some (some h) ∧ eta < c * h := by
  unfold gAbove gDist
  dsimp only
  cases hz : (surfaces[k]?).join with
  | none =>
    simp only [Option.map_none, Option.any_none, Bool.false_eq_true, false_iff]
    rintro ⟨h, hh, -⟩
    rw [hh] at hz
    simp at hz
  | some x =>
    rw [Option.join_eq_some_iff] at hz
    simp [hz]

theorem gBelow_iff [IsStrictOrderedRing K] {c eta : K} {surfaces : List (Option K)} {k : ℕ} :
    gBelow c eta (fun k => (surfaces[k]?).join) k = true ↔ ∃ h, surfaces[k]? = some (some h) ∧ c * h < eta := by
  unfold gBelow gDist
  dsimp only
  cases hz : (surfaces[k]?).join with
  | none =>
    simp only [Option.map_none, Option.any_none, Bool.false_eq_true, false_iff]
    rintro ⟨h, hh, -⟩
    rw [hh] at hz
    simp at hz
  | some x =>
    rw [Option.join_eq_some_iff] at hz
    simp [hz]

theorem gFold_skip (w : ℕ → K) (f : ℕ → Option K) (a b : ℕ) (s : Option K × ℕ) (h : ∀ k, a ≤ k → k < a + b → w k = 0) :
    (List.range' a b).foldl (gAdd w f) s = s :=
  gFold_zero w f _ s fun k hk => by
    rw [List.mem_range'_1] at hk
    exact h k hk.1 hk.2

theorem gInterp_two [IsStrictOrderedRing K] {c eta : K} {z f : ℕ → Option K} (n k : ℕ) (hk : k + 1 < n) (u : K) (hu : 0 < u) (hu1 : u < 1)
    (hw : ∀ j < n, gWeights n c eta z j = if j = k then 1 - u else if j = k + 1 then u else 0) :
    gInterp n c eta z f = (f k).bind fun a => (f (k + 1)).map fun b => (1 - u) * a + u * b := by
  unfold gInterp
  have hr : List.range n = List.range k ++ k :: (k + 1) :: List.range' (k + 2) (n - k - 2) := by
    conv_lhs => rw [show n = k + ((n - k - 2) + 1 + 1) by omega, List.range_add, List.range_succ_eq_map, List.range_succ_eq_map]
    simp [List.range'_eq_map_range, Function.comp_def, Nat.succ_eq_add_one]
    intro a _
    omega
  rw [hr, List.foldl_append, gFold_zero _ _ (List.range k) _ (by
    intro j hj
    rw [List.mem_range] at hj
    rw [hw j (by omega), if_neg (by omega), if_neg (by omega)]), List.foldl_cons, List.foldl_cons, gFold_skip _ _ _ _ _ (by
    intro j h1 h2
    rw [hw j (by omega), if_neg (by omega), if_neg (by omega)])]
  have w0 : gWeights n c eta z k = 1 - u := by rw [hw k (by omega), if_pos rfl]
  have w1 : gWeights n c eta z (k + 1) = u := by rw [hw (k + 1) hk, if_neg (by omega), if_pos rfl]
  simp only [gAdd, w0, w1, gt_iff_lt, sub_pos, hu1, if_true, hu]
  rw [if_pos (by omega)]
  cases f k <;> cases f (k + 1) <;> simp

theorem gInterp_one [IsStrictOrderedRing K] {c eta : K} {z f : ℕ → Option K} (n k : ℕ) (hk : k < n)
    (hw : ∀ j < n, gWeights n c eta z j = if j = k then 1 else 0) : gInterp n c eta z f = f k := by
  unfold gInterp
  have hr : List.range n = List.range k ++ k :: List.range' (k + 1) (n - k - 1) := by
    conv_lhs => rw [show n = k + ((n - k - 1) + 1) by omega, List.range_add, List.range_succ_eq_map]
    simp [List.range'_eq_map_range, Function.comp_def, Nat.succ_eq_add_one]
    intro a _
    omega
  rw [hr, List.foldl_append, gFold_zero _ _ (List.range k) _ (by
    intro j hj
    rw [List.mem_range] at hj
    rw [hw j (by omega), if_neg (by omega)]), List.foldl_cons, gFold_skip _ _ _ _ _ (by
    intro j h1 h2
    rw [hw j (by omega), if_neg (by omega)])]
  have w0 : gWeights n c eta z k = 1 := by rw [hw k (by omega), if_pos rfl]
  simp only [gAdd, w0, gt_iff_lt, zero_lt_one, if_true]
  rw [if_pos (by omega)]
  cases f k <;> simp

theorem height_order [IsStrictOrderedRing K] {c : K} {surfaces : List (Option K)} (H : HeightsIncrease c surfaces) {i j : ℕ} {a b : K}
    (hij : i ≤ j) (hi : surfaces[i]? = some (some a)) (hj : surfaces[j]? = some (some b)) : c * a ≤ c * b := by
  rcases Nat.lt_or_eq_of_le hij with h | h
  · exact (H i j a b h hi hj).le
  · subst h
    rw [hi] at hj
    simp only [Option.some.injEq] at hj
    rw [hj]

/-- C241 (what holds), between layers: strictly between the heights of two neighbouring layers, the upper of which is not the top one,
the result is the linear interpolation of their values, and missing if one of these is; other heights may be missing. -/
theorem C241_between_partial [IsStrictOrderedRing K] (surfaces field : List (Option K)) (c eta : K) (k : ℕ) (h₀ h₁ : K) (v₀ v₁ : Option K)
    (H : HeightsIncrease c surfaces) (hk : k + 2 < field.length)
    (s0 : surfaces[k]? = some (some h₀)) (s1 : surfaces[k + 1]? = some (some h₁)) (f0 : field[k]? = some v₀) (f1 : field[k + 1]? = some v₁)
    (hlo : c * h₀ < eta) (hhi : eta < c * h₁) :
    verticalInterpMissing surfaces field c [eta] = [lineCell (c * h₀) v₀ (c * h₁) v₁ eta] := by
  unfold verticalInterpMissing
  simp only [List.map_cons, List.map_nil, List.cons.injEq, and_true]
  set z : ℕ → Option K := fun k => (surfaces[k]?).join with hz
  have hon : (gAbove c eta z (k + 1) && gBelow c eta z k) = true := by
    rw [Bool.and_eq_true]
    exact ⟨gAbove_iff.2 ⟨h₁, s1, hhi⟩, gBelow_iff.2 ⟨h₀, s0, hlo⟩⟩
  have hoff : ∀ j < field.length - 1, j ≠ k → (gAbove c eta z (j + 1) && gBelow c eta z j) = false := by
    intro j _ hjk
    rw [← Bool.not_eq_true, Bool.and_eq_true]
    rintro ⟨a, b⟩
    obtain ⟨x, hx, hx'⟩ := gAbove_iff.1 a
    obtain ⟨y, hy, hy'⟩ := gBelow_iff.1 b
    rcases Nat.lt_or_gt_of_ne hjk with h | h
    · have := height_order H (show j + 1 ≤ k by omega) hx s0
      linarith
    · have := height_order H (show k + 1 ≤ j by omega) s1 hy
      linarith
  have hden : 0 < c * h₁ - c * h₀ := by linarith
  set u := (eta - c * h₀) / (c * h₁ - c * h₀) with hu
  have hu0 : 0 < u := div_pos (by linarith) hden
  have hu1 : u < 1 := by rw [hu, div_lt_one hden]; linarith
  have hinit : ∀ j, gInit c eta z j = 0 := by
    intro j
    have : gAbove c eta z 0 = false := by
      rw [← Bool.not_eq_true]
      intro a
      obtain ⟨x, hx, hx'⟩ := gAbove_iff.1 a
      have := height_order H (Nat.zero_le k) hx s0
      linarith
    simp [gInit, this]
  have htop : gBelow c eta z (field.length - 1) = false := by
    rw [← Bool.not_eq_true]
    intro a
    obtain ⟨x, hx, hx'⟩ := gBelow_iff.1 a
    have := height_order H (show k + 1 ≤ field.length - 1 by omega) s1 hx
    linarith
  rw [gInterp_two field.length k (by omega) u hu0 hu1]
  · simp only [f0, f1, Option.join_some, lineCell, ← hu]
    cases v₀ <;> cases v₁ <;> simp
    ring
  · intro j hj
    rw [gWeights_eq, gAfter_on (field.length - 1) k (by omega) hoff]
    dsimp only
    rw [htop]
    have e : gStep c eta z (gInit c eta z) (k + 1) j = if j = k then 1 - u else if j = k + 1 then u else 0 := by
      simp only [gStep, Nat.add_sub_cancel, hon, hinit, if_true]
      have : (gDist c eta z k).getD 0 / (((z (k + 1)).getD 0 - (z k).getD 0) * c) = u := by
        simp only [gDist, hz, s0, s1, Option.join_some, Option.map_some, Option.getD_some, hu]
        congr 1
        ring
      rw [this]
    rw [e]
    by_cases e1 : j = field.length - 1
    · rw [if_pos e1, if_neg (show ¬ j = k by omega), if_neg (show ¬ j = k + 1 by omega)]
      simp
    · rw [if_neg e1]

/-- C241, outside: below the lowest layer of two or more, and above the top one, the result is the value of this layer. -/
theorem C241_outside [IsStrictOrderedRing K] (surfaces field : List (Option K)) (c eta h : K) (v : Option K)
    (H : HeightsIncrease c surfaces) :
    (2 ≤ field.length → surfaces[0]? = some (some h) → field[0]? = some v → eta < c * h → verticalInterpMissing surfaces field c [eta] = [v]) ∧
    (surfaces[field.length - 1]? = some (some h) → field[field.length - 1]? = some v → c * h < eta →
      (∀ (k : ℕ) x, field.length ≤ k → surfaces[k]? ≠ some (some x)) → verticalInterpMissing surfaces field c [eta] = [v]) := by
  unfold verticalInterpMissing
  simp only [List.map_cons, List.map_nil, List.cons.injEq, and_true]
  set z : ℕ → Option K := fun k => (surfaces[k]?).join with hz
  constructor
  · intro hn s0 f0 hlt
    have hb : ∀ j, gBelow c eta z j = false := by
      intro j
      rw [← Bool.not_eq_true]
      intro a
      obtain ⟨x, hx, hx'⟩ := gBelow_iff.1 a
      have := height_order H (Nat.zero_le j) s0 hx
      linarith
    rw [gInterp_one field.length 0 (by omega)]
    · simp [f0]
    · intro j hj
      rw [gWeights_eq, gAfter_off _ fun k _ => by rw [hb, Bool.and_false]]
      dsimp only
      rw [hb]
      have ha : gAbove c eta z 0 = true := gAbove_iff.2 ⟨h, s0, hlt⟩
      by_cases e : j = field.length - 1
      · rw [if_pos e, if_neg (by omega : ¬ j = 0)]
        simp
      · rw [if_neg e]
        simp [gInit, ha]
  · intro s0 f0 hlt hno
    have hn : 0 < field.length := by
      by_contra hc
      have : field.length = 0 := by omega
      rw [List.length_eq_zero_iff] at this
      rw [this] at f0
      simp at f0
    have ha : ∀ j, gAbove c eta z j = false := by
      intro j
      rw [← Bool.not_eq_true]
      intro a
      obtain ⟨x, hx, hx'⟩ := gAbove_iff.1 a
      have hj : j < field.length := by
        by_contra hc
        exact hno j x (by omega) hx
      have := height_order H (show j ≤ field.length - 1 by omega) hx s0
      linarith
    rw [gInterp_one field.length (field.length - 1) (by omega)]
    · simp [f0]
    · intro j hj
      rw [gWeights_eq, gAfter_off _ fun k _ => by rw [ha, Bool.false_and]]
      dsimp only
      have hb : gBelow c eta z (field.length - 1) = true := gBelow_iff.2 ⟨h, s0, hlt⟩
      by_cases e : j = field.length - 1
      · rw [if_pos e, if_pos e, hb]
        simp
      · rw [if_neg e, if_neg e]
        simp [gInit, ha]

/-- C241, gaps: a level that does not lie strictly between the heights of two neighbouring layers, nor below the lowest layer, nor above
the top one, has no value. -/
theorem C241_missing [IsStrictOrderedRing K] (surfaces field : List (Option K)) (c eta : K)
    (hb : ∀ h, surfaces[0]? = some (some h) → c * h ≤ eta)
    (ht : ∀ h, surfaces[field.length - 1]? = some (some h) → eta ≤ c * h)
    (hn : ∀ (k : ℕ) a b, surfaces[k]? = some (some a) → surfaces[k + 1]? = some (some b) → ¬ (c * a < eta ∧ eta < c * b)) :
    verticalInterpMissing surfaces field c [eta] = [none] := by
  unfold verticalInterpMissing
  simp only [List.map_cons, List.map_nil, List.cons.injEq, and_true]
  apply gInterp_none
  intro j _
  rw [gWeights_eq, gAfter_off]
  · dsimp only
    have h1 : gBelow c eta (fun k => (surfaces[k]?).join) (field.length - 1) = false := by
      rw [← Bool.not_eq_true]
      intro a
      obtain ⟨x, hx, hx'⟩ := gBelow_iff.1 a
      exact absurd (ht x hx) (not_le.2 hx')
    have h2 : gAbove c eta (fun k => (surfaces[k]?).join) 0 = false := by
      rw [← Bool.not_eq_true]
      intro a
      obtain ⟨x, hx, hx'⟩ := gAbove_iff.1 a
      exact absurd (hb x hx) (not_le.2 hx')
    rw [h1]
    simp [gInit, h2]
  · intro k _
    rw [← Bool.not_eq_true, Bool.and_eq_true]
    rintro ⟨a, b⟩
    obtain ⟨x, hx, hx'⟩ := gAbove_iff.1 a
    obtain ⟨y, hy, hy'⟩ := gBelow_iff.1 b
    exact hn k y x hy hx ⟨hy', hx'⟩

/-- A column with a gap and a missing value: between the layers, in the gap, above the missing value, above the top. -/
example : verticalInterpMissing [some 1, some 2, none, some 4, some 5, some 6] [some 10, some 20, some 25, some 60, none, some (7 : ℚ)] 1
    [1 / 2, 3 / 2, 3, 9 / 2, 11 / 2, 7] = [some 10, some 15, none, none, none, some 7] := by decide +kernel

example : HeightsIncrease (1 : ℚ) [some 1, some 2, none, some 4] := by
  intro i j a b hij hi hj
  obtain ⟨h1, -⟩ := List.getElem?_eq_some_iff.1 hi
  obtain ⟨h2, -⟩ := List.getElem?_eq_some_iff.1 hj
  simp only [List.length_cons, List.length_nil, zero_add, Nat.reduceAdd] at h1 h2
  interval_cases i <;> interval_cases j <;> simp_all <;> subst hi <;> subst hj <;> norm_num

/-- C241, failure: in the top interval a missing value of the top layer is not noticed, and a level on a layer has no value. -/
theorem C241_top_counterexample :
    verticalInterpMissing [some 0, some 5, some 10] [some 8, some 8, (none : Option ℚ)] 1 [15 / 2, 5] = [some 4, none] := by
  decide +kernel

/-! ### C242 -/

theorem clipMissing_nonneg (v : Option ℝ) : 0 ≤ clipMissing v := by
  cases v with
  | none => exact le_rfl
  | some v => exact le_max_right v 0

theorem layerHeight_ge (K hs : ℝ) (ps : Option ℝ) (p : ℕ → ℝ) (tv : ℕ → Option ℝ) : ∀ (k : ℕ) (v : ℝ),
    layerHeight K (some hs) ps p tv k = some v → hs ≤ v := by
  have ht : ∀ k, 0 ≤ layerThickness K ps p tv k := by
    intro k
    cases k <;> exact clipMissing_nonneg _
  intro k
  induction k with
  | zero =>
    intro v h
    rw [layerHeight] at h
    split at h
    · have := ht 0
      simp only [Option.map_some, Option.some.injEq] at h
      linarith
    · cases h
  | succ k ih =>
    intro v h
    have h1 := ht (k + 1)
    rw [layerHeight] at h
    split at h
    · simp only [Option.map_some, Option.some.injEq] at h
      linarith
    · obtain ⟨a, ha, hv⟩ := Option.map_eq_some_iff.1 h
      have := ih a ha
      linarith

theorem layerHeight_next (K hs : ℝ) (ps : Option ℝ) (p : ℕ → ℝ) (tv : ℕ → Option ℝ) (k : ℕ) (v : ℝ)
    (h : layerHeight K (some hs) ps p tv k = some v) : ∃ w, layerHeight K (some hs) ps p tv (k + 1) = some w := by
  rw [layerHeight]
  split
  · exact ⟨_, rfl⟩
  · exact ⟨_, by rw [h]; rfl⟩

/-- The heights of the levels above the ground increase. -/
theorem heights_increase (gas gravity c geo sp : ℝ) (n : ℕ) (p tv : ℕ → ℝ) (h : IsColumn n p tv) (hw : ∀ k < n, 0 < tv k)
    (hg : 0 < gas) (hgr : 0 < gravity) : HeightsIncrease 1
      (heightFromPressure gas gravity c (some geo) (some sp) ((List.range n).map p) ((List.range n).map fun k => some (tv k))) := by
  have hlen : (heightFromPressure gas gravity c (some geo) (some sp) ((List.range n).map p) ((List.range n).map fun k => some (tv k))).length = n := by
    simp [heightFromPressure]
  intro i j a b hij hi hj
  rw [one_mul, one_mul]
  obtain ⟨hjn, -⟩ := List.getElem?_eq_some_iff.1 hj
  rw [hlen] at hjn
  induction j, hij using Nat.le_induction generalizing b with
  | base => exact (C138_increasing gas gravity c geo sp n p tv h hg hgr i hjn a b hi hj).2.2 (hw _ hjn)
  | succ j hij ih =>
    have hij' : i < j := hij
    obtain ⟨w, hw'⟩ : ∃ w, (heightFromPressure gas gravity c (some geo) (some sp) ((List.range n).map p)
        ((List.range n).map fun k => some (tv k)))[j]? = some (some w) := by
      rw [height_level _ _ _ _ _ _ _ _ i (by omega)] at hi
      have key : ∀ t, ∃ w, layerHeight (gas / gravity) (some (geo / gravity)) (some (c * sp)) p (fun k => some (tv k)) (i + t) = some w := by
        intro t
        induction t with
        | zero => exact ⟨a, Option.some.inj hi⟩
        | succ t ih =>
          obtain ⟨v, hv⟩ := ih
          exact layerHeight_next _ _ _ _ _ _ v hv
      obtain ⟨w, e⟩ := key (j - i)
      rw [show i + (j - i) = j by omega] at e
      exact ⟨w, by rw [height_level _ _ _ _ _ _ _ _ j (by omega), e]⟩
    exact (ih w hw' (by omega)).trans ((C138_increasing gas gravity c geo sp n p tv h hg hgr j hjn w b hw' hj).2.2 (hw _ hjn))

/-- C242, the interpolation: strictly between the heights of two neighbouring levels above the ground, the upper of which is not the top
one, a field given on pressure levels is interpolated linearly in height. -/
theorem C242_between_partial (gas gravity c geo sp : ℝ) (n : ℕ) (p tv : ℕ → ℝ) (h : IsColumn n p tv) (hw : ∀ k < n, 0 < tv k)
    (hg : 0 < gas) (hgr : 0 < gravity) (field : List (Option ℝ)) (hf : field.length = n) (k : ℕ) (hk : k + 2 < n) (a b eta : ℝ)
    (v₀ v₁ : Option ℝ) (f0 : field[k]? = some v₀) (f1 : field[k + 1]? = some v₁)
    (ha : (heightFromPressure gas gravity c (some geo) (some sp) ((List.range n).map p)
      ((List.range n).map fun k => some (tv k)))[k]? = some (some a))
    (hb : (heightFromPressure gas gravity c (some geo) (some sp) ((List.range n).map p)
      ((List.range n).map fun k => some (tv k)))[k + 1]? = some (some b)) (hlo : a < eta) (hhi : eta < b) :
    pressureToHeight gas gravity c (some geo) (some sp) ((List.range n).map p) ((List.range n).map fun k => some (tv k)) field [eta] =
      [lineCell a v₀ b v₁ eta] := by
  unfold pressureToHeight
  have := C241_between_partial _ field 1 eta k a b v₀ v₁ (heights_increase gas gravity c geo sp n p tv h hw hg hgr) (by omega) ha hb f0 f1
    (by linarith) (by linarith)
  simpa using this

/-- C242, the ground: when some level lies below the ground, heights that are not above the ground have no value. -/
theorem C242_underground_partial (gas gravity c geo sp : ℝ) (n : ℕ) (p tv : ℕ → ℝ) (h : IsColumn n p tv) (hn : 0 < n) (hs : c * sp ≤ p 0)
    (field : List (Option ℝ)) (eta : ℝ) (he : eta ≤ geo / gravity) :
    pressureToHeight gas gravity c (some geo) (some sp) ((List.range n).map p) ((List.range n).map fun k => some (tv k)) field [eta] =
      [none] := by
  have hlen : (heightFromPressure gas gravity c (some geo) (some sp) ((List.range n).map p) ((List.range n).map fun k => some (tv k))).length = n := by
    simp [heightFromPressure]
  have hge : ∀ (k : ℕ) v, (heightFromPressure gas gravity c (some geo) (some sp) ((List.range n).map p)
      ((List.range n).map fun k => some (tv k)))[k]? = some (some v) → eta ≤ v := by
    intro k v hv
    obtain ⟨hk, -⟩ := List.getElem?_eq_some_iff.1 hv
    rw [hlen] at hk
    rw [height_level _ _ _ _ _ _ _ _ k hk] at hv
    exact he.trans (layerHeight_ge _ _ _ _ _ k v (Option.some.inj hv))
  unfold pressureToHeight
  apply C241_missing
  · intro x hx
    rw [C138_below_missing gas gravity c geo sp n p tv h 0 hn hs] at hx
    simp at hx
  · intro x hx
    rw [one_mul]
    exact hge _ x hx
  · rintro k a b hka - ⟨h1, -⟩
    rw [one_mul] at h1
    exact absurd (hge k a hka) (not_le.2 h1)

/-- C242, the field below the ground: its values on levels at or below the ground have no influence on the result. -/
theorem C242_field (gas gravity c geo sp : ℝ) (n : ℕ) (p tv : ℕ → ℝ) (h : IsColumn n p tv) (field field' : List (Option ℝ))
    (levels : List ℝ) (hf : field.length = n) (hf' : field'.length = n) (hsame : ∀ k < n, p k < c * sp → field[k]? = field'[k]?) :
    pressureToHeight gas gravity c (some geo) (some sp) ((List.range n).map p) ((List.range n).map fun k => some (tv k)) field levels =
      pressureToHeight gas gravity c (some geo) (some sp) ((List.range n).map p) ((List.range n).map fun k => some (tv k)) field' levels := by
  unfold pressureToHeight
  apply C240_no_height
  · omega
  · intro k x hx
    have hk : k < n := by
      obtain ⟨hk, -⟩ := List.getElem?_eq_some_iff.1 hx
      simpa [heightFromPressure] using hk
    apply hsame k hk
    by_contra hc
    rw [C138_below_missing gas gravity c geo sp n p tv h k hk (not_lt.1 hc)] at hx
    simp at hx

/-- C242, failure: over a surface below all levels, a height of 100 meters under the ground has the value of the lowest level. -/
theorem C242_underground_counterexample :
    pressureToHeight 287 9.8 1 (some 0) (some 1020) ((List.range 9).map fun (k : ℕ) => 1000 - 100 * (k : ℝ)) ((List.range 9).map fun _ => some 280)
      ((List.range 9).map fun (k : ℕ) => some (10 * (k : ℝ) + 8)) [-100] = [some 8] := by
  unfold pressureToHeight
  have e := height_level 287 9.8 1 0 1020 9 (fun (k : ℕ) => 1000 - 100 * (k : ℝ)) (fun _ => 280) 0 (by norm_num)
  have h0 : ∃ v, layerHeight (287 / 9.8) (some (0 / 9.8)) (some (1 * 1020)) (fun (k : ℕ) => 1000 - 100 * (k : ℝ)) (fun _ => some 280) 0 = some v := by
    rw [layerHeight, if_pos (by simp [ltCell]; norm_num)]
    exact ⟨_, rfl⟩
  obtain ⟨v, hv⟩ := h0
  have hge := layerHeight_ge _ _ _ _ _ 0 v hv
  rw [hv] at e
  refine (C241_outside _ _ 1 (-100) v (some 8) (heights_increase 287 9.8 1 0 1020 9 (fun (k : ℕ) => 1000 - 100 * (k : ℝ)) (fun _ => 280) exColumn
    (by intro _ _; norm_num) (by norm_num) (by norm_num))).1 (by simp) e (by rw [List.getElem?_map, List.getElem?_range (by norm_num)]; norm_num)
    (by norm_num at hge ⊢; linarith)

/-- Surface pressure 950, lowest level 1000: no value under the ground. -/
example : pressureToHeight 287 9.8 1 (some 0) (some 950) ((List.range 9).map fun (k : ℕ) => 1000 - 100 * (k : ℝ)) ((List.range 9).map fun _ => some 280)
    ((List.range 9).map fun (k : ℕ) => some (10 * (k : ℝ) + 8)) [-100] = [none] :=
  C242_underground_partial 287 9.8 1 0 950 9 (fun (k : ℕ) => 1000 - 100 * (k : ℝ)) (fun _ => 280) exColumn (by norm_num) (by norm_num) _ _ (by norm_num)

/-- The same column: the value of the field at 1000 has no influence. -/
example (x : Option ℝ) (rest : List (Option ℝ)) (hr : rest.length = 8) (levels : List ℝ) :
    pressureToHeight 287 9.8 1 (some 0) (some 950) ((List.range 9).map fun (k : ℕ) => 1000 - 100 * (k : ℝ)) ((List.range 9).map fun _ => some 280)
      (x :: rest) levels =
    pressureToHeight 287 9.8 1 (some 0) (some 950) ((List.range 9).map fun (k : ℕ) => 1000 - 100 * (k : ℝ)) ((List.range 9).map fun _ => some 280)
      (none :: rest) levels := by
  refine C242_field 287 9.8 1 0 950 9 (fun (k : ℕ) => 1000 - 100 * (k : ℝ)) (fun _ => 280) exColumn _ _ levels (by simp [hr]) (by simp [hr]) ?_
  intro k hk hp
  cases k with
  | zero => norm_num at hp
  | succ k => rfl

end Metcalcpy.Props
