/-
C137  Heights of pressure levels follow the hypsometric equation from the surface.
C138  Levels below the surface have no height, and heights increase upwards.
C139  A requested level means the same height whatever its unit.
-/
import Verif.Model.HeightPressure
import Verif.Spec.HeightPressure
import Mathlib.Tactic.Linarith
import Mathlib.Tactic.Positivity
import Mathlib.Tactic.FieldSimp
import Mathlib.Tactic.Ring
import Mathlib.Tactic.NormNum

namespace Metcalcpy.Props
open Metcalcpy Spec

/-- A column of `n` levels with decreasing positive pressures and temperatures that are not negative. -/
structure IsColumn (n : ℕ) (p tv : ℕ → ℝ) : Prop where
  pos : ∀ k < n, 0 < p k
  dec : ∀ k, k + 1 < n → p (k + 1) < p k
  warm : ∀ k < n, 0 ≤ tv k

theorem IsColumn.anti {n : ℕ} {p tv : ℕ → ℝ} (h : IsColumn n p tv) : ∀ i j, i < j → j < n → p j < p i := by
  intro i j hij
  induction j with
  | zero => omega
  | succ j ih =>
    intro hn
    rcases Nat.lt_or_ge i j with h1 | h1
    · exact (h.dec j hn).trans (ih h1 (by omega))
    · have : i = j := by omega
      subst this
      exact h.dec i hn

/-- The levels as the code sees them. -/
theorem heightFromPressure_get (gas gravity c : ℝ) (geo sp : Option ℝ) (n : ℕ) (p tv : ℕ → ℝ) (k : ℕ) (hk : k < n) :
    (heightFromPressure gas gravity c geo sp ((List.range n).map p) ((List.range n).map fun k => some (tv k)))[k]? =
      some (layerHeight (gas / gravity) (geo.map (· / gravity)) (sp.map (c * ·)) (fun k => ((List.range n).map p).getD k 0)
        (fun k => (((List.range n).map fun k => some (tv k))[k]?).join) k) := by
  unfold heightFromPressure
  rw [List.getElem?_map, List.getElem?_range (by simpa using hk)]
  rfl

theorem getD_range (n : ℕ) (p : ℕ → ℝ) (k : ℕ) (hk : k < n) : ((List.range n).map p).getD k 0 = p k := by
  simp [List.getD_eq_getElem?_getD, List.getElem?_range hk]

theorem tv_range (n : ℕ) (tv : ℕ → ℝ) (k : ℕ) (hk : k < n) :
    ((((List.range n).map fun k => some (tv k))[k]?).join : Option ℝ) = some (tv k) := by
  simp [List.getElem?_range hk]

theorem layer_congr (K : ℝ) (hs ps : Option ℝ) (p q : ℕ → ℝ) (tv tw : ℕ → Option ℝ) : ∀ k : ℕ,
    (∀ j ≤ k, p j = q j ∧ tv j = tw j) → layerHeight K hs ps p tv k = layerHeight K hs ps q tw k := by
  intro k
  induction k with
  | zero =>
    intro h
    obtain ⟨h1, h2⟩ := h 0 le_rfl
    simp only [layerHeight, layerThickness, h1, h2]
  | succ k ih =>
    intro h
    obtain ⟨h1, h2⟩ := h (k + 1) le_rfl
    obtain ⟨h3, -⟩ := h k (by omega)
    simp only [layerHeight, layerThickness, h1, h2, h3, ih (fun j hj => h j (by omega))]

theorem height_level (gas gravity c : ℝ) (geo sp : ℝ) (n : ℕ) (p tv : ℕ → ℝ) (k : ℕ) (hk : k < n) :
    (heightFromPressure gas gravity c (some geo) (some sp) ((List.range n).map p) ((List.range n).map fun k => some (tv k)))[k]? =
      some (layerHeight (gas / gravity) (some (geo / gravity)) (some (c * sp)) p (fun k => some (tv k)) k) := by
  rw [heightFromPressure_get _ _ _ _ _ _ _ _ k hk]
  congr 1
  exact layer_congr _ _ _ _ _ _ _ k (fun j hj => ⟨getD_range n p j (by omega), tv_range n tv j (by omega)⟩)

theorem thickness_succ {n : ℕ} {p tv : ℕ → ℝ} (h : IsColumn n p tv) (K ps : ℝ) (hK : 0 ≤ K) (k : ℕ) (hk : k + 1 < n) :
    layerThickness K (some ps) p (fun k => some (tv k)) (k + 1) = K * tv (k + 1) * Real.log (p k / p (k + 1)) ∧
      0 ≤ K * tv (k + 1) * Real.log (p k / p (k + 1)) := by
  have h1 := h.pos (k + 1) hk
  have : 0 ≤ K * tv (k + 1) * Real.log (p k / p (k + 1)) := by
    apply mul_nonneg (mul_nonneg hK (h.warm _ hk))
    apply Real.log_nonneg
    rw [le_div_iff₀ h1, one_mul]
    exact (h.dec k hk).le
  exact ⟨max_eq_left this, this⟩

theorem above_step {n : ℕ} {p tv : ℕ → ℝ} (h : IsColumn n p tv) (K hs ps d : ℝ) (hK : 0 ≤ K) (f : ℕ) (hps : p f < ps)
    (h0 : layerHeight K (some hs) (some ps) p (fun k => some (tv k)) f = some (hs + K * tv f * Real.log (ps / p f) + d)) :
    ∀ k, f ≤ k → k < n → layerHeight K (some hs) (some ps) p (fun k => some (tv k)) k = some (hypsometric K hs ps p tv f k + d) := by
  intro k hfk
  induction k, hfk using Nat.le_induction with
  | base =>
    intro _
    rw [h0]
    simp [hypsometric]
  | succ k hfk ih =>
    intro hk
    have hlow : ¬ p k > ps := by
      rcases Nat.eq_or_lt_of_le hfk with e | e
      · rw [← e]; exact not_lt.mpr hps.le
      · exact not_lt.mpr (((h.anti f k e (by omega)).trans hps).le)
    rw [layerHeight]
    simp only [gtCell, hlow, decide_false, Bool.false_and, Bool.false_eq_true, if_false]
    rw [ih (by omega), (thickness_succ h K ps hK k hk).1, Option.map_some]
    congr 1
    unfold hypsometric
    rw [← Finset.insert_Ioc_right_eq_Ioc_add_one (by omega : f ≤ k), Finset.sum_insert (by simp), Nat.add_sub_cancel]
    ring

/-- C137, surface below the lowest level: all heights follow the hypsometric equation.  Missing: columns whose lower levels
lie below the surface, see the next theorems. -/
theorem C137_surface_below_partial (gas gravity c geo sp : ℝ) (n : ℕ) (p tv : ℕ → ℝ) (h : IsColumn n p tv)
    (hg : 0 < gas) (hgr : 0 < gravity) (hs : p 0 < c * sp) (k : ℕ) (hk : k < n) :
    (heightFromPressure gas gravity c (some geo) (some sp) ((List.range n).map p) ((List.range n).map fun k => some (tv k)))[k]? =
      some (some (hypsometric (gas / gravity) (geo / gravity) (c * sp) p tv 0 k)) := by
  rw [height_level _ _ _ _ _ _ _ _ k hk]
  have hn : 0 < n := by omega
  have hp0 := h.pos 0 hn
  have hK : 0 ≤ gas / gravity := by positivity
  have := above_step h (gas / gravity) (geo / gravity) (c * sp) 0 hK 0 hs (by
    rw [layerHeight]
    simp only [ltCell, hs, decide_true, if_true, layerThickness, add_zero, Option.map_some]
    have h0 : 0 < c * sp := hp0.trans hs
    have ht : 0 ≤ gas / gravity * tv 0 * Real.log (c * sp / p 0) := by
      apply mul_nonneg (mul_nonneg hK (h.warm 0 hn))
      apply Real.log_nonneg
      rw [le_div_iff₀ hp0, one_mul]
      exact hs.le
    simp only [bind, Option.bind, h0, if_true, clipMissing, max_eq_left ht]) k (Nat.zero_le _) hk
  rw [this, add_zero]

/-- C138: levels at or below the surface have no height. -/
theorem C138_below_missing (gas gravity c geo sp : ℝ) (n : ℕ) (p tv : ℕ → ℝ) (h : IsColumn n p tv) (k : ℕ) (hk : k < n)
    (hp : c * sp ≤ p k) :
    (heightFromPressure gas gravity c (some geo) (some sp) ((List.range n).map p) ((List.range n).map fun k => some (tv k)))[k]? =
      some none := by
  rw [height_level _ _ _ _ _ _ _ _ k hk]
  congr 1
  have key : ∀ j ≤ k, layerHeight (gas / gravity) (some (geo / gravity)) (some (c * sp)) p (fun k => some (tv k)) j = none := by
    intro j
    induction j with
    | zero =>
      intro hj
      have : ¬ p 0 < c * sp := by
        rcases Nat.eq_or_lt_of_le hj with e | e
        · rw [e]; exact not_lt.mpr hp
        · exact not_lt.mpr (hp.trans (h.anti 0 k e hk).le)
      rw [layerHeight]
      simp [ltCell, this]
    | succ j ih =>
      intro hj
      have : ¬ p (j + 1) < c * sp := by
        rcases Nat.eq_or_lt_of_le hj with e | e
        · rw [e]; exact not_lt.mpr hp
        · exact not_lt.mpr (hp.trans (h.anti (j + 1) k e hk).le)
      rw [layerHeight, ih (by omega)]
      simp [ltCell, this]
  exact key k le_rfl

/-- C137, actual behaviour when the surface lies between the levels `f` and `f + 1`: all heights are too large by the
thickness of the air column between level `f` and the surface, which is below ground. -/
theorem C137_surface_between (gas gravity c geo sp : ℝ) (n : ℕ) (p tv : ℕ → ℝ) (h : IsColumn n p tv)
    (hg : 0 < gas) (hgr : 0 < gravity) (f : ℕ) (hlo : c * sp < p f) (hhi : p (f + 1) < c * sp) (k : ℕ) (hfk : f + 1 ≤ k)
    (hk : k < n) :
    (heightFromPressure gas gravity c (some geo) (some sp) ((List.range n).map p) ((List.range n).map fun k => some (tv k)))[k]? =
      some (some (hypsometric (gas / gravity) (geo / gravity) (c * sp) p tv (f + 1) k +
        gas / gravity * tv (f + 1) * Real.log (p f / (c * sp)))) := by
  rw [height_level _ _ _ _ _ _ _ _ k hk]
  congr 1
  have hK : 0 ≤ gas / gravity := by positivity
  have hp1 := h.pos (f + 1) (by omega)
  have hs0 : 0 < c * sp := hp1.trans hhi
  have hpf := h.pos f (by omega)
  refine above_step h (gas / gravity) (geo / gravity) (c * sp) _ hK (f + 1) hhi ?_ k hfk hk
  rw [layerHeight]
  simp only [gtCell, ltCell, gt_iff_lt, hlo, hhi, decide_true, Bool.and_self, if_true, Option.map_some]
  rw [(thickness_succ h _ _ hK f (by omega)).1]
  congr 1
  have e : Real.log (p f / p (f + 1)) = Real.log (c * sp / p (f + 1)) + Real.log (p f / (c * sp)) := by
    rw [← Real.log_mul (by positivity) (by positivity)]
    congr 1
    generalize c * sp = s at hs0
    field_simp
  rw [e]; ring

/-- C138, actual behaviour when the surface pressure equals the pressure of a level: no level has a height, not even those
above the surface. -/
theorem C138_on_level (gas gravity c geo sp : ℝ) (n : ℕ) (p tv : ℕ → ℝ) (h : IsColumn n p tv) (f : ℕ) (hf : f < n)
    (heq : p f = c * sp) (k : ℕ) (hk : k < n) :
    (heightFromPressure gas gravity c (some geo) (some sp) ((List.range n).map p) ((List.range n).map fun k => some (tv k)))[k]? =
      some none := by
  rcases Nat.lt_or_ge f k with hfk | hfk
  · rw [height_level _ _ _ _ _ _ _ _ k hk]
    congr 1
    have key : ∀ j, f ≤ j → j < n →
        layerHeight (gas / gravity) (some (geo / gravity)) (some (c * sp)) p (fun k => some (tv k)) j = none := by
      intro j hj
      induction j, hj using Nat.le_induction with
      | base =>
        intro _
        have := C138_below_missing gas gravity c geo sp n p tv h f hf heq.ge
        rw [height_level _ _ _ _ _ _ _ _ f hf] at this
        exact Option.some.inj this
      | succ j hj ih =>
        intro hjn
        have : ¬ p j > c * sp := by
          rcases Nat.eq_or_lt_of_le hj with e | e
          · rw [← e, heq]; exact lt_irrefl _
          · exact not_lt.mpr ((h.anti f j e (by omega)).le.trans heq.le)
        rw [layerHeight, ih (by omega)]
        simp [gtCell, this]
    exact key k hfk.le hk
  · refine C138_below_missing gas gravity c geo sp n p tv h k hk ?_
    rcases Nat.eq_or_lt_of_le hfk with e | e
    · rw [e, heq]
    · exact heq.ge.trans (h.anti k f e hf).le

theorem height_level_any (gas gravity c : ℝ) (geo sp : Option ℝ) (n : ℕ) (p : ℕ → ℝ) (tv : ℕ → Option ℝ) (k : ℕ) (hk : k < n) :
    (heightFromPressure gas gravity c geo sp ((List.range n).map p) ((List.range n).map tv))[k]? =
      some (layerHeight (gas / gravity) (geo.map (· / gravity)) (sp.map (c * ·))
        (fun k => ((List.range n).map p).getD k 0) (fun k => (((List.range n).map tv)[k]?).join) k) := by
  unfold heightFromPressure
  simp [hk]

/-- C138 where the surface pressure is missing: no level has a height. -/
theorem C138_no_surface (gas gravity c : ℝ) (geo : Option ℝ) (n : ℕ) (p : ℕ → ℝ) (tv : ℕ → Option ℝ) (k : ℕ) (hk : k < n) :
    (heightFromPressure gas gravity c geo none ((List.range n).map p) ((List.range n).map tv))[k]? = some none := by
  rw [height_level_any _ _ _ _ _ _ _ _ k hk]
  congr 1
  simp only [Option.map_none]
  clear hk
  induction k with
  | zero => simp [layerHeight, ltCell]
  | succ k ih =>
    unfold layerHeight
    rw [if_neg (by simp [ltCell]), ih]
    rfl

theorem layerHeight_gap (K q : ℝ) (hs : Option ℝ) (p : ℕ → ℝ) (tv : ℕ → Option ℝ) (k : ℕ) (hp : p k ≤ q) (ht : tv (k + 1) = none) :
    layerHeight K hs (some q) p tv (k + 1) = layerHeight K hs (some q) p tv k := by
  have h3 : layerThickness K (some q) p tv (k + 1) = 0 := by
    rw [layerThickness, ht]
    rfl
  have h4 : gtCell (p k) (some q) = false := by
    simp only [gtCell]
    exact decide_eq_false (not_lt.mpr hp)
  rw [layerHeight, h4, h3]
  simp

/-- C137 where the temperature of a level is missing: the layer below it counts as empty, so that the level has the height of the level
below it (if the surface is not between them). -/
theorem C137_no_temperature (gas gravity c geo sp : ℝ) (n : ℕ) (p : ℕ → ℝ) (tv : ℕ → Option ℝ) (k : ℕ) (hk : k + 1 < n)
    (hs : p k ≤ c * sp) (ht : tv (k + 1) = none) :
    (heightFromPressure gas gravity c (some geo) (some sp) ((List.range n).map p) ((List.range n).map tv))[k + 1]? =
      (heightFromPressure gas gravity c (some geo) (some sp) ((List.range n).map p) ((List.range n).map tv))[k]? := by
  rw [height_level_any _ _ _ _ _ _ _ _ (k + 1) hk, height_level_any _ _ _ _ _ _ _ _ k (by omega)]
  congr 1
  apply layerHeight_gap
  · simp only [List.getD, List.getElem?_map, List.getElem?_range (show k < n by omega), Option.map_some, Option.getD_some]
    exact hs
  · simp [hk, ht]

/-- Three levels, no temperature at the second. -/
example : (heightFromPressure 287 9.8 1 (some 0) (some 1000) ((List.range 3).map fun k => 950 - 100 * (k : ℝ))
      ((List.range 3).map fun k => if k = 1 then none else some 280))[1]? =
    (heightFromPressure 287 9.8 1 (some 0) (some 1000) ((List.range 3).map fun k => 950 - 100 * (k : ℝ))
      ((List.range 3).map fun k => if k = 1 then none else some 280))[0]? :=
  C137_no_temperature 287 9.8 1 0 1000 3 (fun k => 950 - 100 * (k : ℝ)) (fun k => if k = 1 then none else some 280) 0
    (by norm_num) (by norm_num) rfl

/-- C138: of two neighbouring levels with heights the upper one is not lower, and higher in warm air. -/
theorem C138_increasing (gas gravity c geo sp : ℝ) (n : ℕ) (p tv : ℕ → ℝ) (h : IsColumn n p tv)
    (hg : 0 < gas) (hgr : 0 < gravity) (k : ℕ) (hk : k + 1 < n) (a b : ℝ)
    (ha : (heightFromPressure gas gravity c (some geo) (some sp) ((List.range n).map p)
      ((List.range n).map fun k => some (tv k)))[k]? = some (some a))
    (hb : (heightFromPressure gas gravity c (some geo) (some sp) ((List.range n).map p)
      ((List.range n).map fun k => some (tv k)))[k + 1]? = some (some b)) :
    b - a = gas / gravity * tv (k + 1) * Real.log (p k / p (k + 1)) ∧ a ≤ b ∧ (0 < tv (k + 1) → a < b) := by
  have hK : 0 < gas / gravity := by positivity
  have hlt : p k < c * sp := by
    by_contra hc
    have := C138_below_missing gas gravity c geo sp n p tv h k (by omega) (not_lt.mp hc)
    rw [this] at ha
    simp at ha
  rw [height_level _ _ _ _ _ _ _ _ k (by omega)] at ha
  rw [height_level _ _ _ _ _ _ _ _ (k + 1) hk, layerHeight] at hb
  have hn : ¬ p k > c * sp := not_lt.mpr hlt.le
  simp only [gtCell, hn, decide_false, Bool.false_and, Bool.false_eq_true, if_false] at hb
  rw [Option.some.inj ha, (thickness_succ h _ _ hK.le k hk).1, Option.map_some] at hb
  have e := Option.some.inj (Option.some.inj hb)
  have hnn := (thickness_succ h _ (c * sp) hK.le k hk).2
  refine ⟨by linarith, by linarith, fun ht => ?_⟩
  have : 0 < gas / gravity * tv (k + 1) * Real.log (p k / p (k + 1)) := by
    apply mul_pos (mul_pos hK ht)
    apply Real.log_pos
    rw [lt_div_iff₀ (h.pos _ hk), one_mul]
    exact h.dec k hk
  linarith

/-- Levels at 1000, 900, ..., of constant temperature. -/
theorem exColumn : IsColumn 9 (fun k => 1000 - 100 * k) (fun _ => 280) := by
  refine ⟨fun k hk => ?_, fun k _ => ?_, fun k _ => by norm_num⟩
  · have : (k : ℝ) ≤ 8 := by exact_mod_cast (by omega : k ≤ 8)
    linarith
  · push_cast; linarith

example : (fun k : ℕ => 1000 - 100 * (k : ℝ)) 0 < 1 * (1013 : ℝ) ∧ (1 : ℝ) * 950 < (fun k : ℕ => 1000 - 100 * (k : ℝ)) 0 ∧
    (fun k : ℕ => 1000 - 100 * (k : ℝ)) (0 + 1) < 1 * (950 : ℝ) ∧ (fun k : ℕ => 1000 - 100 * (k : ℝ)) 1 = 1 * 900 := by
  norm_num

/-- C137 is false: surface at 950 hPa and height 0, levels 1000, 900, ... hPa: the height of level 900 is that of a column from
1000 hPa, about twice the right one. -/
theorem C137_counterexample :
    ∃ v, (heightFromPressure 287 9.8 1 (some 0) (some 950) ((List.range 9).map fun k => 1000 - 100 * (k : ℝ))
        ((List.range 9).map fun _ => some 280))[1]? = some (some v) ∧
      hypsometric (287 / 9.8) (0 / 9.8) (1 * 950) (fun k => 1000 - 100 * (k : ℝ)) (fun _ => 280) 1 1 < v := by
  refine ⟨_, C137_surface_between 287 9.8 1 0 950 9 (fun k => 1000 - 100 * (k : ℝ)) (fun _ => 280) exColumn (by norm_num)
    (by norm_num) 0 (by norm_num) (by norm_num) 1 le_rfl (by norm_num), ?_⟩
  rw [lt_add_iff_pos_right]
  apply mul_pos (by norm_num)
  apply Real.log_pos
  norm_num

/-! ### C139 -/

theorem vInterp_scale (n : ℕ) (c eta s : ℚ) (z f : ℕ → ℚ) (hs : 0 < s) :
    vInterp n c eta z f = vInterp n 1 (s * eta) (fun k => s * (c * z k)) f := by
  have hd : ∀ k, vDist 1 (s * eta) (fun k => s * (c * z k)) k = s * vDist c eta z k := by
    intro k; unfold vDist; ring
  have p1 : ∀ x : ℚ, s * x < 0 ↔ x < 0 := fun x => by
    constructor
    · intro h; by_contra hc; nlinarith [mul_nonneg hs.le (not_lt.mp hc)]
    · intro h; nlinarith
  have p2 : ∀ x : ℚ, s * x > 0 ↔ x > 0 := fun x => by
    constructor
    · intro h; by_contra hc; nlinarith [mul_nonneg hs.le (neg_nonneg.mpr (not_lt.mp hc))]
    · intro h; positivity
  have hinit : vInit 1 (s * eta) (fun k => s * (c * z k)) = vInit c eta z := by
    funext j; unfold vInit; simp only [hd, p1]
  have hstep : vStep 1 (s * eta) (fun k => s * (c * z k)) = vStep c eta z := by
    funext w k j
    unfold vStep
    simp only [hd, p1, p2]
    have e : s * vDist c eta z (k - 1) / ((s * (c * z k) - s * (c * z (k - 1))) * 1) =
        vDist c eta z (k - 1) / ((z k - z (k - 1)) * c) := by
      rw [show (s * (c * z k) - s * (c * z (k - 1))) * 1 = s * ((z k - z (k - 1)) * c) by ring, mul_div_mul_left _ _ hs.ne']
    simp only [e]
  have hw : vWeights n 1 (s * eta) (fun k => s * (c * z k)) = vWeights n c eta z := by
    unfold vWeights
    simp only [hinit, hstep, hd, p2]
  unfold vInterp
  simp only [hw]

/-- C139, actual behaviour: a level `e` in units of `lu` meters is read as the height `e su² / lu` meters, where `su` is the
unit of the coordinate surfaces. -/
theorem C139_reading (surfaces field : List ℚ) (lu su : ℚ) (levels : List ℚ) (hl : 0 < lu) (hs : 0 < su) :
    verticalInterpUnits surfaces field lu su levels =
      verticalInterpUnits (surfaces.map (su * ·)) field 1 1 (levels.map fun e => su * e * (su / lu)) := by
  unfold verticalInterpUnits verticalInterp lengthConvert
  rw [List.map_map]
  apply List.map_congr_left
  intro e _
  simp only [Function.comp]
  rw [vInterp_scale _ (lu / su) e (su * su / lu) _ _ (by positivity), div_one]
  have e1 : su * su / lu * e = su * e * (su / lu) := by ring
  rw [e1]
  congr 1
  funext k
  rw [List.getD_eq_getElem?_getD, List.getD_eq_getElem?_getD, List.getElem?_map]
  rcases surfaces[k]? with _ | v
  · simp
  · simp only [Option.getD_some, Option.map_some]
    field_simp

/-- C139 when levels and surfaces have the same unit: the result is that for both in meters.  Missing: different units. -/
theorem C139_same_unit_partial (surfaces field : List ℚ) (u : ℚ) (levels : List ℚ) (hu : 0 < u) :
    verticalInterpUnits surfaces field u u levels =
      verticalInterpUnits (surfaces.map (u * ·)) field 1 1 (levels.map (u * ·)) := by
  rw [C139_reading surfaces field u u levels hu hu]
  congr 2
  funext e
  rw [div_self hu.ne', mul_one]

/-- C139 is false for different units: surfaces at 0, 4000, 8000 and 12000 meters, level 6 kilometers: the level is read
as 6 millimeters, and the value is 10.000015 instead of 25. -/
theorem C139_counterexample :
    verticalInterpUnits [0, 4000, 8000, 12000] [10, 20, 30, 40] 1000 1 [6] = [some (10 + 10 * (6 / 4000000))] ∧
    verticalInterpUnits [0, 4000, 8000, 12000] [10, 20, 30, 40] 1 1 [6000] = [some 25] := by
  decide +kernel

end Metcalcpy.Props
