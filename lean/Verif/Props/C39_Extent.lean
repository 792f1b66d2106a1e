/-
C39  The difficulty index lies between 0 and 1.5: exactly when.
-/
import Verif.Props.C39_Difficulty
import Mathlib.Order.Bounds.Basic

namespace Metcalcpy.Props
open Metcalcpy

/-- The default envelope: between 0 and 1.5, and positive exactly between 3 and 21. -/
theorem default_taper (x : ℚ) : ∃ v, defaultEnvelope.value x = some v ∧ 0 ≤ v ∧ v ≤ 3 / 2 ∧ (0 < v ↔ 3 < x ∧ x < 21) := by
  by_cases h3 : x < 3
  · exact ⟨0, by simp [Plin.value, defaultEnvelope, h3], le_refl _, by norm_num, by
      simp only [lt_self_iff_false, false_iff]
      intro h
      linarith [h.1]⟩
  have h3' : 3 ≤ x := not_lt.mp h3
  by_cases h9 : 9 ≤ x
  · by_cases h12 : 12 ≤ x
    · by_cases h21 : 21 ≤ x
      · refine ⟨0, ?_, le_refl _, by norm_num, ?_⟩
        · by_cases h : 21 < x <;> simp [Plin.value, defaultEnvelope, interpFrom, h3, h9, h12, h21, h]
        · simp only [lt_self_iff_false, false_iff]
          intro h
          linarith [h.2]
      · have h21' := not_le.mp h21
        by_cases hx : x = 12
        · subst hx
          exact ⟨3 / 2, by decide +kernel, by norm_num, by norm_num, by norm_num⟩
        · refine ⟨(0 - 3 / 2) / (21 - 12) * (x - 12) + 3 / 2, ?_, by linarith, by linarith, ?_⟩
          · simp [Plin.value, defaultEnvelope, interpFrom, h3, h9, h12, h21, hx]
          · constructor
            · intro _
              exact ⟨by linarith, h21'⟩
            · intro _
              linarith
    · have h12' := not_le.mp h12
      by_cases hx : x = 9
      · subst hx
        exact ⟨3 / 2, by decide +kernel, by norm_num, by norm_num, by norm_num⟩
      · refine ⟨3 / 2, ?_, by norm_num, by norm_num, ?_⟩
        · simp [Plin.value, defaultEnvelope, interpFrom, h3, h9, h12, hx]
        · constructor
          · intro _
            exact ⟨by linarith, by linarith⟩
          · intro _
            norm_num
  · have h9' := not_le.mp h9
    by_cases hx : x = 3
    · subst hx
      exact ⟨0, by decide +kernel, by norm_num, by norm_num, by norm_num⟩
    · have hlt : 3 < x := lt_of_le_of_ne h3' (Ne.symm hx)
      refine ⟨(3 / 2 - 0) / (9 - 3) * (x - 3) + 0, ?_, by linarith, by linarith, ?_⟩
      · simp [Plin.value, defaultEnvelope, interpFrom, h3, h9, hx]
      · constructor
        · intro _
          exact ⟨hlt, by linarith⟩
        · intro _
          linarith

theorem foldl_max_mem (l : List ℚ) (r : ℚ) : l.foldl max r = r ∨ l.foldl max r ∈ l := by
  induction l generalizing r with
  | nil => simp
  | cons y l ih =>
    rcases ih (max r y) with h | h
    · rw [List.foldl_cons, h]
      rcases max_choice r y with h' | h' <;> simp [h']
    · exact Or.inr (by simp [h])

/-- C39, exactly when: for non-zero spreads and means and the default envelope, whatever their signs, no index is above 1.5.  An index is
not negative exactly when the mean lies outside of (3, 21), or the relative spread, divided by the largest one (or the reference), and one
less the distance of the share of members below the threshold from 1/2 are together not negative. -/
theorem C39_exactly_partial (pts : List GridPt) (threshold ref : ℚ) (hpos : ∀ p ∈ pts, p.sigma ≠ 0 ∧ p.mu ≠ 0)
    (_hmem : ∀ p ∈ pts, p.members ≠ []) (href : EPS ≤ ref) :
    ∃ out R, forecastDifficulty none pts threshold ref = .ok out ∧ out.length = pts.length ∧
      IsGreatest {x | x = ref ∨ ∃ p ∈ pts, x = p.sigma / p.mu} R ∧
      ∀ (i : ℕ) (p : GridPt), pts[i]? = some p → ∃ v, out[i]? = some (some v) ∧ v ≤ 3 / 2 ∧
        (0 ≤ v ↔ ¬ (3 < p.mu ∧ p.mu < 21) ∨
          0 ≤ p.sigma / p.mu / R + (1 - |1 / 2 - ((p.members.filter (fun x => x < threshold)).length : ℚ) / p.members.length|)) := by
  have hall : pts.all (fun p => p.sigma ≠ 0) = true := by
    rw [List.all_eq_true]
    intro p hp
    simpa using (hpos p hp).1
  have hE : (0 : ℚ) < EPS := by norm_num [EPS]
  have hchk : difficultyCheck pts ref (1 / 2) = .ok () := by
    unfold difficultyCheck
    rw [hall, if_neg, if_neg, if_neg]
    · push Not; norm_num
    · push Not; exact href
    · push Not; norm_num [boolInt, EPS]
  obtain ⟨f1, f2⟩ := foldl_max_ge (pts.map (fun p => p.sigma / p.mu)) ref
  have f3 := foldl_max_mem (pts.map (fun p => p.sigma / p.mu)) ref
  refine ⟨_, (pts.map (fun p => p.sigma / p.mu)).foldl max ref,
    by simp only [forecastDifficulty, Option.getD_none, difficultyIndex, hchk, bind, Except.bind]; rfl, by simp, ?_, ?_⟩
  · constructor
    · rcases f3 with h | h
      · exact Or.inl h
      · obtain ⟨p, hp, h'⟩ := List.mem_map.mp h
        exact Or.inr ⟨p, hp, h'.symm⟩
    · rintro x (rfl | ⟨p, hp, rfl⟩)
      · exact f1
      · exact f2 _ (List.mem_map.mpr ⟨p, hp, rfl⟩)
  intro i p hi
  have hp := List.mem_of_getElem? hi
  generalize (pts.map (fun p => p.sigma / p.mu)).foldl max ref = R at *
  have hR : 0 < R := lt_of_lt_of_le hE (href.trans f1)
  have hq : p.sigma / p.mu ≤ R := f2 _ (List.mem_map.mpr ⟨p, hp, rfl⟩)
  have hv1 : p.sigma / p.mu / R ≤ 1 := by rw [div_le_one hR]; exact hq
  obtain ⟨t, e, t0, t1, tpos⟩ := default_taper p.mu
  have hval : pointIndex defaultEnvelope threshold R (1 / 2) p =
      some (1 / 2 * t * (p.sigma / p.mu / R + (1 - |1 / 2 - ((p.members.filter (fun x => x < threshold)).length : ℚ) / p.members.length|))) := by
    simp only [pointIndex, e, Option.map_some]
    norm_num
  refine ⟨_, by rw [List.getElem?_map, hi, Option.map_some, hval], ?_, ?_⟩
  · have := abs_nonneg (1 / 2 - ((p.members.filter (fun x => x < threshold)).length : ℚ) / p.members.length)
    generalize |1 / 2 - ((p.members.filter (fun x => x < threshold)).length : ℚ) / p.members.length| = b at *
    generalize p.sigma / p.mu / R = a at *
    nlinarith
  · generalize p.sigma / p.mu / R + (1 - |1 / 2 - ((p.members.filter (fun x => x < threshold)).length : ℚ) / p.members.length|) = a
    rw [← tpos]
    rcases t0.eq_or_lt with h | h
    · subst h
      simp
    · constructor
      · intro h'
        right
        by_contra hneg
        push Not at hneg
        nlinarith
      · rintro (h' | h')
        · exact absurd h h'
        · positivity

/-- A negative spread where the mean is 10, and one where it is 30: only the first index is negative. -/
example : ∃ v, forecastDifficulty none [⟨-10, 10, [8, 12]⟩, ⟨-10, 30, [28, 32]⟩] 10 (1 / 2) = .ok [some v, some 0] ∧ v < 0 :=
  ⟨-3 / 4, by decide +kernel, by norm_num⟩

end Metcalcpy.Props
