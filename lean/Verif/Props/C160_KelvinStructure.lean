import Mathlib.Tactic.Linarith
import Mathlib.Tactic.Ring
import Mathlib.Tactic.FieldSimp
import Mathlib.Tactic.LinearCombination
import Mathlib.Tactic.Positivity
import Mathlib.Algebra.BigOperators.Intervals
import Mathlib.Data.List.GetD
import Mathlib.MeasureTheory.Integral.IntervalIntegral.Basic
import Verif.Model.MjoEnso

/-!
C160: the meridional structure of the oceanic Kelvin wave and the wind power.

Specification: the structure solves `phi' = -y phi` (`y` in units of `unitDegrees` of latitude), here by the trapezoidal
rule on rows `rowDegrees`, normalised so that at the row nearest to the equator it is the normalised Gaussian.
-/

namespace Metcalcpy.Spec

/-- Degrees of latitude in one equatorial radius of deformation: gravity wave speed `sqrt (0.0981 · 90)` m/s,
    `beta = 2.28e-11`, 111 km per degree. -/
noncomputable def unitDegrees : ℝ := Real.sqrt (Real.sqrt (0.0981 * 90) / 2.28e-11) / 111000

/-- Latitude of the middle of cell `j` when `[a, b]` is cut into `n` equal cells. -/
noncomputable def rowDegrees (a b : ℝ) (n j : ℕ) : ℝ := a + (j + 1 / 2) * ((b - a) / n)

/-- The trapezoidal rule for `phi' = -y phi` on the rows. -/
def TrapezoidRule (a b : ℝ) (n : ℕ) (phi : ℕ → ℝ) : Prop :=
  ∀ j, j + 1 < n →
    (phi (j + 1) - phi j) / ((b - a) / n / unitDegrees) =
      -(rowDegrees a b n j / unitDegrees * phi j + rowDegrees a b n (j + 1) / unitDegrees * phi (j + 1)) / 2

end Metcalcpy.Spec

namespace Metcalcpy

open Spec

/-! ### the error function -/

theorem erfReal_add_neg (x y : ℝ) :
    erfReal y + erfReal (-x) = 2 / Real.sqrt Real.pi * ∫ t in x..y, Real.exp (-t ^ 2) := by
  have hint : ∀ a b : ℝ, IntervalIntegrable (fun t : ℝ => Real.exp (-t ^ 2)) MeasureTheory.volume a b := by
    intro a b
    apply Continuous.intervalIntegrable
    fun_prop
  have hodd : ∫ t in (0 : ℝ)..(-x), Real.exp (-t ^ 2) = -∫ t in (0 : ℝ)..x, Real.exp (-t ^ 2) := by
    have h := intervalIntegral.integral_comp_neg (a := (0 : ℝ)) (b := x) (fun t : ℝ => Real.exp (-t ^ 2))
    simp only [neg_sq, neg_zero] at h
    rw [h, intervalIntegral.integral_symm]
  unfold erfReal
  rw [hodd, ← intervalIntegral.integral_add_adjacent_intervals (hint x 0) (hint 0 y),
    intervalIntegral.integral_symm 0 x]
  ring

theorem erf_interval_pos {x y : ℝ} (h : x < y) : 0 < erfReal y + erfReal (-x) := by
  rw [erfReal_add_neg]
  have hp := Real.pi_pos
  have : 0 < ∫ t in x..y, Real.exp (-t ^ 2) := by
    apply intervalIntegral.intervalIntegral_pos_of_pos_on
    · apply Continuous.intervalIntegrable
      fun_prop
    · intro t _; exact Real.exp_pos _
    · exact h
  positivity

theorem erf_interval_neg {x y : ℝ} (h : y < x) : erfReal y + erfReal (-x) < 0 := by
  have := erf_interval_pos h
  rw [erfReal_add_neg] at this ⊢
  rw [intervalIntegral.integral_symm]
  linarith

/-! ### the loops -/

theorem length_kelvinUp_fold (d : ℝ) (y : ℕ → ℝ) (js : List ℕ) (phi : List (Option ℝ)) :
    (js.foldl (kelvinUp d y) phi).length = phi.length := by
  induction js generalizing phi with
  | nil => rfl
  | cons j t ih => rw [List.foldl_cons, ih]; unfold kelvinUp; rw [List.length_set]

/-- After `m` steps towards the north the rows `jnot ... jnot + m` carry the values. -/
theorem kelvinUp_fold (d : ℝ) (y : ℕ → ℝ) (v : ℕ → Option ℝ) (n jnot : ℕ) (phi : List (Option ℝ))
    (hlen : phi.length = n) (hj : phi[jnot]? = some (v jnot))
    (hstep : ∀ j, jnot ≤ j → j + 1 < n → (v j).map (fun x => x * (d - y j) / (d + y (j + 1))) = v (j + 1)) :
    ∀ m, jnot + m < n → ∀ i, jnot ≤ i → i ≤ jnot + m →
      ((List.range' (jnot + 1) m).foldl (kelvinUp d y) phi)[i]? = some (v i) := by
  intro m
  induction m with
  | zero => intro _ i h1 h2; have : i = jnot := by omega
            subst this; simpa using hj
  | succ m ih =>
    intro hm i h1 h2
    rw [List.range'_concat, List.foldl_append, List.foldl_cons, List.foldl_nil]
    have hl := length_kelvinUp_fold d y (List.range' (jnot + 1) m) phi
    set acc := (List.range' (jnot + 1) m).foldl (kelvinUp d y) phi with hacc
    unfold kelvinUp
    have e : jnot + 1 + 1 * m = jnot + m + 1 := by omega
    rw [e, List.getElem?_set]
    by_cases hi : jnot + m + 1 = i
    · rw [if_pos hi, if_pos (by rw [hl, hlen]; omega)]
      have hprev : acc.getD (jnot + m + 1 - 1) none = v (jnot + m) := by
        rw [List.getD_eq_getElem?_getD, Nat.add_sub_cancel, ih (by omega) (jnot + m) (by omega) (by omega)]; rfl
      rw [hprev, Nat.add_sub_cancel, hstep (jnot + m) (by omega) (by omega), hi]
    · rw [if_neg hi]
      exact ih (by omega) i h1 (by omega)

/-- After `m` steps towards the south all rows from `jnot + 1 - m` on carry the values. -/
theorem kelvinDown_fold (d : ℝ) (y : ℕ → ℝ) (v : ℕ → Option ℝ) (n jnot : ℕ) (phi : List (Option ℝ))
    (hlen : phi.length = n) (hjn : jnot + 1 < n) (hj : ∀ i, jnot + 1 ≤ i → i < n → phi[i]? = some (v i))
    (hstep : ∀ k, k ≤ jnot → (v (k + 1)).map (fun x => x * (d + y (k + 1)) / (d - y k)) = v k) :
    ∀ m, m ≤ jnot + 1 → ∃ phi', ((List.range m).map (fun j => jnot - j)).foldlM (kelvinDown d y) phi = .ok phi' ∧
      phi'.length = n ∧ ∀ i, jnot + 1 - m ≤ i → i < n → phi'[i]? = some (v i) := by
  intro m
  induction m with
  | zero => intro _; exact ⟨phi, rfl, hlen, fun i h1 h2 => hj i (by omega) h2⟩
  | succ m ih =>
    intro hm
    obtain ⟨phi', h1, h2, h3⟩ := ih (by omega)
    rw [List.range_succ, List.map_append, List.foldlM_append, h1]
    have hk := h3 (jnot - m + 1) (by omega) (by omega)
    refine ⟨phi'.set (jnot - m) (v (jnot - m)), ?_, by rw [List.length_set, h2], ?_⟩
    · have : kelvinDown d y phi' (jnot - m) = .ok (phi'.set (jnot - m) (v (jnot - m))) := by
        unfold kelvinDown
        rw [hk]
        dsimp only
        rw [hstep (jnot - m) (by omega)]
      simp only [List.map_cons, List.map_nil, List.foldlM_cons, List.foldlM_nil, this, bind, Except.bind, pure, Except.pure]
    · intro i hi1 hi2
      rw [List.getElem?_set]
      by_cases hi : jnot - m = i
      · rw [if_pos hi, if_pos (by omega), hi]
      · rw [if_neg hi]; exact h3 i (by omega) hi2

theorem list_eq_of_getElem? {l : List (Option ℝ)} {n : ℕ} {v : ℕ → Option ℝ} (hl : l.length = n)
    (h : ∀ i, i < n → l[i]? = some (v i)) : l = (List.range n).map v := by
  apply List.ext_getElem?
  intro i
  by_cases hi : i < n
  · rw [h i hi, List.getElem?_map, List.getElem?_range hi]; rfl
  · rw [List.getElem?_eq_none (by omega), List.getElem?_eq_none (by simp; omega)]

theorem kelvinFill_values (n jnot : ℕ) (d : ℝ) (y : ℕ → ℝ) (v : ℕ → Option ℝ) (hjn : jnot + 1 < n)
    (hup : ∀ j, jnot ≤ j → j + 1 < n → (v j).map (fun x => x * (d - y j) / (d + y (j + 1))) = v (j + 1))
    (hdown : ∀ k, k ≤ jnot → (v (k + 1)).map (fun x => x * (d + y (k + 1)) / (d - y k)) = v k) :
    kelvinFill n jnot d y (v jnot) = .ok ((List.range n).map v) := by
  unfold kelvinFill
  dsimp only
  have hlen0 : ((List.replicate n (some (0 : ℝ))).set jnot (v jnot)).length = n := by simp
  have h0 : ((List.replicate n (some (0 : ℝ))).set jnot (v jnot))[jnot]? = some (v jnot) := by
    rw [List.getElem?_set, if_pos rfl, if_pos (by simp; omega)]
  have hU := kelvinUp_fold d y v n jnot _ hlen0 h0 hup (n - (jnot + 1)) (by omega)
  have hlen1 : ((List.range' (jnot + 1) (n - (jnot + 1))).foldl (kelvinUp d y)
      ((List.replicate n (some (0 : ℝ))).set jnot (v jnot))).length = n := by
    rw [length_kelvinUp_fold, hlen0]
  obtain ⟨phi', h1, h2, h3⟩ := kelvinDown_fold d y v n jnot _ hlen1 hjn
    (fun i a b => hU i (by omega) (by omega)) hdown (jnot + 1) le_rfl
  rw [h1]
  congr 1
  exact list_eq_of_getElem? h2 (fun i hi => h3 i (by omega) hi)

theorem kelvinFill_last (n : ℕ) (d : ℝ) (y : ℕ → ℝ) (seed : Option ℝ) (hn : 0 < n) :
    kelvinFill n (n - 1) d y seed = .error .indexError := by
  unfold kelvinFill
  dsimp only
  rw [List.range_succ_eq_map, List.map_cons, List.foldlM_cons]
  have : kelvinDown d y (List.foldl (kelvinUp d y) ((List.replicate n (some (0 : ℝ))).set (n - 1) seed)
      (List.range' (n - 1 + 1) (n - (n - 1 + 1)))) (n - 1 - 0) = .error .indexError := by
    unfold kelvinDown
    rw [List.getElem?_eq_none]
    rw [length_kelvinUp_fold]
    simp; omega
  rw [this]
  rfl

/-- Values that satisfy the recurrence, from the value at one row. -/
theorem recurrence_solution (d : ℝ) (y : ℕ → ℝ) (n jnot : ℕ) (s : ℝ) (hjn : jnot < n)
    (hm : ∀ j, j < n → d - y j ≠ 0) (hp : ∀ j, j < n → d + y j ≠ 0) :
    ∃ phi : ℕ → ℝ, phi jnot = s ∧ (∀ j, j + 1 < n → phi (j + 1) = phi j * (d - y j) / (d + y (j + 1))) ∧
      ∀ j, j + 1 < n → phi j = phi (j + 1) * (d + y (j + 1)) / (d - y j) := by
  set rho : ℕ → ℝ := fun j => (d - y j) / (d + y (j + 1)) with hrho
  set P : ℕ → ℝ := fun j => ∏ i ∈ Finset.range j, rho i with hP
  have hne : ∀ j, j < n → P j ≠ 0 := by
    intro j hj
    rw [hP]
    apply Finset.prod_ne_zero_iff.mpr
    intro i hi
    have := Finset.mem_range.mp hi
    exact div_ne_zero (hm i (by omega)) (hp (i + 1) (by omega))
  have hs : ∀ j, P (j + 1) = P j * rho j := fun j => Finset.prod_range_succ _ _
  refine ⟨fun j => s * P j / P jnot, ?_, ?_, ?_⟩
  · simp only; rw [mul_div_assoc, div_self (hne jnot hjn), mul_one]
  · intro j hj
    simp only
    rw [hs j, hrho]; ring
  · intro j hj
    simp only
    rw [hs j, hrho]
    have h1 := hm j (by omega)
    have h2 := hp (j + 1) hj
    have h3 := hne jnot hjn
    field_simp

theorem kelvinFill_ok (n jnot : ℕ) (d : ℝ) (y : ℕ → ℝ) (s : ℝ) (hjn : jnot + 1 < n)
    (hm : ∀ j, j < n → d - y j ≠ 0) (hp : ∀ j, j < n → d + y j ≠ 0) :
    ∃ phi : ℕ → ℝ, kelvinFill n jnot d y (some s) = .ok ((List.range n).map (fun i => some (phi i))) ∧ phi jnot = s ∧
      ∀ j, j + 1 < n → phi (j + 1) = phi j * (d - y j) / (d + y (j + 1)) := by
  obtain ⟨phi, h1, h2, h3⟩ := recurrence_solution d y n jnot s (by omega) hm hp
  refine ⟨phi, ?_, h1, h2⟩
  have := kelvinFill_values n jnot d y (fun i => some (phi i)) hjn
    (fun j _ hj => by simp only [Option.map_some]; rw [h2 j hj])
    (fun k hk => by simp only [Option.map_some]; rw [h3 k (by omega)])
  rw [← this, h1]

theorem kelvinFill_none (n jnot : ℕ) (d : ℝ) (y : ℕ → ℝ) (hjn : jnot + 1 < n) :
    kelvinFill n jnot d y none = .ok (List.replicate n none) := by
  have := kelvinFill_values n jnot d y (fun _ => none) hjn (fun _ _ _ => rfl) (fun _ _ => rfl)
  rw [this]
  congr 1
  apply list_eq_replicate_of
where
  list_eq_replicate_of {n : ℕ} : (List.range n).map (fun _ => (none : Option ℝ)) = List.replicate n none := by
    rw [List.map_const']; simp

/-! ### the rows -/

theorem nearestRow_spec (n : ℕ) (y : ℕ → ℝ) (hn : 0 < n) :
    nearestRow n y < n ∧ (∀ k < n, |y (nearestRow n y)| ≤ |y k|) ∧
      ∀ i < nearestRow n y, ∃ k < n, |y k| < |y i| := by
  classical
  obtain ⟨m, hm, hmin⟩ := Finset.exists_min_image (Finset.range n) (fun i => |y i|) ⟨0, Finset.mem_range.mpr hn⟩
  have hex : ((List.range n).find? (fun i => decide (∀ k < n, |y i| ≤ |y k|))).isSome := by
    rw [List.find?_isSome]
    refine ⟨m, by simpa using hm, ?_⟩
    simp only [decide_eq_true_eq]
    intro k hk
    exact hmin k (Finset.mem_range.mpr hk)
  obtain ⟨i, hi⟩ := Option.isSome_iff_exists.mp hex
  have hR : nearestRow n y = i := by
    have h2 : ((List.range n).find? (fun i => decide (∀ k < n, |y i| ≤ |y k|))).getD 0 = i := by rw [hi]; rfl
    unfold nearestRow
    convert h2
  rw [hR]
  have h1 := List.find?_some hi
  simp only [decide_eq_true_eq] at h1
  refine ⟨by simpa using List.mem_of_find?_eq_some hi, h1, ?_⟩
  intro j hj
  rw [List.find?_eq_some_iff_append] at hi
  obtain ⟨_, as, bs, hab, hno⟩ := hi
  have hjas : j ∈ as := by
    have hin : i < n := by
      have : i ∈ List.range n := by rw [hab]; simp
      simpa using this
    have hal : as.length = i := by
      have h2 : (List.range n)[as.length]? = some i := by rw [hab]; simp
      have h3 : as.length < n := by
        have := congrArg List.length hab
        simp at this; omega
      rw [List.getElem?_range h3] at h2
      exact Option.some.inj h2
    have h4 : (List.range n)[j]? = some j := List.getElem?_range (by omega)
    rw [hab, List.getElem?_append_left (by omega)] at h4
    exact List.mem_of_getElem? h4
  have := hno j hjas
  simp only [Bool.not_eq_true', decide_eq_false_iff_not] at this
  push Not at this
  exact this

theorem equatorialDegrees_eq : equatorialDegrees = unitDegrees := by
  unfold equatorialDegrees unitDegrees; norm_num

theorem unitDegrees_pos : 0 < unitDegrees := by
  unfold unitDegrees; positivity

theorem kelvinRow_eq (a b : ℝ) (n j : ℕ) :
    kelvinRow (a / unitDegrees) (b / unitDegrees) n j = rowDegrees a b n j / unitDegrees := by
  have := unitDegrees_pos
  unfold kelvinRow rowDegrees; ring

/-- The structure in terms of the first and last latitude. -/
theorem kelvinStructure_eq (lats : List ℝ) (a b : ℝ) (ha : lats.head? = some a) (hb : lats.getLast? = some b) :
    kelvinStructure lats =
      kelvinFill lats.length (nearestRow lats.length (fun j => rowDegrees a b lats.length j / unitDegrees))
        (2 / ((b - a) / lats.length / unitDegrees)) (fun j => rowDegrees a b lats.length j / unitDegrees)
        ((kelvinNorm (a / unitDegrees) (b / unitDegrees)).map (fun A => A *
          Real.exp (-1 / 2 * (rowDegrees a b lats.length
            (nearestRow lats.length (fun j => rowDegrees a b lats.length j / unitDegrees)) / unitDegrees) *
            (rowDegrees a b lats.length
            (nearestRow lats.length (fun j => rowDegrees a b lats.length j / unitDegrees)) / unitDegrees)))) := by
  unfold kelvinStructure
  rw [hb, ha]
  dsimp only
  have hy : kelvinRow (a / unitDegrees) (b / unitDegrees) lats.length =
      (fun j => rowDegrees a b lats.length j / unitDegrees) := by
    funext j; rw [kelvinRow_eq]
  rw [equatorialDegrees_eq, hy]
  congr 2
  ring

theorem rowDegrees_succ (a b : ℝ) (n j : ℕ) : rowDegrees a b n (j + 1) = rowDegrees a b n j + (b - a) / n := by
  unfold rowDegrees; push_cast; ring

theorem rowDegrees_mem {a b : ℝ} {n j : ℕ} (h : a < b) (hj : j < n) : a < rowDegrees a b n j ∧ rowDegrees a b n j < b := by
  have hn : (0 : ℝ) < n := by exact_mod_cast (by omega : 0 < n)
  have hj' : (j : ℝ) + 1 ≤ n := by exact_mod_cast hj
  have hj0 : (0 : ℝ) ≤ j := by positivity
  have hb : b = a + n * ((b - a) / n) := by field_simp; ring
  have hpos : 0 < (b - a) / n := div_pos (by linarith) hn
  unfold rowDegrees
  constructor
  · nlinarith
  · nlinarith

theorem rowDegrees_mono {a b : ℝ} {n j k : ℕ} (h : a < b) (hn : 0 < n) (hjk : j < k) :
    rowDegrees a b n j < rowDegrees a b n k := by
  have hn' : (0 : ℝ) < n := by exact_mod_cast hn
  have hpos : 0 < (b - a) / n := div_pos (by linarith) hn'
  have : (j : ℝ) < k := by exact_mod_cast hjk
  unfold rowDegrees
  nlinarith

theorem length_two_of_lt {lats : List ℝ} {a b : ℝ} (ha : lats.head? = some a) (hb : lats.getLast? = some b)
    (hab : a ≠ b) : 2 ≤ lats.length := by
  match lats, ha, hb with
  | [], ha, _ => simp at ha
  | [x], ha, hb => simp at ha hb; exact absurd (ha.symm.trans hb) hab
  | x :: y :: t, _, _ => simp

/-- The last row is chosen exactly when the last latitude is less than one row north of the equator. -/
theorem nearest_last_iff {a b : ℝ} {n : ℕ} (hab : a < b) (hn : 2 ≤ n) :
    nearestRow n (fun j => rowDegrees a b n j / unitDegrees) = n - 1 ↔ b < (b - a) / n := by
  obtain ⟨h1, h2, h3⟩ := nearestRow_spec n (fun j => rowDegrees a b n j / unitDegrees) (by omega)
  set r := nearestRow n (fun j => rowDegrees a b n j / unitDegrees) with hr
  have hE := unitDegrees_pos
  have hn0 : (0 : ℝ) < n := by exact_mod_cast (by omega : 0 < n)
  have hcmp : ∀ x z : ℝ, |x / unitDegrees| ≤ |z / unitDegrees| ↔ |x| ≤ |z| := by
    intro x z
    rw [abs_div, abs_div, abs_of_pos hE, div_le_div_iff_of_pos_right hE]
  have hcmp' : ∀ x z : ℝ, |x / unitDegrees| < |z / unitDegrees| ↔ |x| < |z| := by
    intro x z
    rw [abs_div, abs_div, abs_of_pos hE, div_lt_div_iff_of_pos_right hE]
  have hlast : rowDegrees a b n (n - 1) = b - (b - a) / n / 2 := by
    unfold rowDegrees
    rw [Nat.cast_sub (by omega)]
    field_simp; push_cast; ring
  have hprev : rowDegrees a b n (n - 2) = b - 3 * ((b - a) / n) / 2 := by
    unfold rowDegrees
    rw [Nat.cast_sub (by omega)]
    field_simp; push_cast; ring
  have hpos : 0 < (b - a) / n := div_pos (by linarith) hn0
  constructor
  · intro h
    obtain ⟨k, hk, hlt⟩ := h3 (n - 2) (by omega)
    have h4 := h2 k hk
    have h5 : |rowDegrees a b n (n - 1)| < |rowDegrees a b n (n - 2)| := by
      rw [← hcmp']
      rw [h] at h4
      exact lt_of_le_of_lt h4 hlt
    rw [hlast, hprev, ← sq_lt_sq] at h5
    nlinarith
  · intro h
    by_contra hne
    have hrl : r < n - 1 := by omega
    have h4 := (hcmp _ _).mp (h2 (n - 1) (by omega))
    have hle : rowDegrees a b n r ≤ rowDegrees a b n (n - 2) := by
      rcases Nat.lt_or_ge r (n - 2) with h | h
      · exact (rowDegrees_mono hab (by omega) h).le
      · have : r = n - 2 := by omega
        rw [this]
    have hlt : rowDegrees a b n r < rowDegrees a b n (n - 1) := rowDegrees_mono hab (by omega) hrl
    rw [← sq_le_sq] at h4
    rw [hprev] at hle
    rw [hlast] at h4 hlt
    nlinarith

theorem kelvinNorm_pos {x y : ℝ} (h : x < y) :
    kelvinNorm x y = some (1 / Real.sqrt (2 * ∫ t in x..y, Real.exp (-t ^ 2))) := by
  have h1 := erf_interval_pos h
  have hp : 0 < Real.sqrt Real.pi := Real.sqrt_pos.mpr Real.pi_pos
  have e : Real.sqrt Real.pi * (erfReal y + erfReal (-x)) = 2 * ∫ t in x..y, Real.exp (-t ^ 2) := by
    rw [erfReal_add_neg]; field_simp
  unfold kelvinNorm
  dsimp only
  rw [if_neg (by push Not; exact mul_pos hp h1), e]

theorem kelvinNorm_desc {x y : ℝ} (h : y < x) : kelvinNorm x y = none := by
  have h1 := erf_interval_neg h
  have hp : 0 < Real.sqrt Real.pi := Real.sqrt_pos.mpr Real.pi_pos
  unfold kelvinNorm
  dsimp only
  rw [if_pos (by nlinarith)]

namespace Props

/-- C160.  On ascending latitudes that reach at least one row north of the equator and are fine enough, the structure is
    positive, follows the trapezoidal rule, has the normalised Gaussian at the row nearest to the equator, decays away from
    the equator on both sides, and is symmetric if the latitudes are. -/
theorem C160_structure_partial (lats : List ℝ) (a b : ℝ) (ha : lats.head? = some a) (hb : lats.getLast? = some b)
    (hab : a < b) (hin : (b - a) / lats.length ≤ b)
    (hfa : |a| * (b - a) ≤ 2 * lats.length * unitDegrees ^ 2) (hfb : |b| * (b - a) ≤ 2 * lats.length * unitDegrees ^ 2) :
    ∃ phi : ℕ → ℝ, kelvinStructure lats = .ok ((List.range lats.length).map (fun j => some (phi j))) ∧
      (∀ j < lats.length, 0 < phi j) ∧
      TrapezoidRule a b lats.length phi ∧
      (∃ r < lats.length, (∀ k < lats.length, |rowDegrees a b lats.length r| ≤ |rowDegrees a b lats.length k|) ∧
        phi r = Real.exp (-(rowDegrees a b lats.length r / unitDegrees) ^ 2 / 2) /
          Real.sqrt (2 * ∫ t in (a / unitDegrees)..(b / unitDegrees), Real.exp (-t ^ 2))) ∧
      (∀ j, j + 1 < lats.length →
        (0 < rowDegrees a b lats.length j + rowDegrees a b lats.length (j + 1) → phi (j + 1) < phi j) ∧
        (rowDegrees a b lats.length j + rowDegrees a b lats.length (j + 1) < 0 → phi j < phi (j + 1))) ∧
      (a = -b → ∀ j < lats.length, phi (lats.length - 1 - j) = phi j) := by
  have hn2 := length_two_of_lt ha hb hab.ne
  rw [kelvinStructure_eq lats a b ha hb]
  set n := lats.length with hn
  set E := unitDegrees with hEd
  have hE : 0 < E := unitDegrees_pos
  have hn0 : (0 : ℝ) < n := by exact_mod_cast (by omega : 0 < n)
  set y : ℕ → ℝ := fun j => rowDegrees a b n j / E with hy
  set d := 2 / ((b - a) / n / E) with hd
  have hbap : 0 < b - a := by linarith
  have hdeq : d = 2 * n * E / (b - a) := by rw [hd]; field_simp
  have hdpos : 0 < d := by rw [hdeq]; positivity
  obtain ⟨hr1, hr2, _⟩ := nearestRow_spec n y (by omega)
  have hrl : nearestRow n y ≠ n - 1 := by
    intro h; have := (nearest_last_iff hab hn2).mp h; linarith
  set r := nearestRow n y with hr
  have hyd : ∀ j, j < n → |y j| < d := by
    intro j hj
    obtain ⟨h1, h2⟩ := rowDegrees_mem hab hj
    have hA : |a| / E ≤ d := by
      rw [hdeq, div_le_div_iff₀ hE hbap]; nlinarith
    have hB : |b| / E ≤ d := by
      rw [hdeq, div_le_div_iff₀ hE hbap]; nlinarith
    rw [abs_lt]
    constructor
    · have : -|a| / E < y j := by
        rw [hy]; simp only
        apply div_lt_div_of_pos_right _ hE
        linarith [neg_abs_le a]
      rw [neg_div] at this
      linarith
    · have : y j < |b| / E := by
        rw [hy]; simp only
        apply div_lt_div_of_pos_right _ hE
        linarith [le_abs_self b]
      linarith
  have hm : ∀ j, j < n → d - y j ≠ 0 := fun j hj => by have := (abs_lt.mp (hyd j hj)).2; linarith
  have hp : ∀ j, j < n → d + y j ≠ 0 := fun j hj => by have := (abs_lt.mp (hyd j hj)).1; linarith
  rw [kelvinNorm_pos (div_lt_div_of_pos_right hab hE)]
  simp only [Option.map_some]
  obtain ⟨phi, h1, h2, h3⟩ := kelvinFill_ok n r d y
    (1 / Real.sqrt (2 * ∫ t in (a / E)..(b / E), Real.exp (-t ^ 2)) * Real.exp (-1 / 2 * y r * y r)) (by omega) hm hp
  have hint : 0 < ∫ t in (a / E)..(b / E), Real.exp (-t ^ 2) := by
    apply intervalIntegral.intervalIntegral_pos_of_pos_on
    · apply Continuous.intervalIntegrable
      fun_prop
    · intro t _; exact Real.exp_pos _
    · exact div_lt_div_of_pos_right hab hE
  have hrec : ∀ j, j + 1 < n → phi (j + 1) * (d + y (j + 1)) = phi j * (d - y j) := by
    intro j hj; rw [h3 j hj, div_mul_cancel₀ _ (hp (j + 1) hj)]
  have hmp : ∀ j, j < n → 0 < d - y j := fun j hj => by have := (abs_lt.mp (hyd j hj)).2; linarith
  have hpp : ∀ j, j < n → 0 < d + y j := fun j hj => by have := (abs_lt.mp (hyd j hj)).1; linarith
  -- positivity spreads in both directions from row r
  have hseed : 0 < phi r := by rw [h2]; positivity
  have hupos : ∀ i, r + i < n → 0 < phi (r + i) := by
    intro i
    induction i with
    | zero => intro _; exact hseed
    | succ i ih =>
      intro hi
      rw [← Nat.add_assoc, h3 (r + i) (by omega)]
      exact div_pos (mul_pos (ih (by omega)) (hmp _ (by omega))) (hpp _ (by omega))
  have hdpos' : ∀ i, i ≤ r → 0 < phi (r - i) := by
    intro i
    induction i with
    | zero => intro _; exact hseed
    | succ i ih =>
      intro hi
      have h4 := hrec (r - (i + 1)) (by omega)
      have e : r - (i + 1) + 1 = r - i := by omega
      rw [e] at h4
      have h5 : 0 < phi (r - i) * (d + y (r - i)) := mul_pos (ih (by omega)) (hpp _ (by omega))
      rw [h4] at h5
      exact (pos_iff_pos_of_mul_pos h5).mpr (hmp _ (by omega))
  have hpos : ∀ j, j < n → 0 < phi j := by
    intro j hj
    rcases Nat.lt_or_ge j r with h | h
    · have := hdpos' (r - j) (by omega)
      rwa [show r - (r - j) = j by omega] at this
    · have := hupos (j - r) (by omega)
      rwa [show r + (j - r) = j by omega] at this
  refine ⟨phi, h1, hpos, ?_, ⟨r, hr1, ?_, ?_⟩, ?_, ?_⟩
  · intro j hj
    have h4 := hrec j hj
    have hs : (phi (j + 1) - phi j) / ((b - a) / n / E) = (phi (j + 1) - phi j) * d / 2 := by
      rw [hd]; field_simp
    rw [← hEd, hs]
    have : y j = rowDegrees a b n j / E := rfl
    have : y (j + 1) = rowDegrees a b n (j + 1) / E := rfl
    linear_combination h4 / 2
  · intro k hk
    have := hr2 k hk
    rw [hy] at this
    simp only at this
    rwa [abs_div, abs_div, abs_of_pos hE, div_le_div_iff_of_pos_right hE] at this
  · rw [h2, one_div, inv_mul_eq_div]
    congr 2
    show -1 / 2 * y r * y r = -(y r) ^ 2 / 2
    ring
  · intro j hj
    have h4 := hrec j hj
    have hp1 := hpos j (by omega)
    have hp2 := hpos (j + 1) hj
    have hsum : y j + y (j + 1) = (rowDegrees a b n j + rowDegrees a b n (j + 1)) / E := by
      rw [hy]; simp only; ring
    constructor
    · intro h
      have h5 : 0 < y j + y (j + 1) := by rw [hsum]; exact div_pos h hE
      by_contra hc
      push Not at hc
      have h6 := mul_le_mul_of_nonneg_right hc (hpp (j + 1) hj).le
      rw [h4] at h6
      have h7 : 0 < phi j * (y j + y (j + 1)) := mul_pos hp1 h5
      linarith
    · intro h
      have h5 : y j + y (j + 1) < 0 := by rw [hsum]; exact div_neg_of_neg_of_pos h hE
      by_contra hc
      push Not at hc
      have h6 := mul_le_mul_of_nonneg_right hc (hpp (j + 1) hj).le
      rw [h4] at h6
      have h7 : 0 < phi j * -(y j + y (j + 1)) := mul_pos hp1 (by linarith)
      linarith
  · intro hsym
    have hmir : ∀ j, j < n → y (n - 1 - j) = -y j := by
      intro j hj
      rw [hy]
      simp only
      rw [← neg_div]
      congr 1
      unfold rowDegrees
      rw [Nat.cast_sub (by omega), Nat.cast_sub (by omega), hsym]
      field_simp
      push_cast
      ring
    -- the mirrored values satisfy the same recurrence
    have hrec' : ∀ j, j + 1 < n → phi (n - 1 - (j + 1)) * (d + y (j + 1)) = phi (n - 1 - j) * (d - y j) := by
      intro j hj
      have h4 := hrec (n - 1 - (j + 1)) (by omega)
      rw [show n - 1 - (j + 1) + 1 = n - 1 - j by omega, hmir (j + 1) hj, hmir j (by omega)] at h4
      linear_combination -h4
    have hratio : ∀ j, j < n → phi (n - 1 - j) * phi 0 = phi (n - 1) * phi j := by
      intro j
      induction j with
      | zero => intro _; simp
      | succ j ih =>
        intro hj
        have h4 := ih (by omega)
        have h5 := hrec j hj
        have h6 := hrec' j hj
        have hne := hp (j + 1) hj
        apply mul_right_cancel₀ hne
        linear_combination phi 0 * h6 - phi (n - 1) * h5 + (d - y j) * h4
    have hend : phi 0 = phi (n - 1) := by
      have h4 := hratio (n - 1) (by omega)
      rw [show n - 1 - (n - 1) = 0 by omega] at h4
      have p0 := hpos 0 (by omega)
      have p1 := hpos (n - 1) (by omega)
      nlinarith
    intro j hj
    have h4 := hratio j hj
    rw [← hend] at h4
    have p0 := hpos 0 (by omega)
    rw [mul_comm (phi 0)] at h4
    exact mul_right_cancel₀ p0.ne' h4

/-- C160.  Ascending latitudes raise an IndexError exactly when the last one is less than one row north of the equator. -/
theorem C160_raises_counterexample (lats : List ℝ) (a b : ℝ) (ha : lats.head? = some a) (hb : lats.getLast? = some b)
    (hab : a < b) (hout : b < (b - a) / lats.length) : kelvinStructure lats = .error .indexError := by
  have hn2 := length_two_of_lt ha hb hab.ne
  rw [kelvinStructure_eq lats a b ha hb]
  have := (nearest_last_iff (n := lats.length) hab hn2).mpr hout
  rw [this]
  exact kelvinFill_last _ _ _ _ (by omega)

/-- C160.  Descending latitudes: no exception names the problem, but no value of the structure is a number (or an IndexError
    is raised). -/
theorem C160_descending_counterexample (lats : List ℝ) (a b : ℝ) (ha : lats.head? = some a)
    (hb : lats.getLast? = some b) (hab : b < a) :
    kelvinStructure lats = .ok (List.replicate lats.length none) ∨ kelvinStructure lats = .error .indexError := by
  have hn2 := length_two_of_lt ha hb hab.ne'
  rw [kelvinStructure_eq lats a b ha hb, kelvinNorm_desc (div_lt_div_of_pos_right hab unitDegrees_pos)]
  obtain ⟨h1, _⟩ := nearestRow_spec lats.length (fun j => rowDegrees a b lats.length j / unitDegrees) (by omega)
  set r := nearestRow lats.length (fun j => rowDegrees a b lats.length j / unitDegrees) with hr
  simp only [Option.map_none]
  rcases Nat.lt_or_ge (r + 1) lats.length with h | h
  · left; exact kelvinFill_none _ _ _ _ h
  · right
    have : r = lats.length - 1 := by omega
    rw [this]
    exact kelvinFill_last _ _ _ _ (by omega)

theorem unitDegrees_sq_lt : unitDegrees ^ 2 < 11 := by
  have h1 : Real.sqrt (0.0981 * 90) < 3 := by
    rw [Real.sqrt_lt' (by norm_num)]; norm_num
  have h0 : 0 ≤ Real.sqrt (0.0981 * 90) := Real.sqrt_nonneg _
  unfold unitDegrees
  rw [div_pow, Real.sq_sqrt (by positivity), div_lt_iff₀ (by norm_num), div_lt_iff₀ (by norm_num)]
  norm_num at h1 ⊢
  linarith

/-- C160.  Latitudes that are too coarse: from 20 S to 20 N in steps of ten degrees the structure is negative at 20 N. -/
theorem C160_coarse_counterexample :
    ∃ phi : ℕ → ℝ, kelvinStructure [-20, -10, 0, 10, 20] = .ok ((List.range 5).map (fun j => some (phi j))) ∧
      0 < phi 3 ∧ phi 4 < 0 := by
  have hE : 0 < unitDegrees := unitDegrees_pos
  have hE2 := unitDegrees_sq_lt
  rw [kelvinStructure_eq [-20, -10, 0, 10, 20] (-20) 20 rfl rfl]
  have hlen : ([-20, -10, 0, 10, 20] : List ℝ).length = 5 := rfl
  rw [hlen]
  set E := unitDegrees with hEd
  set y : ℕ → ℝ := fun j => rowDegrees (-20) 20 5 j / E with hy
  obtain ⟨hr1, hr2, hr3⟩ := nearestRow_spec 5 y (by norm_num)
  have hrow : ∀ j : ℕ, rowDegrees (-20) 20 5 j = -16 + 8 * j := by
    intro j; unfold rowDegrees; push_cast; ring
  have hyj : ∀ j : ℕ, y j = (-16 + 8 * j) / E := by
    intro j; rw [hy]; simp only; rw [hrow]
  have hr : nearestRow 5 y = 2 := by
    have h := hr2 2 (by norm_num)
    rw [hyj 2, show ((-16 + 8 * ((2 : ℕ) : ℝ)) / E) = 0 by norm_num, abs_zero, abs_nonpos_iff, hyj] at h
    rw [div_eq_zero_iff] at h
    rcases h with h | h
    · have : ((nearestRow 5 y : ℕ) : ℝ) = 2 := by linarith
      exact_mod_cast this
    · exact absurd h hE.ne'
  rw [hr, kelvinNorm_pos (div_lt_div_of_pos_right (by norm_num) hE)]
  simp only [Option.map_some]
  set d := 2 / ((20 - -20) / ((5 : ℕ) : ℝ) / E) with hd
  have hdeq : d = E / 4 := by rw [hd]; push_cast; field_simp; norm_num
  have hne : ∀ c : ℝ, E * E ≠ 4 * c → d - c / E ≠ 0 := by
    intro c hc h
    rw [hdeq] at h
    apply hc
    field_simp at h
    linarith
  have hm : ∀ j, j < 5 → d - y j ≠ 0 := by
    intro j hj
    rw [hyj]
    apply hne
    intro h
    interval_cases j <;> norm_num at h <;> nlinarith
  have hp : ∀ j, j < 5 → d + y j ≠ 0 := by
    intro j hj
    rw [hyj, show d + (-16 + 8 * (j : ℝ)) / E = d - (16 - 8 * j) / E by ring]
    apply hne
    intro h
    interval_cases j <;> norm_num at h <;> nlinarith
  obtain ⟨phi, h1, h2, h3⟩ := kelvinFill_ok 5 2 d y _ (by norm_num) hm hp
  refine ⟨phi, h1, ?_, ?_⟩
  all_goals
    have hint : 0 < ∫ t in (-20 / E)..(20 / E), Real.exp (-t ^ 2) := by
      apply intervalIntegral.intervalIntegral_pos_of_pos_on
      · apply Continuous.intervalIntegrable
        fun_prop
      · intro t _; exact Real.exp_pos _
      · exact div_lt_div_of_pos_right (by norm_num) hE
    have hp2 : 0 < phi 2 := by rw [h2]; positivity
    have hdp : 0 < d := by rw [hdeq]; positivity
    have y2 : y 2 = 0 := by rw [hyj]; norm_num
    have y3 : y 3 = 8 / E := by rw [hyj]; norm_num
    have y4 : y 4 = 16 / E := by rw [hyj]; norm_num
    have hp3 : 0 < phi 3 := by
      rw [h3 2 (by norm_num), y2, y3]
      have : 0 < 8 / E := by positivity
      rw [sub_zero]
      positivity
  · exact hp3
  · rw [h3 3 (by norm_num), y3, y4]
    have h4 : 0 < d + 16 / E := by positivity
    have h5 : d - 8 / E < 0 := by
      rw [hdeq, sub_neg, div_lt_div_iff₀ (by norm_num) hE]
      nlinarith
    exact div_neg_of_neg_of_pos (mul_neg_of_pos_of_neg hp3 h5) h4

/-- C160.  The rows are not the latitudes of the data: on evenly spaced latitudes only the middle row is in its place. -/
theorem C160_rows_counterexample (a b : ℝ) (n j : ℕ) (hab : a < b) (hn : 2 ≤ n) :
    rowDegrees a b n j = a + j * ((b - a) / (n - 1)) ↔ 2 * j + 1 = n := by
  have hn1 : (0 : ℝ) < (n : ℝ) - 1 := by
    have : (2 : ℝ) ≤ n := by exact_mod_cast hn
    linarith
  have hn0 : (0 : ℝ) < n := by linarith
  have hba : b - a ≠ 0 := by linarith
  unfold rowDegrees
  have key : (a + (j + 1 / 2) * ((b - a) / n)) - (a + j * ((b - a) / (n - 1))) =
      (b - a) * (n - 1 - 2 * j) / (2 * n * (n - 1)) := by
    field_simp
    ring
  constructor
  · intro h
    rw [h, sub_self, eq_comm, div_eq_zero_iff] at key
    rcases key with h1 | h1
    · rcases mul_eq_zero.mp h1 with h2 | h2
      · exact absurd h2 hba
      · have : ((2 * j + 1 : ℕ) : ℝ) = n := by push_cast; linarith
        exact_mod_cast this
    · have : 0 < 2 * (n : ℝ) * (n - 1) := by positivity
      linarith
  · intro h
    have : (n : ℝ) = 2 * j + 1 := by rw [← h]; push_cast; ring
    have e : ((n : ℝ) - 1 - 2 * j) = 0 := by linarith
    rw [e] at key
    linarith [key, show (b - a) * 0 / (2 * (n : ℝ) * (n - 1)) = 0 by simp]

/-- C160.  The wind power is the structure times the product of current and stress, row by row; it is missing exactly
    where one of the four fields or the structure is missing. -/
theorem C160_power (phi u v tx ty : List (Option ℝ)) (i : ℕ) (hi : i < phi.length) :
    (windPower phi u v tx ty).length = phi.length ∧
    (∀ p a b c d : ℝ, phi[i]? = some (some p) → u[i]? = some (some a) → v[i]? = some (some b) → tx[i]? = some (some c) →
      ty[i]? = some (some d) → (windPower phi u v tx ty)[i]? = some (some (p * (a * c + b * d)))) ∧
    ((phi[i]? = some none ∨ u[i]? = some none ∨ v[i]? = some none ∨ tx[i]? = some none ∨ ty[i]? = some none) →
      (windPower phi u v tx ty)[i]? = some none) := by
  unfold windPower
  refine ⟨by simp, ?_, ?_⟩
  · intro p a b c d h1 h2 h3 h4 h5
    rw [List.getElem?_map, List.getElem?_range hi]
    simp only [Option.map_some, List.getD_eq_getElem?_getD, h1, h2, h3, h4, h5, Option.getD_some, oadd, omul,
      Option.bind_some]
    congr 2
    ring
  · intro h
    rw [List.getElem?_map, List.getElem?_range hi]
    simp only [Option.map_some, List.getD_eq_getElem?_getD]
    congr 1
    rcases h with h | h | h | h | h <;> rw [h] <;> simp only [Option.getD_some, oadd, omul]
    · rcases (u[i]?.getD none) with _ | _ <;> rfl
    · rfl
    · rw [Option.bind_eq_none_iff]; intros; rfl
    · have : ((u[i]?.getD none).bind fun x => Option.map (fun y => x * y) (phi[i]?.getD none)).bind
          (fun x => Option.map (fun y => x * y) none) = none := by
        rw [Option.bind_eq_none_iff]; intros; rfl
      rw [this]; rfl
    · rw [Option.bind_eq_none_iff]; intro x _
      have : ((v[i]?.getD none).bind fun x => Option.map (fun y => x * y) (phi[i]?.getD none)).bind
          (fun x => Option.map (fun y => x * y) none) = none := by
        rw [Option.bind_eq_none_iff]; intros; rfl
      rw [this]; rfl

theorem unitDegrees_sq_gt : 9 < unitDegrees ^ 2 := by
  have h1 : 2.9 < Real.sqrt (0.0981 * 90) := by
    rw [Real.lt_sqrt (by norm_num)]; norm_num
  unfold unitDegrees
  rw [div_pow, Real.sq_sqrt (by positivity), lt_div_iff₀ (by norm_num), lt_div_iff₀ (by norm_num)]
  norm_num at h1 ⊢
  linarith

/-- Five latitudes from 5 S to 5 N satisfy the hypotheses of the structure theorem. -/
example : let lats : List ℝ := [-5, -2.5, 0, 2.5, 5]
    lats.head? = some (-5) ∧ lats.getLast? = some 5 ∧ (5 - -5) / (lats.length : ℝ) ≤ 5 ∧
    |(-5 : ℝ)| * (5 - -5) ≤ 2 * lats.length * unitDegrees ^ 2 := by
  have := unitDegrees_sq_gt
  refine ⟨rfl, rfl, ?_, ?_⟩
  · norm_num
  · rw [abs_of_neg (by norm_num)]
    norm_num
    linarith

/-- 20 S to the equator raises. -/
example : kelvinStructure [-20, -15, -10, -5, 0] = .error .indexError :=
  C160_raises_counterexample _ (-20) 0 rfl rfl (by norm_num) (by norm_num)

end Props

end Metcalcpy
