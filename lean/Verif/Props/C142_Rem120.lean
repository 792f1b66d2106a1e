/-
C142  The mean of the last 120 days is removed.
C145  Grids that differ from the grid of the EOFs are rejected.
C146  The indices are the least squares coefficients of the two patterns.
-/
import Verif.Model.MjoIndex
import Mathlib.Tactic.Linarith
import Mathlib.Tactic.FieldSimp
import Mathlib.Tactic.Ring
import Mathlib.Tactic.Positivity
import Mathlib.Tactic.LinearCombination

namespace Metcalcpy.Props
open Metcalcpy

/-- The mean of the values present at those times up to step `i` that are at most 120 days before it. -/
def meanLast120Days (t : ℕ → ℚ) (x : ℕ → Cell) (i : ℕ) : Cell :=
  let vals := ((List.range (i + 1)).filter fun j => decide (t i - t j ≤ 120)).filterMap x
  if vals = [] then none else some (vals.sum / vals.length)

theorem filter_range_ge (k n : ℕ) : (List.range n).filter (fun j => decide (k ≤ j)) = (List.range n).drop k := by
  induction n with
  | zero => simp
  | succ n ih =>
    rw [List.range_succ, List.filter_append, ih]
    by_cases h : k ≤ n
    · rw [List.drop_append_of_le_length (by simpa using h)]
      simp [h]
    · rw [List.drop_eq_nil_of_le (by simp; omega), List.drop_eq_nil_of_le (by simp; omega)]
      simp [h]

theorem take_eq_range_map {α : Type} (l : List α) (d : α) (n : ℕ) (h : n ≤ l.length) :
    l.take n = (List.range n).map fun j => l.getD j d := by
  apply List.ext_getElem
  · simp [h]
  · intro i h1 h2
    have : i < l.length := by simp at h1; omega
    simp [List.getElem?_eq_getElem this]

theorem truncInt_nonneg {q : ℚ} (h : 0 ≤ q) : 0 ≤ truncInt q := by
  unfold truncInt; rw [if_pos h]; exact Int.floor_nonneg.mpr h

theorem le_truncInt {q : ℚ} (h : 0 ≤ q) (k : ℤ) : k ≤ truncInt q ↔ (k : ℚ) ≤ q := by
  unfold truncInt; rw [if_pos h]; exact Int.le_floor

/-- The window of the code holds the values at most `n` steps back. -/
theorem window120_eq (n : ℤ) (hn : 0 ≤ n) (col : List Cell) (i : ℕ) (hi : i < col.length) :
    window120 n col i = ((List.range (i + 1)).filter fun j : ℕ => decide ((i : ℤ) - j ≤ n)).map fun j => col.getD j none := by
  obtain ⟨m, rfl⟩ := Int.eq_ofNat_of_zero_le hn
  have h1 : (List.range (i + 1)).filter (fun j : ℕ => decide ((i : ℤ) - j ≤ (m : ℤ))) =
      (List.range (i + 1)).filter (fun j => decide (i - m ≤ j)) := by
    apply List.filter_congr
    intro j _
    apply decide_eq_decide.mpr
    omega
  rw [h1, filter_range_ge, List.map_drop, ← take_eq_range_map col none (i + 1) (by omega)]
  unfold window120
  split
  · congr 1; omega
  · rename_i h
    have : i - m = 0 := by omega
    rw [this, List.drop_zero]

theorem nanMean_filterMap (xs : List Cell) :
    nanMean xs = if xs.filterMap id = [] then none else some ((xs.filterMap id).sum / (xs.filterMap id).length) := by
  unfold nanMean
  simp only [List.length_eq_zero_iff]

/-- C142, proved for equally spaced times: from every value present, the mean of the values of the last 120 days, itself
included, is subtracted; missing values stay missing. -/
theorem C142_remove_partial (t0 dt : ℚ) (hdt : 0 < dt) (col : List Cell) (h2 : 2 ≤ col.length) :
    ∃ out, rem120dayMean ((List.range col.length).map fun i : ℕ => t0 + i * dt) col = .ok out ∧ out.length = col.length ∧
      ∀ i : ℕ, i < col.length → out[i]? = some ((col.getD i none).bind fun x =>
        (meanLast120Days (fun i => t0 + i * dt) (fun j => col.getD j none) i).map fun m => x - m) := by
  obtain ⟨n, hn⟩ : ∃ n, col.length = n + 2 := ⟨col.length - 2, by omega⟩
  have hts : ((List.range col.length).map fun i : ℕ => t0 + i * dt) =
      (t0 + (0 : ℕ) * dt) :: (t0 + (1 : ℕ) * dt) :: ((List.range n).map fun i : ℕ => t0 + ((i + 2 : ℕ) : ℚ) * dt) := by
    rw [hn, List.range_succ_eq_map, List.range_succ_eq_map]
    simp only [List.map_map, List.map_cons, Function.comp_def]
  have hlen : ((t0 + ((0 : ℕ) : ℚ) * dt) :: (t0 + ((1 : ℕ) : ℚ) * dt) ::
      ((List.range n).map fun i : ℕ => t0 + ((i + 2 : ℕ) : ℚ) * dt)).length = col.length := by simp [hn]
  have hd : t0 + ((1 : ℕ) : ℚ) * dt - (t0 + ((0 : ℕ) : ℚ) * dt) = dt := by push_cast; ring
  rw [hts]
  unfold rem120dayMean
  simp only [hd]
  rw [if_neg (ne_of_gt hdt), if_neg (by rw [hlen]; omega)]
  refine ⟨_, rfl, by simp, ?_⟩
  intro i hi
  rw [List.getElem?_mapIdx, List.getElem?_eq_getElem hi, Option.map_some]
  rw [if_pos (by rw [hlen]; exact hi)]
  have hq : (0 : ℚ) ≤ 120 / dt := by positivity
  have hg : col.getD i none = col[i] := by simp [List.getElem?_eq_getElem hi]
  have hm : nanMean (window120 (truncInt (120 / dt)) col i) =
      meanLast120Days (fun i => t0 + i * dt) (fun j => col.getD j none) i := by
    rw [window120_eq _ (truncInt_nonneg hq) col i hi, nanMean_filterMap]
    unfold meanLast120Days
    have hf : (List.range (i + 1)).filter (fun j : ℕ => decide ((i : ℤ) - j ≤ truncInt (120 / dt))) =
        (List.range (i + 1)).filter (fun j : ℕ => decide (t0 + (i : ℚ) * dt - (t0 + (j : ℚ) * dt) ≤ 120)) := by
      apply List.filter_congr
      intro j _
      apply decide_eq_decide.mpr
      rw [le_truncInt hq, le_div_iff₀ hdt]
      push_cast
      constructor <;> intro h <;> nlinarith
    rw [hf, List.filterMap_map]
    rfl
  rw [hm, hg]
  cases col[i] with
  | none => rfl
  | some x => cases meanLast120Days (fun i => t0 + i * dt) (fun j => col.getD j none) i <;> rfl

/-- C142 is false for other times: only the first spacing is looked at. Here the third value lies 199 days after the others,
yet their mean is removed. -/
theorem C142_spacing_counterexample :
    rem120dayMean [0, 1, 200] [some 3, some 3, some 9] = .ok [some 0, some 0, some 4] ∧
      meanLast120Days (fun i => [0, 1, 200].getD i 0) (fun i => [some 3, some 3, some 9].getD i none) 2 = some 9 := by
  decide +kernel

example : rem120dayMean [0, 60, 120, 180] [some 4, none, some 8, some 6] = .ok [some 0, none, some 2, some (-1)] := by
  decide +kernel

/-! ### grids -/

/-- C145 is false: no grid is ever rejected. xarray compares the coordinates only where both have the same label, and there they
are equal. -/
theorem C145_counterexample (a b : List ℚ) : gridsAgree a b = true := by
  unfold gridsAgree alignedEqual
  rw [List.all_eq_true]
  intro x hx
  rw [List.mem_map] at hx
  obtain ⟨y, hy, rfl⟩ := hx
  have hmem : y ∈ a ∧ y ∈ b := by
    split at hy
    · rename_i h; exact ⟨hy, h ▸ hy⟩
    · rw [List.mem_filter] at hy
      exact ⟨hy.1, of_decide_eq_true hy.2⟩
  have h : ∀ l : List ℚ, y ∈ l → l.getD (l.idxOf y) 0 = y := by
    intro l hl
    have hlt := List.idxOf_lt_length_iff.mpr hl
    simp [List.getElem?_eq_getElem hlt]
  rw [h a hmem.1, h b hmem.2]
  simp

/-- With latitudes in the opposite order the field that equals the first pattern projects on the second. -/
theorem C145_reversed_counterexample :
    gridsAgree [-20, 0, 20] [20, 0, -20] = true ∧
      regressOntoEofs [1, 0, 0] [1, 0, 0] [0, 0, 1] = .ok (some (1, 0)) ∧
      regressOntoEofs [1, 0, 0].reverse [1, 0, 0] [0, 0, 1] = .ok (some (0, 1)) := by
  decide +kernel

/-! ### projection -/

/-- Squared distance of a field to a combination of two patterns. -/
def misfit (v e1 e2 : List ℚ) (a b : ℚ) : ℚ :=
  ((v.zip (e1.zip e2)).map fun p => (p.1 - a * p.2.1 - b * p.2.2) ^ 2).sum

theorem misfit_expand (v e1 e2 : List ℚ) (a b : ℚ) (h1 : v.length = e1.length) (h2 : e1.length = e2.length) :
    misfit v e1 e2 a b = dotQ v v - 2 * a * dotQ e1 v - 2 * b * dotQ e2 v + a ^ 2 * dotQ e1 e1 + 2 * a * b * dotQ e1 e2 +
      b ^ 2 * dotQ e2 e2 := by
  induction v generalizing e1 e2 with
  | nil =>
    have : e1 = [] := List.length_eq_zero_iff.mp h1.symm
    subst this
    have : e2 = [] := List.length_eq_zero_iff.mp h2.symm
    subst this
    simp [misfit, dotQ]
  | cons x v ih =>
    cases e1 with
    | nil => simp at h1
    | cons y e1 =>
      cases e2 with
      | nil => simp at h2
      | cons z e2 =>
        have := ih e1 e2 (by simpa using h1) (by simpa using h2)
        unfold misfit dotQ at this ⊢
        simp only [List.zip_cons_cons, List.map_cons, List.sum_cons, List.zipWith_cons_cons]
        rw [this]
        ring

theorem misfit_nonneg (v e1 e2 : List ℚ) (a b : ℚ) : 0 ≤ misfit v e1 e2 a b := by
  unfold misfit
  apply List.sum_nonneg
  intro x hx
  rw [List.mem_map] at hx
  obtain ⟨p, _, rfl⟩ := hx
  positivity

theorem dotQ_comm (x y : List ℚ) : dotQ x y = dotQ y x := by
  unfold dotQ
  rw [List.zipWith_comm]
  congr 2
  funext a b
  ring

/-- The quadratic form of the Gram matrix is not negative. -/
theorem gram_nonneg (e1 e2 : List ℚ) (h : e1.length = e2.length) (a b : ℚ) :
    0 ≤ a ^ 2 * dotQ e1 e1 + 2 * a * b * dotQ e1 e2 + b ^ 2 * dotQ e2 e2 := by
  have := misfit_nonneg (List.replicate e1.length 0) e1 e2 a b
  rw [misfit_expand _ _ _ _ _ (by simp) h] at this
  have h0 : ∀ (y : List ℚ) (n : ℕ), dotQ y (List.replicate n 0) = 0 := by
    intro y
    induction y with
    | nil => intro n; simp [dotQ]
    | cons c y ih =>
      intro n
      cases n with
      | zero => simp [dotQ]
      | succ n =>
        have := ih n
        unfold dotQ at this ⊢
        simp [List.replicate_succ, this]
  rw [h0, h0, h0] at this
  linarith

/-- C146: for two patterns that are not multiples of each other, the two coefficients fit the field best, and every other pair
fits it strictly worse. -/
theorem C146_least_squares (v e1 e2 : List ℚ) (h1 : v.length = e1.length) (h2 : e1.length = e2.length)
    (hdet : dotQ e1 e1 * dotQ e2 e2 ≠ dotQ e1 e2 * dotQ e1 e2) :
    ∃ p q, regressOntoEofs v e1 e2 = .ok (some (p, q)) ∧
      ∀ a b, (a, b) ≠ (p, q) → misfit v e1 e2 p q < misfit v e1 e2 a b := by
  have hd : dotQ e1 e1 * dotQ e2 e2 - dotQ e1 e2 * dotQ e1 e2 ≠ 0 := sub_ne_zero.mpr hdet
  unfold regressOntoEofs
  rw [if_neg (by simp [h1, h2])]
  simp only [hd, if_false]
  refine ⟨_, _, rfl, ?_⟩
  intro a b hab
  have hg := gram_nonneg e1 e2 h2
  rw [misfit_expand v e1 e2 _ _ h1 h2, misfit_expand v e1 e2 _ _ h1 h2]
  generalize dotQ e1 e1 = A at *
  generalize dotQ e2 e2 = C at *
  generalize dotQ e1 e2 = B at *
  generalize dotQ e1 v = U at *
  generalize dotQ e2 v = W at *
  generalize dotQ v v = V at *
  set p := (U * C - W * B) / (A * C - B * B) with hp
  set q := (W * A - U * B) / (A * C - B * B) with hq
  have e1' : A * p + B * q = U := by rw [hp, hq, ← mul_div_assoc, ← mul_div_assoc, ← add_div, div_eq_iff hd]; ring
  have e2' : B * p + C * q = W := by rw [hp, hq, ← mul_div_assoc, ← mul_div_assoc, ← add_div, div_eq_iff hd]; ring
  -- the difference is the quadratic form at (a - p, b - q)
  have key : (V - 2 * a * U - 2 * b * W + a ^ 2 * A + 2 * a * b * B + b ^ 2 * C) -
      (V - 2 * p * U - 2 * q * W + p ^ 2 * A + 2 * p * q * B + q ^ 2 * C) =
      (a - p) ^ 2 * A + 2 * (a - p) * (b - q) * B + (b - q) ^ 2 * C := by
    rw [← e1', ← e2']; ring
  -- positivity of the form
  have hA : 0 ≤ A := by have := hg 1 0; linarith
  have hC : 0 ≤ C := by have := hg 0 1; linarith
  have hdet0 : 0 ≤ A * C - B * B := by
    by_cases hA0 : A = 0
    · have h1 := hg (-(B)) 0
      have h3 := hg (-(C + 1) * B) 1
      have h4 := hg ((C + 1)) (-B)
      subst hA0
      nlinarith [sq_nonneg B, mul_self_nonneg (B)]
    · have hApos : 0 < A := lt_of_le_of_ne hA (Ne.symm hA0)
      have h3 := hg (-B) A
      have : 0 ≤ A * (A * C - B * B) := by nlinarith
      exact nonneg_of_mul_nonneg_right this hApos
  have hdpos : 0 < A * C - B * B := lt_of_le_of_ne hdet0 (Ne.symm hd)
  have hApos : 0 < A := by
    rcases lt_or_eq_of_le hA with h | h
    · exact h
    · rw [← h] at hdpos; nlinarith [mul_self_nonneg B]
  have hne : a - p ≠ 0 ∨ b - q ≠ 0 := by
    by_contra hcon
    rw [not_or, not_not, not_not] at hcon
    exact hab (Prod.ext (by linarith [hcon.1]) (by linarith [hcon.2]))
  generalize a - p = x at *
  generalize b - q = y at *
  have hpos : 0 < A * (x ^ 2 * A + 2 * x * y * B + y ^ 2 * C) := by
    have : A * (x ^ 2 * A + 2 * x * y * B + y ^ 2 * C) = (A * x + B * y) ^ 2 + (A * C - B * B) * y ^ 2 := by ring
    rw [this]
    by_cases hy : y = 0
    · subst hy
      have hx : x ≠ 0 := by simpa using hne
      have : 0 < (A * x) ^ 2 := by positivity
      simpa using this
    · have : 0 < (A * C - B * B) * y ^ 2 := by positivity
      nlinarith [sq_nonneg (A * x + B * y)]
  have := (mul_pos_iff_of_pos_left hApos).mp hpos
  linarith

theorem dotQ_comb (y e1 e2 : List ℚ) (a b : ℚ) (h1 : y.length = e1.length) (h2 : e1.length = e2.length) :
    dotQ y (List.zipWith (fun s t => a * s + b * t) e1 e2) = a * dotQ y e1 + b * dotQ y e2 := by
  induction y generalizing e1 e2 with
  | nil => simp [dotQ]
  | cons x y ih =>
    cases e1 with
    | nil => simp at h1
    | cons s e1 =>
      cases e2 with
      | nil => simp at h2
      | cons t e2 =>
        have := ih e1 e2 (by simpa using h1) (by simpa using h2)
        unfold dotQ at this ⊢
        simp only [List.zipWith_cons_cons, List.sum_cons]
        rw [this]
        ring

/-- C146: a field that is a combination of the two patterns yields its own coefficients. -/
theorem C146_recovers (e1 e2 : List ℚ) (a b : ℚ) (h2 : e1.length = e2.length)
    (hdet : dotQ e1 e1 * dotQ e2 e2 ≠ dotQ e1 e2 * dotQ e1 e2) :
    regressOntoEofs (List.zipWith (fun s t => a * s + b * t) e1 e2) e1 e2 = .ok (some (a, b)) := by
  have hd : dotQ e1 e1 * dotQ e2 e2 - dotQ e1 e2 * dotQ e1 e2 ≠ 0 := sub_ne_zero.mpr hdet
  unfold regressOntoEofs
  rw [if_neg (by simp [h2])]
  simp only [hd, if_false]
  rw [dotQ_comb e1 e1 e2 a b rfl h2, dotQ_comb e2 e1 e2 a b h2.symm h2, dotQ_comm e2 e1]
  congr 3
  · rw [div_eq_iff hd]; ring
  · rw [div_eq_iff hd]; ring

/-- C146, for RMM: when each of the three fields is, in its own units, the combination `a`, `b` of its parts of the two
patterns, the index is `a` and `b` in units of the normalization. -/
theorem C146_rmm (a b : ℚ) (e1 e2 : List ℚ × List ℚ × List ℚ) (norm : ℚ × ℚ × ℚ) (pcNorm : ℚ × ℚ)
    (hl : e1.1.length = e2.1.length ∧ e1.2.1.length = e2.2.1.length ∧ e1.2.2.length = e2.2.2.length)
    (hn : norm.1 ≠ 0 ∧ norm.2.1 ≠ 0 ∧ norm.2.2 ≠ 0)
    (hdet : dotQ (e1.1 ++ e1.2.1 ++ e1.2.2) (e1.1 ++ e1.2.1 ++ e1.2.2) * dotQ (e2.1 ++ e2.2.1 ++ e2.2.2) (e2.1 ++ e2.2.1 ++ e2.2.2) ≠
      dotQ (e1.1 ++ e1.2.1 ++ e1.2.2) (e2.1 ++ e2.2.1 ++ e2.2.2) * dotQ (e1.1 ++ e1.2.1 ++ e1.2.2) (e2.1 ++ e2.2.1 ++ e2.2.2)) :
    rmmAt (List.zipWith (fun s t => norm.1 * (a * s + b * t)) e1.1 e2.1)
      (List.zipWith (fun s t => norm.2.1 * (a * s + b * t)) e1.2.1 e2.2.1)
      (List.zipWith (fun s t => norm.2.2 * (a * s + b * t)) e1.2.2 e2.2.2) e1 e2 norm pcNorm =
      .ok (some (a / pcNorm.1, b / pcNorm.2)) := by
  have hz : ∀ (n : ℚ), n ≠ 0 → ∀ x y : List ℚ,
      (List.zipWith (fun s t => n * (a * s + b * t)) x y).map (· / n) = List.zipWith (fun s t => a * s + b * t) x y := by
    intro n hn x y
    rw [List.map_zipWith]
    congr 1
    funext s t
    field_simp
  unfold rmmAt
  rw [hz _ hn.1, hz _ hn.2.1, hz _ hn.2.2, ← List.zipWith_append hl.1, ← List.zipWith_append (by simp [hl.1, hl.2.1]),
    C146_recovers _ _ a b (by simp [hl.1, hl.2.1, hl.2.2]) hdet]
  show Except.ok _ = _
  simp [div_eq_mul_inv]

/-- C146, for OMI: every day is projected onto the patterns of its own day of the year. -/
theorem C146_daily (data : List (ℕ × List ℚ)) (eof1 eof2 : List (List ℚ)) (out : List (Option (ℚ × ℚ)))
    (h : regressDaily data eof1 eof2 = .ok out) :
    List.Forall₂ (fun d r => ∃ e1 e2, eof1[d.1 - 1]? = some e1 ∧ eof2[d.1 - 1]? = some e2 ∧
      regressOntoEofs d.2 e1 e2 = .ok r) data out := by
  unfold regressDaily at h
  induction data generalizing out with
  | nil => 
    simp only [List.mapM_nil] at h
    cases h
    exact .nil
  | cons d data ih =>
    rw [List.mapM_cons] at h
    cases hd : regressDay eof1 eof2 d with
    | error e => rw [hd] at h; cases h
    | ok r =>
      rw [hd] at h
      change (List.mapM (regressDay eof1 eof2) data >>= fun rs => (pure (r :: rs) : Except PyErr _)) = _ at h
      cases hr : List.mapM (regressDay eof1 eof2) data with
      | error e => rw [hr] at h; cases h
      | ok rs =>
        rw [hr] at h
        change Except.ok (r :: rs) = Except.ok out at h
        cases h
        refine .cons ?_ (ih rs hr)
        unfold regressDay at hd
        cases h1 : eof1[d.1 - 1]? with
        | none => rw [h1] at hd; cases hd
        | some e1 =>
          cases h2 : eof2[d.1 - 1]? with
          | none => rw [h1, h2] at hd; cases hd
          | some e2 => rw [h1, h2] at hd; exact ⟨e1, e2, rfl, rfl, hd⟩

/-- The last day of a leap year needs a 366th pattern. -/
theorem C146_leap_year (data : List (ℕ × List ℚ)) (eof1 eof2 : List (List ℚ)) (h365 : eof1.length = 365)
    (f : List ℚ) (hf : (366, f) ∈ data) : ∀ out, regressDaily data eof1 eof2 ≠ .ok out := by
  intro out h
  have hall := C146_daily data eof1 eof2 out h
  obtain ⟨r, hr⟩ : ∃ r, ∃ e1 e2, eof1[366 - 1]? = some e1 ∧ eof2[366 - 1]? = some e2 ∧
      regressOntoEofs f e1 e2 = .ok r := by
    clear h
    induction hall with
    | nil => simp at hf
    | cons hh _ ih =>
      rw [List.mem_cons] at hf
      rcases hf with rfl | hf
      · exact ⟨_, hh⟩
      · exact ih hf
  obtain ⟨e1, e2, he, _⟩ := hr
  rw [List.getElem?_eq_none (by omega)] at he
  cases he

example : regressOntoEofs [3, 1, 2] [1, 1, 0] [0, 1, 1] = .ok (some (5/3, 2/3)) := by decide +kernel

example : dotQ [1, 1, 0] [1, 1, 0] * dotQ [0, 1, 1] [0, 1, 1] ≠ dotQ [1, 1, 0] [0, 1, 1] * dotQ [1, 1, 0] [0, 1, 1] := by
  decide +kernel

example : rmmAt [2, 0] [0, 3] [4, 4] ([1, 0], [0, 1], [1, 1]) ([0, 1], [1, 0], [1, -1]) (2, 3, 4) (2, 1) =
    .ok (some (1/2, 0)) := by decide +kernel

end Metcalcpy.Props
