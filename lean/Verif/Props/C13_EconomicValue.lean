/-
C13  Economic value peaks at the base rate and never exceeds the maximum value.
C59  Base-rate option of the ECLV aggregation is honoured.            (false of the code)
C61  The ECLV statistic of the CTC line type returns the value curve. (false of the code)
C62  The ECLV statistic of the PCT line type can be computed.         (false of the code)
-/
import Verif.Model.EconomicValue
import Verif.Spec.EconomicValue
import Verif.Lemmas.Ctc
import Mathlib.Tactic.Linarith
import Mathlib.Tactic.FieldSimp
import Mathlib.Tactic.NormNum

namespace Metcalcpy.Props
open Metcalcpy Spec

theorem econPoint_eq {f h s cl : ℚ} (hs0 : s ≠ 0) (hs1 : 1 - s ≠ 0) (h0 : 0 < cl) (h1 : cl < 1) :
    econPoint f h s (s / (1 - s)) ((1 - s) / s) cl = some (economicValueOf f h s cl) := by
  have e0 : cl ≠ 0 := h0.ne'
  have e1 : 1 - cl ≠ 0 := by linarith
  simp only [econPoint, pyDiv_ne e0, pyDiv_ne e1, Option.bind_eq_bind, Option.bind_some,
    Option.some.injEq, economicValueOf, expenseClimate, expenseForecast, expensePerfect]
  split
  · next hlt =>
    rw [min_eq_left hlt.le]
    have : cl - s * cl = cl * (1 - s) := by ring
    rw [this]
    field_simp
    ring
  · next hge =>
    rw [min_eq_right (not_lt.mp hge)]
    have : s - s * cl = s * (1 - cl) := by ring
    rw [this]
    field_simp
    ring

/-- The result of a call on the table `a b c d` (hits, false alarms, misses, correct negatives) with
non-degenerate margins and cost/loss ratios strictly between 0 and 1. -/
theorem economicValue_ok (a b c d : ℚ) (cls : List ℚ) (add : Bool)
    (hac : 0 < a + c) (hbd : 0 < b + d) (hcl : ∀ x ∈ cls, 0 < x ∧ x < 1) :
    ∃ e, economicValue [a, b, c, d] cls add = some e ∧
      e.cl.Perm (if add then cls ++ [(a + c) / (a + b + c + d)] else cls) ∧
      e.cl.Pairwise (· ≤ ·) ∧
      e.V = e.cl.map (economicValueOf (b / (b + d)) (a / (a + c)) ((a + c) / (a + b + c + d))) ∧
      e.vmax = roundHalfUp (a / (a + c) - b / (b + d)) 7 ∧ e.F = roundHalfUp (b / (b + d)) 7 ∧
      e.H = roundHalfUp (a / (a + c)) 7 ∧ e.s = roundHalfUp ((a + c) / (a + b + c + d)) 7 ∧
      e.n = a + b + c + d := by
  have hn : 0 < a + b + c + d := by linarith
  set s := (a + c) / (a + b + c + d) with hs
  have hs0 : 0 < s := div_pos hac hn
  have hs1 : s < 1 := by rw [hs, div_lt_one hn]; linarith
  have h1s : (1 : ℚ) - s ≠ 0 := by linarith
  have hmem : ∀ x ∈ (if add then cls ++ [s] else cls).mergeSort (fun a b => decide (a ≤ b)),
      0 < x ∧ x < 1 := by
    intro x hx
    rw [List.mem_mergeSort] at hx
    split at hx
    · rcases List.mem_append.mp hx with h | h
      · exact hcl x h
      · simp at h; rw [h]; exact ⟨hs0, hs1⟩
    · exact hcl x hx
  have hmap : ((if add then cls ++ [s] else cls).mergeSort (fun a b => decide (a ≤ b))).mapM
      (econPoint (b / (b + d)) (a / (a + c)) s (s / (1 - s)) ((1 - s) / s)) =
      some (((if add then cls ++ [s] else cls).mergeSort (fun a b => decide (a ≤ b))).map
        (economicValueOf (b / (b + d)) (a / (a + c)) s)) := by
    rw [mapM_eq_some_iff, List.map_map]
    apply List.map_congr_left
    intro x hx
    exact econPoint_eq hs0.ne' h1s (hmem x hx).1 (hmem x hx).2
  refine ⟨{ vmax := _
            V := ((if add then cls ++ [s] else cls).mergeSort
        (fun a b => decide (a ≤ b))).map (economicValueOf (b / (b + d)) (a / (a + c)) s)
            F := _, H := _, cl := _, s := _, n := _ }, ?_,
    List.mergeSort_perm (if add then cls ++ [s] else cls) (fun a b => decide (a ≤ b)), ?_, rfl, rfl, rfl,
    rfl, rfl, rfl⟩
  rotate_left
  · have := List.pairwise_mergeSort (le := fun a b : ℚ => decide (a ≤ b))
      (by intro a b c h1 h2; simp at *; exact h1.trans h2)
      (by intro a b; simp; exact le_total a b) (if add then cls ++ [s] else cls)
    simpa using this
  · simp only [economicValue, pyDiv_ne hbd.ne', pyDiv_ne hac.ne', pyDiv_ne hn.ne', Option.bind_eq_bind,
      Option.bind_some, ← hs, pyDiv_ne h1s, pyDiv_ne hs0.ne', hmap]
    rfl

/-- C13, refinement: for a table with events and non-events and ratios in (0,1) the call succeeds; the
returned ratios are the requested ones in ascending order (plus the base rate on request), and each
value is Richardson's relative economic value at that ratio. -/
theorem C13_curve_is_relative_value (a b c d : ℚ) (cls : List ℚ) (add : Bool)
    (hac : 0 < a + c) (hbd : 0 < b + d) (hcl : ∀ x ∈ cls, 0 < x ∧ x < 1) :
    ∃ e, economicValue [a, b, c, d] cls add = some e ∧
      e.cl.Perm (if add then cls ++ [(a + c) / (a + b + c + d)] else cls) ∧
      e.cl.Pairwise (· ≤ ·) ∧
      e.V = e.cl.map (economicValueOf (b / (b + d)) (a / (a + c)) ((a + c) / (a + b + c + d))) ∧
      e.vmax = roundHalfUp (a / (a + c) - b / (b + d)) 7 := by
  obtain ⟨e, h1, h2, h3, h4, h5, -⟩ := economicValue_ok a b c d cls add hac hbd hcl
  exact ⟨e, h1, h2, h3, h4, h5⟩

/-- Closed forms of Richardson's value on the two sides of the base rate. -/
theorem economicValueOf_below {F H s cl : ℚ} (hs1 : s < 1) (h0 : 0 < cl) (h : cl ≤ s) :
    economicValueOf F H s cl = (H - F) - (1 - H) * ((s - cl) / (cl * (1 - s))) := by
  have : 1 - s ≠ 0 := by linarith
  have e : cl - s * cl = cl * (1 - s) := by ring
  simp only [economicValueOf, expenseClimate, expenseForecast, expensePerfect, min_eq_left h, e]
  field_simp
  ring

theorem economicValueOf_above {F H s cl : ℚ} (hs0 : 0 < s) (h1 : cl < 1) (h : s ≤ cl) :
    economicValueOf F H s cl = (H - F) - F * ((cl - s) / (s * (1 - cl))) := by
  have : 1 - cl ≠ 0 := by linarith
  have e : s - s * cl = s * (1 - cl) := by ring
  simp only [economicValueOf, expenseClimate, expenseForecast, expensePerfect, min_eq_right h, e]
  field_simp
  ring

/-- C13: for hit rate at most 1 and non-negative false alarms every returned value is at most hit rate
minus false-alarm rate, whose rounded value is the reported maximum. -/
theorem C13_value_at_most_max (a b c d : ℚ) (cls : List ℚ) (add : Bool)
    (hb : 0 ≤ b) (hc : 0 ≤ c) (hac : 0 < a + c) (hbd : 0 < b + d) (hcl : ∀ x ∈ cls, 0 < x ∧ x < 1)
    (e : EconValue) (he : economicValue [a, b, c, d] cls add = some e) :
    ∀ v ∈ e.V, v ≤ a / (a + c) - b / (b + d) ∧ v ≤ e.vmax + 1 / (2 * 10 ^ 7) := by
  obtain ⟨e', h1, h2, h3, h4, h5, -⟩ := economicValue_ok a b c d cls add hac hbd hcl
  rw [he] at h1
  obtain rfl : e = e' := by simpa using h1
  have hn : 0 < a + b + c + d := by linarith
  set s := (a + c) / (a + b + c + d) with hs
  have hs0 : 0 < s := div_pos hac hn
  have hs1 : s < 1 := by rw [hs, div_lt_one hn]; linarith
  have hF : 0 ≤ b / (b + d) := div_nonneg hb hbd.le
  have hH : a / (a + c) ≤ 1 := by rw [div_le_one hac]; linarith
  intro v hv
  rw [h4, List.mem_map] at hv
  obtain ⟨x, hx, rfl⟩ := hv
  have hx01 : 0 < x ∧ x < 1 := by
    have := h2.mem_iff.mp hx
    split at this
    · rcases List.mem_append.mp this with h | h
      · exact hcl x h
      · simp at h; rw [h]; exact ⟨hs0, hs1⟩
    · exact hcl x this
  have main : economicValueOf (b / (b + d)) (a / (a + c)) s x ≤ a / (a + c) - b / (b + d) := by
    rcases le_total x s with hle | hle
    · rw [economicValueOf_below hs1 hx01.1 hle]
      have : 0 ≤ (1 - a / (a + c)) * ((s - x) / (x * (1 - s))) :=
        mul_nonneg (by linarith) (div_nonneg (by linarith)
          (mul_nonneg hx01.1.le (by linarith)))
      linarith
    · rw [economicValueOf_above hs0 hx01.2 hle]
      have : 0 ≤ (b / (b + d)) * ((x - s) / (s * (1 - x))) :=
        mul_nonneg hF (div_nonneg (by linarith) (mul_nonneg hs0.le (by linarith [hx01.2])))
      linarith
  refine ⟨main, main.trans ?_⟩
  rw [h5]
  have h6 := lt_roundHalfUp (a / (a + c) - b / (b + d)) 7
  have : (1 / 2 : ℚ) / 10 ^ (7 : ℤ) = 1 / (2 * 10 ^ 7) := by norm_num
  rw [this] at h6
  linarith

/-- C13: with the base rate added, the curve attains exactly hit rate minus false-alarm rate at the
base rate. -/
theorem C13_maximum_attained (a b c d : ℚ) (cls : List ℚ)
    (hac : 0 < a + c) (hbd : 0 < b + d) (hcl : ∀ x ∈ cls, 0 < x ∧ x < 1)
    (e : EconValue) (he : economicValue [a, b, c, d] cls true = some e) :
    ((a + c) / (a + b + c + d), a / (a + c) - b / (b + d)) ∈ e.cl.zip e.V := by
  obtain ⟨e', h1, h2, h3, h4, h5, -⟩ := economicValue_ok a b c d cls true hac hbd hcl
  rw [he] at h1
  obtain rfl : e = e' := by simpa using h1
  have hn : 0 < a + b + c + d := by linarith
  have hs0 : 0 < (a + c) / (a + b + c + d) := div_pos hac hn
  have hs1 : (a + c) / (a + b + c + d) < 1 := by rw [div_lt_one hn]; linarith
  have hm : (a + c) / (a + b + c + d) ∈ e.cl := h2.mem_iff.mpr (by simp)
  have hv : economicValueOf (b / (b + d)) (a / (a + c)) ((a + c) / (a + b + c + d))
      ((a + c) / (a + b + c + d)) = a / (a + c) - b / (b + d) := by
    rw [economicValueOf_below hs1 hs0 le_rfl]; simp
  rw [h4, ← hv]
  have : ∀ (l : List ℚ) (g : ℚ → ℚ) (x : ℚ), x ∈ l → (x, g x) ∈ l.zip (l.map g) := by
    intro l g x hx
    induction l with
    | nil => simp at hx
    | cons y l ih =>
      rcases List.mem_cons.mp hx with rfl | h
      · simp
      · simp [ih h]
  exact this _ _ _ hm

/-- C13: a degenerate table (no events, no non-events) or a ratio equal to 0 or 1 gives no result, as
does a vector of the wrong length. -/
theorem C13_no_result (values cls : List ℚ) (add : Bool) :
    (values.length ≠ 4 → economicValue values cls add = none) ∧
    (∀ a b c d, values = [a, b, c, d] → (a + c = 0 ∨ b + d = 0 ∨ 0 ∈ cls ∨ 1 ∈ cls) →
      economicValue values cls add = none) := by
  constructor
  · intro h
    unfold economicValue
    split
    · simp at h
    · rfl
  · rintro a b c d rfl hdeg
    by_contra hne
    obtain ⟨e, he⟩ := Option.ne_none_iff_exists'.mp hne
    simp only [economicValue, Option.bind_eq_bind, Option.bind_eq_some_iff] at he
    obtain ⟨f, hf, h, hh, s, hs, q₁, hq₁, q₂, hq₂, v, hv, -⟩ := he
    have nz : ∀ x y z : ℚ, pyDiv x y = some z → y ≠ 0 := by
      intro x y z hxyz h0; simp [pyDiv, h0] at hxyz
    have hpt : ∀ x ∈ cls, x ≠ 0 ∧ x ≠ 1 := by
      intro x hx
      rw [mapM_eq_some_iff] at hv
      have hx' : x ∈ (if add then cls ++ [s] else cls).mergeSort (fun a b => decide (a ≤ b)) := by
        rw [List.mem_mergeSort]; split <;> simp [hx]
      have : econPoint f h s q₁ q₂ x ∈ List.map some v := hv ▸ List.mem_map_of_mem hx'
      obtain ⟨y, -, hy⟩ := List.mem_map.mp this
      simp only [econPoint, Option.bind_eq_bind] at hy
      have hy := hy.symm
      rw [Option.bind_eq_some_iff] at hy
      obtain ⟨r₁, hr₁, hy⟩ := hy
      rw [Option.bind_eq_some_iff] at hy
      obtain ⟨r₂, hr₂, -⟩ := hy
      refine ⟨nz _ _ _ hr₁, fun h1 => nz _ _ _ hr₂ (by rw [h1]; ring)⟩
    rcases hdeg with h0 | h0 | h0 | h0
    · exact nz _ _ _ hh h0
    · exact nz _ _ _ hf h0
    · exact (hpt 0 h0).1 rfl
    · exact (hpt 1 h0).2 rfl

/-- Hypotheses met: 3 hits, 2 false alarms, 1 miss, 4 correct negatives, unsorted ratios. -/
example : ∃ e, economicValue [3, 2, 1, 4] [1 / 2, 1 / 4] true = some e ∧
    (∀ v ∈ e.V, v ≤ 5 / 12) ∧ ((2 / 5 : ℚ), (5 / 12 : ℚ)) ∈ e.cl.zip e.V := by
  have hcl : ∀ x ∈ [(1 / 2 : ℚ), 1 / 4], 0 < x ∧ x < 1 := by
    intro x hx; simp at hx; rcases hx with rfl | rfl <;> norm_num
  obtain ⟨e, he, -⟩ := C13_curve_is_relative_value 3 2 1 4 [1 / 2, 1 / 4] true (by norm_num)
    (by norm_num) hcl
  refine ⟨e, he, fun v hv => ?_, ?_⟩
  · have := (C13_value_at_most_max 3 2 1 4 _ true (by norm_num) (by norm_num) (by norm_num)
      (by norm_num) hcl e he v hv).1
    norm_num at this ⊢; exact this
  · have := C13_maximum_attained 3 2 1 4 _ (by norm_num) (by norm_num) hcl e he
    norm_num at this ⊢; exact this

/-! ### C59 -/

/-- What the option should mean for the cost/loss ratios of a call: the requested steps, plus the base
rate iff the parameter is 1. -/
def HonoursBaseRate (param : Option ℤ) (steps : List ℚ) (base : ℚ) (result : List ℚ) : Prop :=
  result.Perm (if param = some 1 then steps ++ [base] else steps)

/-- C59 is false of the code: with `add_base_rate = 1`, for every CTC table with events and
non-events, the base-rate point is missing from the output. -/
theorem C59_base_rate_counterexample (npf : Bool) (t : Table) (h f m c n : List ℚ)
    (D : CtcData t h f m c n) (hac : 0 < h.sum + m.sum) (hbd : 0 < f.sum + c.sum) (steps : List ℚ)
    (hst : ∀ x ∈ steps, 0 < x ∧ x < 1) :
    ∃ e, aggEclvCalc npf (some 1) t none "ctc" steps = .ok (some e) ∧ e.cl.Perm steps ∧
      ¬ HonoursBaseRate (some 1) steps ((h.sum + m.sum) / (h.sum + f.sum + m.sum + c.sum)) e.cl := by
  obtain ⟨e, h1, h2, -⟩ := economicValue_ok h.sum f.sum m.sum c.sum steps false hac hbd hst
  refine ⟨e, ?_, by simpa using h2, ?_⟩
  · simp [aggEclvCalc, aggEclvAddBaseRate, eclvStat, sum_fy_oy D, sum_fy_on D, sum_fn_oy D,
      sum_fn_on D, h1]
  · intro hp
    have l1 := h2.length_eq
    have l2 := hp.length_eq
    simp at l1 l2
    omega

/-- C59, the part that holds: for every other parameter value (also when absent) the ratios of a
successful call are the requested steps. -/
theorem C59_base_rate_partial (npf : Bool) (param : Option ℤ) (hp : param ≠ some 1) (t : Table)
    (th : Option ℚ) (lt : String) (steps : List ℚ) (e : EconValue) (base : ℚ)
    (he : aggEclvCalc npf param t th lt steps = .ok (some e)) :
    HonoursBaseRate param steps base e.cl := by
  have hcl : ∀ vals, economicValue vals steps false = some e → e.cl.Perm steps := by
    intro vals hv
    unfold economicValue at hv
    split at hv
    · simp only [Option.bind_eq_bind, Option.bind_eq_some_iff] at hv
      obtain ⟨f, -, h, -, s, -, q₁, -, q₂, -, v, -, hv⟩ := hv
      simp only [Option.some.injEq] at hv
      rw [← hv]; simp only [Bool.false_eq_true, if_false]; exact List.mergeSort_perm _ _
    · simp at hv
  have h0 : aggEclvAddBaseRate param = 0 := by
    unfold aggEclvAddBaseRate
    simp only
    split
    · rfl
    · omega
  simp only [HonoursBaseRate, hp, if_false]
  simp only [aggEclvCalc, h0, eclvStat] at he
  split at he
  · simp at he
  · split at he
    · simp at he
    · split at he
      · split at he
        · simp only [Except.ok.injEq, Option.bind_eq_bind, Option.bind_eq_some_iff] at he
          obtain ⟨_, -, _, -, _, -, _, -, _, -, he⟩ := he
          exact hcl _ (by simpa using he)
        · simp at he
      · simp only [Except.ok.injEq, Option.bind_eq_bind, Option.bind_eq_some_iff] at he
        obtain ⟨_, -, _, -, _, -, _, -, he⟩ := he
        exact hcl _ (by simpa using he)

/-! ### C61 -/

/-- C61 is false of the code: the CTC statistic `calculate_eclv` returns nothing for *every* table, since
it hands the vector of 19 values to the scalar rounding function.  In particular it returns nothing
for tables for which the economic value itself is well defined. -/
theorem C61_ctc_eclv_counterexample :
    (∀ t : Table, ctcEclv t = none) ∧
    (∀ (t : Table) (h f m c n : List ℚ), CtcData t h f m c n → 0 < h.sum + m.sum →
      0 < f.sum + c.sum → ∃ e, economicValue [h.sum, f.sum, m.sum, c.sum] eclvPoints false = some e ∧
        e.V.length = 19) := by
  have hlen : eclvPoints.length = 19 := by simp [eclvPoints]
  constructor
  · intro t
    by_contra hne
    obtain ⟨x, hx⟩ := Option.ne_none_iff_exists'.mp hne
    simp only [ctcEclv, Option.bind_eq_bind, Option.bind_eq_some_iff] at hx
    obtain ⟨a, -, b, -, c, -, d, -, e, he, hx⟩ := hx
    simp only [economicValue, Option.bind_eq_bind, Option.bind_eq_some_iff] at he
    obtain ⟨f, -, h, -, s, -, q₁, -, q₂, -, v, hv, he⟩ := he
    simp only [Option.some.injEq] at he
    simp only [Bool.false_eq_true, if_false] at hv he
    have hvl : v.length = 19 := by
      have := congrArg List.length ((mapM_eq_some_iff _ _ _).mp hv)
      simp [hlen] at this; omega
    have hk : ((e.cl.zip e.V).filter (fun p => decide (p.1 ∈ eclvPoints))) = e.cl.zip e.V := by
      rw [List.filter_eq_self]
      intro p hp
      have := (List.of_mem_zip hp).1
      rw [← he] at this
      simpa using this
    rw [hk] at hx
    have hl2 : (((e.cl.zip e.V).map Prod.snd)).length = 19 := by
      rw [← he]; simp [hvl, hlen]
    revert hx
    generalize ((e.cl.zip e.V).map Prod.snd) = w at *
    match w, hl2 with
    | [], h => simp at h
    | [_], h => simp at h
    | _ :: _ :: _, _ => simp [roundHalfUpArray]
  · intro t h f m c n _ hac hbd
    obtain ⟨e, h1, h2, -, h4, -⟩ := economicValue_ok h.sum f.sum m.sum c.sum eclvPoints false hac hbd
      (by
        intro x hx
        simp only [eclvPoints, List.mem_map, List.mem_range] at hx
        obtain ⟨i, hi, rfl⟩ := hx
        have hi' : i ≤ 18 := by omega
        have : (i : ℚ) ≤ 18 := by exact_mod_cast hi'
        have h0 : (0 : ℚ) ≤ i := Nat.cast_nonneg i
        constructor
        · positivity
        · rw [div_lt_one (by norm_num)]; linarith)
    refine ⟨e, h1, ?_⟩
    rw [h4, List.length_map, h2.length_eq]; simpa using hlen

/-! ### C62 -/

/-- C62 is false of the code with the pinned NumPy 1.24.2 (no `np.float`): the PCT branch raises an
unhandled AttributeError for every table, every threshold and every list of ratios. -/
theorem C62_pct_eclv_counterexample (t : Table) (th : ℚ) (cls : List ℚ) (add : ℤ) :
    eclvStat false t (some th) "pct" cls add = .error .attributeError := by
  simp [eclvStat]

/-- C62, the part that holds: with an older NumPy (that has `np.float`), or for CTC tables, the call
never raises; and an unknown line type or a PCT call without threshold gives no value. -/
theorem C62_eclv_total_partial (npf : Bool) (t : Table) (th : Option ℚ) (lt : String) (cls : List ℚ)
    (add : ℤ) :
    ((npf = true ∨ lt ≠ "pct" ∨ th = none) → ∃ r, eclvStat npf t th lt cls add = .ok r) ∧
    ((lt ≠ "ctc" ∧ lt ≠ "pct") ∨ (lt = "pct" ∧ th = none) → eclvStat npf t th lt cls add = .ok none) := by
  constructor
  · intro h
    unfold eclvStat
    split
    · exact ⟨_, rfl⟩
    · split
      · exact ⟨_, rfl⟩
      · split
        · split
          · exact ⟨_, rfl⟩
          · simp_all
        · exact ⟨_, rfl⟩
  · rintro (h | h) <;> simp [eclvStat, h]

/-- C62, the part that holds with an older NumPy: the economic value of a probability table is that of the 2x2 table
obtained by forecasting the event in the bins above the threshold. -/
theorem C62_pct_counts_partial (t : Table) (bins : List (ℚ × ℚ × ℚ))
    (h1 : CompleteColumn t "thresh_i" (bins.map Prod.fst)) (h2 : CompleteColumn t "oy_i" (bins.map (·.2.1)))
    (h3 : CompleteColumn t "on_i" (bins.map (·.2.2))) (th : ℚ) (cls : List ℚ) (add : ℤ) :
    eclvStat true t (some th) "pct" cls add = .ok (economicValue
      [((bins.filter (fun b => th < b.1)).map (·.2.1)).sum, ((bins.filter (fun b => th < b.1)).map (·.2.2)).sum,
       ((bins.filter (fun b => b.1 ≤ th)).map (·.2.1)).sum, ((bins.filter (fun b => b.1 ≤ th)).map (·.2.2)).sum]
      cls (add = 1)) := by
  have key : ∀ (p : ℚ → Bool) (name : String) (g : ℚ × ℚ × ℚ → ℚ), CompleteColumn t name (bins.map g) →
      maskedSum t p name = some ((bins.filter (fun b => p b.1)).map g).sum := by
    intro p name g hg
    simp only [maskedSum, columnData_eq_some_iff.mpr h1, columnData_eq_some_iff.mpr hg, Option.bind_eq_bind,
      Option.bind_some, Option.some.injEq]
    congr 1
    clear h1 h2 h3 hg
    induction bins with
    | nil => rfl
    | cons b bins ih =>
      simp only [List.map_cons, List.zip_cons_cons]
      by_cases hp : p b.1 = true
      · rw [List.filter_cons_of_pos (by simpa using hp), List.filter_cons_of_pos (p := fun b : ℚ × ℚ × ℚ => p b.1) hp,
          List.map_cons, ← ih]
        rfl
      · rw [List.filter_cons_of_neg (by simpa using hp), List.filter_cons_of_neg (p := fun b : ℚ × ℚ × ℚ => p b.1) hp, ih]
  simp only [eclvStat, key _ _ _ h2, key _ _ _ h3, Option.bind_eq_bind, Option.bind_some]
  simp

/-- A probability table for which the older NumPy gives a value. -/
example : ∃ e, eclvStat true
    { cols := ["thresh_i", "oy_i", "on_i"],
      rows := [[some (1 / 4), some 1, some 4], [some (3 / 4), some 3, some 2]] }
    (some (1 / 2)) "pct" [1 / 2] 0 = .ok (some e) := by
  obtain ⟨e, he, -⟩ := economicValue_ok 3 2 1 4 [1 / 2] false (by norm_num) (by norm_num)
    (by intro x hx; simp at hx; rw [hx]; norm_num)
  refine ⟨e, ?_⟩
  rw [← he]
  simp only [eclvStat, maskedSum, columnData, Table.colIdx?]
  simp [List.findIdx?_cons]
  norm_num [List.filterMap]

end Metcalcpy.Props
