/-
C49  The autocorrelation function starts with 1 and stays within [-1, 1].
C50  Removing missing values from paired samples keeps the pairs aligned.
-/
import Verif.Model.Acf
import Verif.Props.C27_Bootstrap
import Mathlib.Analysis.SpecialFunctions.Log.Base
import Mathlib.Tactic.Linarith
import Mathlib.Tactic.Ring
import Mathlib.Tactic.Positivity
import Mathlib.Tactic.NormNum
import Mathlib.Tactic.FieldSimp

namespace Metcalcpy.Props
open Metcalcpy

/-- Mean, and the sum of the products of deviations at distance `k`, of a complete series. -/
def seriesMean (xs : List ℚ) : ℚ := xs.sum / xs.length
def lagged (xs : List ℚ) (k : ℕ) : ℚ :=
  (List.zipWith (fun a b => (a - seriesMean xs) * (b - seriesMean xs)) (xs.drop k) xs).sum

theorem abs_zipWith_sum_le (a b : List ℚ) :
    |(List.zipWith (· * ·) a b).sum| ≤ ((a.map (· ^ 2)).sum + (b.map (· ^ 2)).sum) / 2 := by
  induction a generalizing b with
  | nil =>
    have : 0 ≤ (b.map (· ^ 2)).sum := List.sum_nonneg (by
      intro x hx; obtain ⟨y, -, rfl⟩ := List.mem_map.mp hx; positivity)
    simp; linarith
  | cons u a ih =>
    cases b with
    | nil =>
      have : 0 ≤ ((u :: a).map (· ^ 2)).sum := List.sum_nonneg (by
        intro x hx; obtain ⟨y, -, rfl⟩ := List.mem_map.mp hx; positivity)
      simp only [List.zipWith_nil_right, List.sum_nil, abs_zero, List.map_nil, add_zero]
      linarith
    | cons v b =>
      have h := ih b
      simp only [List.zipWith_cons_cons, List.sum_cons, List.map_cons]
      have h2 : |u * v| ≤ (u ^ 2 + v ^ 2) / 2 := by
        rw [abs_le]; constructor <;> nlinarith [sq_nonneg (u + v), sq_nonneg (u - v)]
      have h3 := abs_add_le (u * v) (List.zipWith (· * ·) a b).sum
      linarith

theorem sum_sq_drop_le (d : List ℚ) (k : ℕ) : ((d.drop k).map (· ^ 2)).sum ≤ (d.map (· ^ 2)).sum := by
  conv_rhs => rw [← List.take_append_drop k d]
  rw [List.map_append, List.sum_append]
  have : 0 ≤ ((d.take k).map (· ^ 2)).sum := List.sum_nonneg (by
    intro x hx; obtain ⟨y, -, rfl⟩ := List.mem_map.mp hx; positivity)
  linarith

theorem lagged_eq (xs : List ℚ) (k : ℕ) :
    lagged xs k = (List.zipWith (· * ·) ((xs.map (· - seriesMean xs)).drop k) (xs.map (· - seriesMean xs))).sum := by
  rw [← List.map_drop, List.zipWith_map]
  rfl

theorem lagged_zero (xs : List ℚ) : lagged xs 0 = (xs.map (fun x => (x - seriesMean xs) ^ 2)).sum := by
  unfold lagged
  rw [List.drop_zero, List.zipWith_self]
  simp only [sq]

theorem abs_lagged_le (xs : List ℚ) (k : ℕ) : |lagged xs k| ≤ lagged xs 0 := by
  rw [lagged_eq, lagged_zero]
  refine (abs_zipWith_sum_le _ _).trans ?_
  have := sum_sq_drop_le (xs.map (· - seriesMean xs)) k
  rw [List.map_map (g := fun x : ℚ => x ^ 2)] at this ⊢
  have e : ((fun x : ℚ => x ^ 2) ∘ fun x => x - seriesMean xs) = fun x => (x - seriesMean xs) ^ 2 := rfl
  rw [e] at this ⊢
  linarith

theorem lagged_zero_pos (xs : List ℚ) (h : ∃ a ∈ xs, ∃ b ∈ xs, a ≠ b) : 0 < lagged xs 0 := by
  rw [lagged_zero]
  have nn : ∀ x ∈ xs.map (fun x => (x - seriesMean xs) ^ 2), 0 ≤ x := by
    intro x hx; obtain ⟨y, -, rfl⟩ := List.mem_map.mp hx; positivity
  rcases (List.sum_nonneg nn).lt_or_eq with h0 | h0
  · exact h0
  · exfalso
    obtain ⟨a, ha, b, hb, hab⟩ := h
    have z : ∀ v ∈ xs.map (fun x => (x - seriesMean xs) ^ 2), v = 0 :=
      fun v hv => List.all_zero_of_le_zero_le_of_sum_eq_zero nn h0.symm hv
    have ea := z _ (List.mem_map_of_mem ha)
    have eb := z _ (List.mem_map_of_mem hb)
    simp only [pow_eq_zero_iff, ne_eq, OfNat.ofNat_ne_zero, not_false_eq_true] at ea eb
    apply hab; linarith

theorem removeNone_some (xs : List ℚ) : removeNone (xs.map some) = xs := by
  unfold removeNone; rw [List.filterMap_map]; simp

theorem autocovariance_complete (xs : List ℚ) (k : ℕ) (h : k ≤ xs.length) (hn : xs ≠ []) :
    autocovariance (xs.map some) k (seriesMean xs) = .ok (lagged xs k / xs.length) := by
  have terms : (List.range ((xs.map some).length - k)).filterMap (acfTerm (xs.map some) k (seriesMean xs)) =
      List.zipWith (fun a b => (a - seriesMean xs) * (b - seriesMean xs)) (xs.drop k) xs := by
    rw [List.length_map]
    have : (List.range (xs.length - k)).filterMap (acfTerm (xs.map some) k (seriesMean xs)) = (List.range (xs.length - k)).map (fun i =>
        ((xs[i + k]?).getD 0 - seriesMean xs) * ((xs[i]?).getD 0 - seriesMean xs)) := by
      rw [← List.filterMap_eq_map (f := fun i => ((xs[i + k]?).getD 0 - seriesMean xs) * ((xs[i]?).getD 0 - seriesMean xs))]
      apply List.filterMap_congr
      intro i hi
      rw [List.mem_range] at hi
      have h1 : i + k < xs.length := by omega
      have h2 : i < xs.length := by omega
      simp only [acfTerm, cellGet, List.getElem?_map, List.getElem?_eq_getElem h1, List.getElem?_eq_getElem h2, Option.map_some,
        Option.join_some, Option.getD_some, Function.comp]
    rw [this]
    apply List.ext_getElem
    · simp
    · intro i h1 h2
      simp only [List.length_map, List.length_range] at h1
      have h3 : i + k < xs.length := by omega
      have h4 : i < xs.length := by omega
      have h5 : k + i < xs.length := by omega
      simp only [List.getElem_map, List.getElem_range, List.getElem_zipWith, List.getElem_drop,
        List.getElem?_eq_getElem h3, List.getElem?_eq_getElem h4, Option.getD_some, Nat.add_comm k i]
  unfold autocovariance
  simp only [terms]
  have hl : (List.zipWith (fun a b => (a - seriesMean xs) * (b - seriesMean xs)) (xs.drop k) xs).length =
      xs.length - k := by simp
  have hpos : 0 < xs.length := List.length_pos_iff.mpr hn
  rw [hl, if_neg (by omega)]
  have e : (((xs.length - k : ℕ) : ℚ) + k) = xs.length := by
    rw [Nat.cast_sub h]; ring
  rw [e]
  congr 1
  unfold lagged
  ring

/-- The largest lag: the requested one, or floor(10 log10 n), never more than n - 1. -/
def clippedLag (n : ℕ) (lagMax : Option ℤ) : ℤ :=
  min (lagMax.getD (Nat.log 10 (n ^ 10) : ℕ)) ((n : ℤ) - 1)

/-- C49: the default lag is floor(10 log10 n). -/
theorem C49_default_lag (n : ℕ) (h : n ≠ 0) : ((Nat.log 10 (n ^ 10) : ℕ) : ℤ) = ⌊10 * Real.logb 10 n⌋ := by
  have e : (10 : ℝ) * Real.logb 10 n = Real.logb ((10 : ℕ) : ℝ) ((n ^ 10 : ℕ) : ℝ) := by
    push_cast
    rw [Real.logb_pow]
    norm_num
  rw [e, Real.floor_logb_natCast (by positivity), Int.log_natCast]

theorem acf_complete (xs : List ℚ) (hn : xs ≠ []) (ty : String) (hty : ty = "covariance" ∨ ty = "correlation")
    (lagMax : Option ℤ) (h0 : ty = "correlation" → lagged xs 0 ≠ 0) :
    acf (xs.map some) ty lagMax = .ok (some ((List.range (clippedLag xs.length lagMax + 1).toNat).map (fun k =>
      if ty = "covariance" then lagged xs k / xs.length else lagged xs k / lagged xs 0))) := by
  have hl : ¬ (xs.map some).length = 0 := by simpa using hn
  have hty' : ¬ (ty ≠ "covariance" ∧ ty ≠ "correlation") := by
    rintro ⟨a, b⟩; rcases hty with h | h <;> contradiction
  have hm : pyMean (removeNone (xs.map some)) = .ok (seriesMean xs) := by
    rw [removeNone_some, pyMean, if_neg hn]; rfl
  unfold acf
  rw [if_neg hty', if_neg hl, hm]
  simp only [bind, Except.bind]
  rw [autocovariance_complete xs 0 (Nat.zero_le _) hn]
  simp only
  have hlag : (min (lagMax.getD ((Nat.log 10 ((xs.map some).length ^ 10) : ℕ) : ℤ)) (((xs.map some).length : ℤ) - 1)) = clippedLag xs.length lagMax := by
    unfold clippedLag; rw [List.length_map]
  rw [hlag]
  have hpos : 0 < xs.length := List.length_pos_iff.mpr hn
  have hmap : (List.range (clippedLag xs.length lagMax + 1).toNat).mapM (acfEntry (xs.map some) ty (seriesMean xs) (lagged xs 0 / xs.length)) =
      .ok ((List.range (clippedLag xs.length lagMax + 1).toNat).map (fun k =>
        if ty = "covariance" then lagged xs k / xs.length else lagged xs k / lagged xs 0)) := by
    apply mapM_except_ok
    intro k hk
    rw [List.mem_range] at hk
    have hk' : k ≤ xs.length := by
      have : clippedLag xs.length lagMax ≤ (xs.length : ℤ) - 1 := min_le_right _ _
      omega
    rw [acfEntry, autocovariance_complete xs k hk' hn]
    simp only [bind, Except.bind]
    by_cases hc : ty = "covariance"
    · simp [hc]
    · have hco : ty = "correlation" := hty.resolve_left hc
      have hnq : (xs.length : ℚ) ≠ 0 := by exact_mod_cast hpos.ne'
      rw [if_neg hc, if_neg hc, pyDivE, if_neg (div_ne_zero (h0 hco) hnq)]
      congr 1
      have := h0 hco
      field_simp
  rw [hmap]

/-- C49: for a complete series with two different values the result has one entry per lag 0 .. clipped lag; the
first is 1, all are in [-1, 1], and entry k is the sum of the products of deviations at distance k divided by the
sum of squared deviations. -/
theorem C49_correlation (xs : List ℚ) (h : ∃ a ∈ xs, ∃ b ∈ xs, a ≠ b) (lagMax : Option ℤ) :
    ∃ r, acf (xs.map some) "correlation" lagMax = .ok (some r) ∧
      r.length = (clippedLag xs.length lagMax + 1).toNat ∧
      (0 ≤ clippedLag xs.length lagMax → r.head? = some 1) ∧
      (∀ v ∈ r, -1 ≤ v ∧ v ≤ 1) ∧
      (∀ k v, r[k]? = some v → v = lagged xs k / lagged xs 0) := by
  have hn : xs ≠ [] := by
    rintro rfl; obtain ⟨a, ha, -⟩ := h; simp at ha
  have hp := lagged_zero_pos xs h
  refine ⟨_, acf_complete xs hn "correlation" (Or.inr rfl) lagMax (fun _ => hp.ne'), by simp, ?_, ?_, ?_⟩
  · intro h0
    obtain ⟨n, hn⟩ : ∃ n, (clippedLag xs.length lagMax + 1).toNat = n + 1 := ⟨(clippedLag xs.length lagMax).toNat, by omega⟩
    rw [hn, List.range_succ_eq_map]
    simp [hp.ne']
  · intro v hv
    obtain ⟨k, -, rfl⟩ := List.mem_map.mp hv
    have := abs_le.mp (abs_lagged_le xs k)
    simp only [show ¬ ("correlation" : String) = "covariance" by decide, if_false]
    constructor
    · rw [le_div_iff₀ hp]; linarith
    · rw [div_le_one hp]; linarith
  · intro k v hv
    rw [List.getElem?_map] at hv
    rcases hk : (List.range (clippedLag xs.length lagMax + 1).toNat)[k]? with _ | j
    · rw [hk] at hv; simp at hv
    · rw [hk] at hv
      have : j = k := by
        rw [List.getElem?_eq_some_iff] at hk
        obtain ⟨_, e⟩ := hk
        rw [List.getElem_range] at e
        exact e.symm
      subst this
      simp only [Option.map_some, show ¬ ("correlation" : String) = "covariance" by decide, if_false,
        Option.some.injEq] at hv
      exact hv.symm

/-- C49: the autocovariances of a complete series are those sums divided by n; the first one is the
(population) variance. -/
theorem C49_covariance (xs : List ℚ) (hn : xs ≠ []) (lagMax : Option ℤ) :
    ∃ r, acf (xs.map some) "covariance" lagMax = .ok (some r) ∧
      r.length = (clippedLag xs.length lagMax + 1).toNat ∧
      (∀ v ∈ r, |v| ≤ ((xs.map (fun x => (x - seriesMean xs) ^ 2)).sum : ℚ) / xs.length) ∧
      (0 ≤ clippedLag xs.length lagMax →
        r.head? = some ((xs.map (fun x => (x - seriesMean xs) ^ 2)).sum / (xs.length : ℚ))) := by
  refine ⟨_, acf_complete xs hn "covariance" (Or.inl rfl) lagMax (fun h => absurd h (by decide)), by simp, ?_, ?_⟩
  · intro v hv
    obtain ⟨k, -, rfl⟩ := List.mem_map.mp hv
    simp only [if_true]
    have hnn : (0 : ℚ) ≤ xs.length := by positivity
    rw [abs_div, abs_of_nonneg hnn, ← lagged_zero]
    gcongr
    exact abs_lagged_le xs k
  · intro h0
    obtain ⟨n, hn⟩ : ∃ n, (clippedLag xs.length lagMax + 1).toNat = n + 1 := ⟨(clippedLag xs.length lagMax).toNat, by omega⟩
    rw [hn, List.range_succ_eq_map, ← lagged_zero]
    simp

/-- C49: a constant complete series has no autocorrelation: the division raises. -/
theorem C49_constant (xs : List ℚ) (hn : xs ≠ []) (h : ∀ a ∈ xs, ∀ b ∈ xs, a = b) (lagMax : Option ℤ)
    (hl : 0 ≤ clippedLag xs.length lagMax) :
    acf (xs.map some) "correlation" lagMax = .error .zeroDivisionError := by
  have hl' : ¬ (xs.map some).length = 0 := by simpa using hn
  have hm : pyMean (removeNone (xs.map some)) = .ok (seriesMean xs) := by
    rw [removeNone_some, pyMean, if_neg hn]; rfl
  have hz : lagged xs 0 = 0 := by
    rw [lagged_zero]
    apply List.sum_eq_zero
    intro v hv
    obtain ⟨x, hx, rfl⟩ := List.mem_map.mp hv
    have : seriesMean xs = x := by
      have e : xs = List.replicate xs.length x := List.eq_replicate_iff.mpr ⟨rfl, fun b hb => h b hb x hx⟩
      have hpos : (xs.length : ℚ) ≠ 0 := by
        have := List.length_pos_iff.mpr hn
        exact_mod_cast this.ne'
      unfold seriesMean
      have es : xs.sum = xs.length * x := by
        conv_lhs => rw [e]
        simp
      rw [es]; field_simp
    rw [this]; simp
  unfold acf
  rw [if_neg (by decide), if_neg hl', hm]
  simp only [bind, Except.bind]
  rw [autocovariance_complete xs 0 (Nat.zero_le _) hn]
  simp only
  have hlag : (min (lagMax.getD ((Nat.log 10 ((xs.map some).length ^ 10) : ℕ) : ℤ)) (((xs.map some).length : ℤ) - 1)) = clippedLag xs.length lagMax := by
    unfold clippedLag; rw [List.length_map]
  rw [hlag]
  obtain ⟨n, hn'⟩ : ∃ n, (clippedLag xs.length lagMax + 1).toNat = n + 1 := ⟨(clippedLag xs.length lagMax).toNat, by omega⟩
  rw [hn', List.range_succ_eq_map, List.mapM_cons]
  simp only [acfEntry, autocovariance_complete xs 0 (Nat.zero_le _) hn, hz, bind, Except.bind, pyDivE,
    show ¬ ("correlation" : String) = "covariance" by decide, if_false]
  simp

/-- C49 does not extend to series with missing values: here the entry for lag 1 is 7/6. -/
theorem C49_missing_counterexample :
    ¬ ∀ (x : List Cell) (r : List ℚ), acf x "correlation" none = .ok (some r) → ∀ v ∈ r, v ≤ 1 := by
  intro h
  have e : ((acf [some 5, some 5, none, some 0, none, some 0, none, some 0, none, some (-5), some (-5)]
      "correlation" none).toOption.bind id).bind (fun r => r[1]?) = some (7 / 6) := by decide +kernel
  rcases hr : acf [some 5, some 5, none, some 0, none, some 0, none, some 0, none, some (-5), some (-5)]
      "correlation" none with err | r
  · rw [hr] at e; simp [Except.toOption] at e
  · rcases r with _ | r
    · rw [hr] at e; simp [Except.toOption] at e
    · rw [hr] at e
      simp only [Except.toOption, Option.bind_some, id] at e
      have := h _ _ hr (7 / 6) (List.mem_of_getElem? e)
      norm_num at this

/-- A case. -/
example : acf ([1, 2, 4, 3].map some) "correlation" (some 2) = .ok (some [1, 3 / 20, -(1 / 2)]) := by
  decide +kernel

/-! ### C50 -/

theorem all_isSome_iff (x : List Cell) : (x.map Option.isSome).all id = true ↔ ∀ v ∈ x, v ≠ none := by
  simp [List.all_eq_true, Option.isSome_iff_ne_none]

/-- A pair without a missing value. -/
def complete (p : Cell × Cell) : Bool := p.1.isSome && p.2.isSome

theorem compress_pairs (x y : List Cell) (h : x.length = y.length) :
    ((x.zip (List.zipWith (· && ·) (x.map Option.isSome) (y.map Option.isSome))).filter (fun p => p.2)).map Prod.fst =
      ((x.zip y).filter complete).map Prod.fst ∧
    ((y.zip (List.zipWith (· && ·) (x.map Option.isSome) (y.map Option.isSome))).filter (fun p => p.2)).map Prod.fst =
      ((x.zip y).filter complete).map Prod.snd := by
  induction x generalizing y with
  | nil => cases y <;> simp_all
  | cons a x ih =>
    cases y with
    | nil => simp at h
    | cons b y =>
      obtain ⟨h1, h2⟩ := ih y (by simpa using h)
      simp only [List.map_cons, List.zipWith_cons_cons, List.zip_cons_cons, List.filter_cons, complete]
      by_cases hc : (a.isSome && b.isSome) = true
      · simp only [hc, if_true, List.map_cons]
        exact ⟨by rw [h1], by rw [h2]⟩
      · simp only [hc]
        exact ⟨h1, h2⟩

/-- C50: with paired samples of the same length (at least 2) exactly the pairs with a missing member are
dropped; the rest stays in order and aligned. -/
theorem C50_pairs (x y : List Cell) (h2 : 2 ≤ x.length) (hlen : x.length = y.length) :
    ∃ rx ry, removeNa x y true = .ok (rx, ry) ∧ rx.length = ry.length ∧
      rx.zip ry = (x.zip y).filter (fun p => p.1.isSome && p.2.isSome) ∧
      (∀ v ∈ rx, v ≠ none) ∧ (∀ v ∈ ry, v ≠ none) := by
  have fin : ∀ l : List (Cell × Cell), (l.map Prod.fst).zip (l.map Prod.snd) = l := by
    intro l; induction l with
    | nil => rfl
    | cons p l ih => simp [ih]
  unfold removeNa
  rw [if_neg (by omega), if_neg (by omega), if_neg (by simp)]
  simp only
  by_cases hm : (x.map Option.isSome).all id = false ∨ (y.map Option.isSome).all id = false
  · rw [if_pos hm, if_neg (by simpa using hlen)]
    obtain ⟨e1, e2⟩ := compress_pairs x y hlen
    rw [e1, e2]
    refine ⟨_, _, rfl, by simp, fin _, ?_, ?_⟩
    · intro v hv
      obtain ⟨p, hp, rfl⟩ := List.mem_map.mp hv
      have := (List.mem_filter.mp hp).2
      simp only [complete, Bool.and_eq_true] at this
      exact Option.isSome_iff_ne_none.mp this.1
    · intro v hv
      obtain ⟨p, hp, rfl⟩ := List.mem_map.mp hv
      have := (List.mem_filter.mp hp).2
      simp only [complete, Bool.and_eq_true] at this
      exact Option.isSome_iff_ne_none.mp this.2
  · rw [if_neg hm]
    push Not at hm
    have hx := (all_isSome_iff x).mp (by rw [← Bool.not_eq_false]; exact hm.1)
    have hy := (all_isSome_iff y).mp (by rw [← Bool.not_eq_false]; exact hm.2)
    refine ⟨x, y, rfl, hlen, ?_, hx, hy⟩
    symm
    rw [List.filter_eq_self]
    intro p hp
    have := List.of_mem_zip (show (p.1, p.2) ∈ x.zip y from hp)
    rw [Bool.and_eq_true]
    exact ⟨Option.isSome_iff_ne_none.mpr (hx _ this.1), Option.isSome_iff_ne_none.mpr (hy _ this.2)⟩

theorem removeNaSingle_eq (x : List Cell) : removeNaSingle x = x.filter Option.isSome := by
  unfold removeNaSingle
  simp only
  by_cases h : (x.map Option.isSome).all id = false
  · rw [if_pos h]
    clear h
    induction x with
    | nil => rfl
    | cons a x ih =>
      cases a <;> simp [List.filter_cons, ih]
  · rw [if_neg h]
    symm
    rw [List.filter_eq_self]
    intro v hv
    have := (all_isSome_iff x).mp (by rw [← Bool.not_eq_false]; exact h) v hv
    exact Option.isSome_iff_ne_none.mpr this

/-- C50: unpaired samples are cleaned separately. -/
theorem C50_unpaired (x y : List Cell) (h2 : 2 ≤ x.length) (hy : y.length ≠ 1) :
    removeNa x y false = .ok (x.filter Option.isSome, y.filter Option.isSome) := by
  unfold removeNa
  rw [if_neg (by omega), if_neg hy, if_pos rfl, removeNaSingle_eq, removeNaSingle_eq]

/-- C50, the remaining inputs: fewer than two values of `x` are refused; a `y` of one element is passed through
unchecked; paired samples of different lengths are refused only if something is missing. -/
theorem C50_edges (x y : List Cell) :
    (x.length ≤ 1 → removeNa x y true = .error .assertionError) ∧
    (2 ≤ x.length → y.length = 1 → removeNa x y true = .ok (x.filter Option.isSome, y)) ∧
    (2 ≤ x.length → y.length ≠ 1 → x.length ≠ y.length →
      removeNa x y true = if (∃ v ∈ x, v = none) ∨ (∃ v ∈ y, v = none) then .error .valueError else .ok (x, y)) := by
  refine ⟨fun h => by unfold removeNa; rw [if_pos h], fun h h1 => ?_, fun h h1 hne => ?_⟩
  · unfold removeNa; rw [if_neg (by omega), if_pos h1, removeNaSingle_eq]
  · unfold removeNa
    rw [if_neg (by omega), if_neg h1, if_neg (by simp)]
    simp only
    have key : ∀ z : List Cell, (z.map Option.isSome).all id = false ↔ ∃ v ∈ z, v = none := by
      intro z
      rw [← Bool.not_eq_true, all_isSome_iff]
      push Not; rfl
    by_cases hm : (∃ v ∈ x, v = none) ∨ (∃ v ∈ y, v = none)
    · rw [if_pos hm, if_pos (by rw [key, key]; exact hm), if_pos hne]
    · rw [if_neg hm, if_neg (by rw [key, key]; exact hm)]

example : removeNa [some 6, some 3, some 4, none] [some 2, none, some 5, some 1] true =
    .ok ([some 6, some 4], [some 2, some 5]) := by decide +kernel

end Metcalcpy.Props
