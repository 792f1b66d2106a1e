/-
C30  Bootstrap results always have ordered bounds.
C31  Confidence intervals are ordered and computed only from replicates that have a value.
C32  ECLV confidence limits are produced for complete replicates (false).
C73  A significant result needs an interval that leaves out zero.
-/
import Verif.Props.C27_Bootstrap
import Mathlib.Tactic.Positivity
import Mathlib.Data.List.Nodup

namespace Metcalcpy.Props
open Metcalcpy Spec

/-! ### C30 -/

/-- Both bounds present means in order. -/
def Ordered (r : BootResult) : Prop := ∀ a b, r.lower = some a → r.upper = some b → a ≤ b

/-- All three numbers present and the value inside. -/
def Inside (r : BootResult) : Prop :=
  ∃ l v u, r = ⟨some l, some v, some u⟩ ∧ l ≤ v ∧ v ≤ u

theorem mkBoot_ordered (l v u : Option ℚ) : Ordered (mkBoot l v u) := by
  intro a b ha hb
  cases l with
  | none => simp [mkBoot] at ha
  | some l =>
    cases u with
    | none => simp [mkBoot] at hb
    | some u =>
      simp only [mkBoot] at ha hb
      split_ifs at ha hb with h
      · simp only [Option.some.injEq] at ha hb; linarith
      · simp only [Option.some.injEq] at ha hb; linarith

theorem bootApply_ordered {r r' : BootResult} {op : BootOp} (h : bootApply r op = .ok r') : Ordered r' := by
  unfold bootApply at h
  split at h
  · obtain rfl := Except.ok.inj h
    exact mkBoot_ordered _ _ _
  · cases h

/-- C30: after construction and after any sequence of arithmetic operations the bounds are in order. -/
theorem C30_ordered (l v u : Option ℚ) (ops : List BootOp) (r : BootResult)
    (h : ops.foldlM bootApply (mkBoot l v u) = .ok r) (a b : ℚ) (ha : r.lower = some a)
    (hb : r.upper = some b) : a ≤ b := by
  have key : ∀ (ops : List BootOp) (r₀ : BootResult), Ordered r₀ → ops.foldlM bootApply r₀ = .ok r →
      Ordered r := by
    intro ops
    induction ops with
    | nil => intro r₀ h0 h; obtain rfl := Except.ok.inj h; exact h0
    | cons op ops ih =>
      intro r₀ h0 h
      rw [List.foldlM_cons] at h
      cases hb : bootApply r₀ op with
      | error e => rw [hb] at h; cases h
      | ok r₁ => rw [hb] at h; exact ih r₁ (bootApply_ordered hb) h
  exact key ops _ (mkBoot_ordered l v u) h a b ha hb

theorem bootOp_mono (op : BootOp) : (∀ x y : ℚ, x ≤ y → op.fn x ≤ op.fn y) ∨
    (∀ x y : ℚ, x ≤ y → op.fn y ≤ op.fn x) := by
  have hm : ∀ o : ℚ, (∀ x y : ℚ, x ≤ y → x * o ≤ y * o) ∨ (∀ x y : ℚ, x ≤ y → y * o ≤ x * o) := by
    intro o
    rcases le_total 0 o with h | h
    · exact Or.inl fun x y hxy => mul_le_mul_of_nonneg_right hxy h
    · exact Or.inr fun x y hxy => mul_le_mul_of_nonpos_right hxy h
  cases op with
  | add o => exact Or.inl fun x y h => by simp only [BootOp.fn]; linarith
  | radd o => exact Or.inl fun x y h => by simp only [BootOp.fn]; linarith
  | sub o => exact Or.inl fun x y h => by simp only [BootOp.fn]; linarith
  | rsub o => exact Or.inr fun x y h => by simp only [BootOp.fn]; linarith
  | mul o => exact hm o
  | rmul o => exact hm o

/-- C30: an interval around the value stays an interval around the value under any sequence of arithmetic
operations, none of which fails; the value is transformed by the operations. -/
theorem C30_value_inside (l v u : ℚ) (h1 : min l u ≤ v) (h2 : v ≤ max l u) (ops : List BootOp) :
    ∃ a b, ops.foldlM bootApply (mkBoot (some l) (some v) (some u)) =
        .ok ⟨some a, some (ops.foldl (fun x op => op.fn x) v), some b⟩ ∧
      a ≤ ops.foldl (fun x op => op.fn x) v ∧ ops.foldl (fun x op => op.fn x) v ≤ b := by
  have hmk : ∀ l v u : ℚ, min l u ≤ v → v ≤ max l u → ∃ a b, mkBoot (some l) (some v) (some u) =
      ⟨some a, some v, some b⟩ ∧ a ≤ v ∧ v ≤ b := by
    intro l v u h1 h2
    unfold mkBoot
    by_cases h : l > u
    · refine ⟨u, l, by simp [h], ?_, ?_⟩
      · rwa [min_eq_right h.le] at h1
      · rwa [max_eq_left h.le] at h2
    · refine ⟨l, u, by simp [h], ?_, ?_⟩
      · rwa [min_eq_left (not_lt.mp h)] at h1
      · rwa [max_eq_right (not_lt.mp h)] at h2
  obtain ⟨a, b, e, ha, hb⟩ := hmk l v u h1 h2
  rw [e]
  clear e h1 h2
  induction ops generalizing a v b with
  | nil => exact ⟨a, b, rfl, ha, hb⟩
  | cons op ops ih =>
    obtain ⟨a', b', e', ha', hb'⟩ := hmk (op.fn a) (op.fn v) (op.fn b)
      (by rcases bootOp_mono op with h | h
          · exact le_trans (min_le_left _ _) (h _ _ ha)
          · exact le_trans (min_le_right _ _) (h _ _ hb))
      (by rcases bootOp_mono op with h | h
          · exact le_trans (h _ _ hb) (le_max_right _ _)
          · exact le_trans (h _ _ ha) (le_max_left _ _))
    obtain ⟨a'', b'', e'', h''⟩ := ih (op.fn v) a' b' ha' hb'
    refine ⟨a'', b'', ?_, h''⟩
    rw [List.foldlM_cons]
    simp only [bootApply, e']
    exact e''

example : [BootOp.mul (-2), .rsub 1].foldlM bootApply (mkBoot (some 3) (some 2) (some 1)) =
    .ok ⟨some 3, some 5, some 7⟩ := by decide +kernel

/-! ### C73 -/

/-- C73: a result counts as significantly positive (negative) exactly when its value and the whole interval
are positive (negative), if the value lies inside the interval. -/
theorem C73_significance (l v u : ℚ) (h1 : l ≤ v) (h2 : v ≤ u) :
    (getResult ⟨some l, some v, some u⟩ = some 1 ↔ 0 < l) ∧
    (getResult ⟨some l, some v, some u⟩ = some (-1) ↔ u < 0) ∧
    (getResult ⟨some l, some v, some u⟩ = some 0 ↔ l ≤ 0 ∧ 0 ≤ u) := by
  simp only [getResult, isSignificant, npSign]
  rcases lt_trichotomy l 0 with a | a | a <;> rcases lt_trichotomy v 0 with b | b | b <;>
    rcases lt_trichotomy u 0 with c | c | c <;>
    first
      | (exfalso; linarith)
      | (simp [a, b, c, not_lt.mpr a.le, not_lt.mpr b.le, not_lt.mpr c.le, a.le, c.le, not_le.mpr a,
          not_le.mpr c])
      | (subst_vars; simp_all [not_lt.mpr, le_of_lt])

/-! ### C31 -/

theorem percentile_spec (xs : List ℚ) (hne : xs ≠ []) (q : ℚ) (h0 : 0 ≤ q) (h1 : q ≤ 1) :
    ∃ (j : ℕ) (a b g : ℚ), (j : ℚ) ≤ q * ((xs.length : ℚ) - 1) ∧ q * ((xs.length : ℚ) - 1) < j + 1 ∧
      g = q * ((xs.length : ℚ) - 1) - j ∧ j < xs.length ∧
      (xs.insertionSort (· ≤ ·))[j]? = some a ∧
      (xs.insertionSort (· ≤ ·))[min (j + 1) (xs.length - 1)]? = some b ∧
      percentile xs q = .ok (a + (b - a) * g) := by
  have hn : 0 < xs.length := List.length_pos_iff.mpr hne
  have hn' : (1 : ℚ) ≤ xs.length := by exact_mod_cast hn
  have hv : 0 ≤ q * ((xs.length : ℚ) - 1) := mul_nonneg h0 (by linarith)
  have hv2 : q * ((xs.length : ℚ) - 1) ≤ (xs.length : ℚ) - 1 := by nlinarith
  have hf0 : 0 ≤ ⌊q * ((xs.length : ℚ) - 1)⌋ := Int.floor_nonneg.mpr hv
  obtain ⟨j, hj⟩ := Int.eq_ofNat_of_zero_le hf0
  have hle := Int.floor_le (q * ((xs.length : ℚ) - 1))
  have hlt := Int.lt_floor_add_one (q * ((xs.length : ℚ) - 1))
  rw [hj] at hle hlt
  push_cast at hle hlt
  have hjl : j < xs.length := by
    have : (j : ℚ) < xs.length := by linarith
    exact_mod_cast this
  have hsl : (xs.insertionSort (· ≤ ·)).length = xs.length := List.length_insertionSort _ _
  have hj' : j < (xs.insertionSort (· ≤ ·)).length := by omega
  have hj2 : min (j + 1) (xs.length - 1) < (xs.insertionSort (· ≤ ·)).length := by omega
  refine ⟨j, (xs.insertionSort (· ≤ ·))[j], (xs.insertionSort (· ≤ ·))[min (j + 1) (xs.length - 1)],
    _, hle, hlt, rfl, hjl, List.getElem?_eq_getElem hj', List.getElem?_eq_getElem hj2, ?_⟩
  unfold percentile
  rw [if_neg (by push Not; exact ⟨h0, h1⟩)]
  simp only [hj, Int.ofNat_eq_natCast, Int.toNat_natCast, List.getElem?_eq_getElem hj',
    List.getElem?_eq_getElem hj2, Int.cast_natCast]

theorem sorted_le {s : List ℚ} (hs : s.Pairwise (· ≤ ·)) {i j : ℕ} {a b : ℚ} (hij : i ≤ j)
    (ha : s[i]? = some a) (hb : s[j]? = some b) : a ≤ b := by
  obtain ⟨hi, rfl⟩ := List.getElem?_eq_some_iff.mp ha
  obtain ⟨hj, rfl⟩ := List.getElem?_eq_some_iff.mp hb
  rcases Nat.lt_or_eq_of_le hij with h | h
  · exact List.pairwise_iff_getElem.mp hs i j hi hj h
  · subst h; exact le_refl _

theorem isort_sorted (xs : List ℚ) : (xs.insertionSort (· ≤ ·)).Pairwise (· ≤ ·) :=
  List.pairwise_insertionSort _ _

/-- Percentiles grow with the fraction and stay between the smallest and the largest element. -/
theorem percentile_mono (xs : List ℚ) (hne : xs ≠ []) (p q : ℚ) (h0 : 0 ≤ p) (hpq : p ≤ q) (h1 : q ≤ 1) :
    ∃ a b lo hi, a ∈ xs ∧ b ∈ xs ∧ percentile xs p = .ok lo ∧ percentile xs q = .ok hi ∧
      a ≤ lo ∧ lo ≤ hi ∧ hi ≤ b := by
  obtain ⟨j, a, b, g, e1, e2, rfl, e3, e4, e5, e6⟩ := percentile_spec xs hne p h0 (by linarith)
  obtain ⟨k, c, d, g', f1, f2, rfl, f3, f4, f5, f6⟩ := percentile_spec xs hne q (by linarith) h1
  have hs := isort_sorted xs
  have hn' : (1 : ℚ) ≤ xs.length := by
    exact_mod_cast List.length_pos_iff.mpr hne
  have hvw : p * ((xs.length : ℚ) - 1) ≤ q * ((xs.length : ℚ) - 1) :=
    mul_le_mul_of_nonneg_right hpq (by linarith)
  have hab : a ≤ b := sorted_le hs (by omega) e4 e5
  have hcd : c ≤ d := sorted_le hs (by omega) f4 f5
  have hjk : j ≤ k := by
    have : (j : ℚ) < k + 1 := by linarith
    have : j < k + 1 := by exact_mod_cast this
    omega
  have mem : ∀ {i : ℕ} {x : ℚ}, (xs.insertionSort (· ≤ ·))[i]? = some x → x ∈ xs := fun h =>
    (List.mem_insertionSort _).mp (List.mem_of_getElem? h)
  refine ⟨a, d, _, _, mem e4, mem f5, e6, f6, ?_, ?_, ?_⟩
  · have : 0 ≤ (b - a) * (p * ((xs.length : ℚ) - 1) - j) := mul_nonneg (by linarith) (by linarith)
    linarith
  · rcases Nat.lt_or_eq_of_le hjk with h | h
    · have hbc : b ≤ c := sorted_le hs (by omega) e5 f4
      have m1 : (b - a) * (p * ((xs.length : ℚ) - 1) - j) ≤ (b - a) * 1 :=
        mul_le_mul_of_nonneg_left (by linarith) (by linarith)
      have m2 : 0 ≤ (d - c) * (q * ((xs.length : ℚ) - 1) - k) := mul_nonneg (by linarith) (by linarith)
      linarith
    · subst h
      rw [e4, Option.some.injEq] at f4
      rw [e5, Option.some.injEq] at f5
      subst f4 f5
      have : (b - a) * (p * ((xs.length : ℚ) - 1) - j) ≤ (b - a) * (q * ((xs.length : ℚ) - 1) - j) :=
        mul_le_mul_of_nonneg_left (by linarith) (by linarith)
      linarith
  · have : (d - c) * (q * ((xs.length : ℚ) - 1) - k) ≤ (d - c) * 1 :=
      mul_le_mul_of_nonneg_left (by linarith) (by linarith)
    linarith

/-- At least `⌊q(n-1)⌋ + 1` elements are at most the percentile, at most that many are below it. -/
theorem percentile_rank (xs : List ℚ) (hne : xs ≠ []) (q v : ℚ) (h0 : 0 ≤ q) (h1 : q ≤ 1)
    (h : percentile xs q = .ok v) :
    (q * ((xs.length : ℚ) - 1) < xs.countP (fun x => decide (x ≤ v))) ∧
    ((xs.countP (fun x => decide (x < v)) : ℚ) ≤ q * ((xs.length : ℚ) - 1) + 1) := by
  obtain ⟨j, a, b, g, e1, e2, rfl, e3, e4, e5, e6⟩ := percentile_spec xs hne q h0 h1
  rw [h] at e6
  have e6 := Except.ok.inj e6
  have hs := isort_sorted xs
  have hab : a ≤ b := sorted_le hs (by omega) e4 e5
  have hav : a ≤ v := by
    have : 0 ≤ (b - a) * (q * ((xs.length : ℚ) - 1) - j) := mul_nonneg (by linarith) (by linarith)
    linarith
  have hvb : v ≤ b := by
    have : (b - a) * (q * ((xs.length : ℚ) - 1) - j) ≤ (b - a) * 1 :=
      mul_le_mul_of_nonneg_left (by linarith) (by linarith)
    linarith
  have hp : ∀ P : ℚ → Bool, xs.countP P = (xs.insertionSort (· ≤ ·)).countP P := fun P =>
    ((List.perm_insertionSort (· ≤ ·) xs).countP_eq P).symm
  have hsl : (xs.insertionSort (· ≤ ·)).length = xs.length := List.length_insertionSort _ _
  rw [hp, hp]
  generalize xs.insertionSort (· ≤ ·) = s at *
  constructor
  · have : j + 1 ≤ s.countP (fun x => decide (x ≤ v)) := by
      calc j + 1 = (s.take (j + 1)).length := by rw [List.length_take]; omega
        _ = (s.take (j + 1)).countP (fun x => decide (x ≤ v)) := by
            rw [eq_comm, List.countP_eq_length]
            intro x hx
            obtain ⟨i, hi, rfl⟩ := List.getElem_of_mem hx
            rw [List.getElem_take]
            rw [List.length_take] at hi
            have := sorted_le hs (by omega : i ≤ j) (List.getElem?_eq_getElem (by omega)) e4
            simp; linarith
        _ ≤ _ := List.Sublist.countP_le (List.take_sublist _ _)
    have : ((j : ℚ) + 1) ≤ (s.countP (fun x => decide (x ≤ v)) : ℚ) := by exact_mod_cast this
    linarith
  · have hm : s.countP (fun x => decide (x < v)) ≤ j + 1 := by
      have e : s.countP (fun x => decide (x < v)) =
          (s.take (j + 1)).countP (fun x => decide (x < v)) +
            (s.drop (j + 1)).countP (fun x => decide (x < v)) := by
        rw [← List.countP_append, List.take_append_drop]
      have : (s.drop (j + 1)).countP (fun x => decide (x < v)) = 0 := by
        rw [List.countP_eq_zero]
        intro x hx
        obtain ⟨i, hi, rfl⟩ := List.getElem_of_mem hx
        rw [List.getElem_drop]
        rw [List.length_drop] at hi
        have := sorted_le hs (by omega : min (j + 1) (xs.length - 1) ≤ j + 1 + i) e5
          (List.getElem?_eq_getElem (by omega))
        simp; linarith
      rw [e, this, Nat.add_zero]
      refine le_trans List.countP_le_length ?_
      rw [List.length_take]; omega
    have : (s.countP (fun x => decide (x < v)) : ℚ) ≤ (j : ℚ) + 1 := by exact_mod_cast hm
    linarith

theorem mkBoot_le (a v b : ℚ) (h : a ≤ b) :
    mkBoot (some a) (some v) (some b) = ⟨some a, some v, some b⟩ := by
  simp [mkBoot, not_lt.mpr h]

/-- C31: with the percentile method, two different available replicates and alpha in [0,1], the interval is
made of the alpha/2 and 1 - alpha/2 percentiles of the available replicates: it is ordered, lies between two
of them, and at most `alpha/2 · (n-1) + 1` of them are below it, at most as many above it. -/
theorem C31_percentile_interval (dist : List Cell) (v alpha : ℚ) (h0 : 0 ≤ alpha) (h1 : alpha ≤ 1)
    (hx : ∃ x y, some x ∈ dist ∧ some y ∈ dist ∧ x ≠ y) :
    ∃ lo hi, confidenceInterval dist (some v) alpha .perc = .ok ⟨some lo, some v, some hi⟩ ∧ lo ≤ hi ∧
      (∃ a b, some a ∈ dist ∧ some b ∈ dist ∧ a ≤ lo ∧ hi ≤ b) ∧
      ((dist.filterMap id).countP (fun x => decide (x < lo)) : ℚ) ≤
        alpha / 2 * (((dist.filterMap id).length : ℚ) - 1) + 1 ∧
      ((dist.filterMap id).countP (fun x => decide (hi < x)) : ℚ) ≤
        alpha / 2 * (((dist.filterMap id).length : ℚ) - 1) + 1 := by
  obtain ⟨x, y, hx, hy, hxy⟩ := hx
  have hmem : ∀ {z : ℚ}, some z ∈ dist ↔ z ∈ dist.filterMap id := by
    intro z; simp [List.mem_filterMap]
  rw [hmem] at hx hy
  have hsame : allTheSame dist = false := by
    unfold allTheSame
    have hd : dist ≠ [] := by rintro rfl; simp at hx
    have : dist.isEmpty = false := by simpa using hd
    rw [this]
    simp only [Bool.false_eq_true, if_false, beq_eq_false_iff_ne]
    intro hl
    obtain ⟨z, hz⟩ := List.length_eq_one_iff.mp hl
    have a1 : x ∈ (dist.filterMap id).dedup := List.mem_dedup.mpr hx
    have a2 : y ∈ (dist.filterMap id).dedup := List.mem_dedup.mpr hy
    rw [hz, List.mem_singleton] at a1 a2
    exact hxy (a1.trans a2.symm)
  have hbd : dist.filterMap id ≠ [] := List.ne_nil_of_mem hx
  obtain ⟨a, b, lo, hi, ha, hb, e1, e2, l1, l2, l3⟩ :=
    percentile_mono (dist.filterMap id) hbd (alpha / 2) (1 - alpha / 2) (by linarith) (by linarith)
      (by linarith)
  refine ⟨lo, hi, ?_, l2, ⟨a, b, hmem.mpr ha, hmem.mpr hb, l1, l3⟩, ?_, ?_⟩
  · simp only [confidenceInterval, hsame, Bool.false_eq_true, if_false, e1, e2, bind, Except.bind]
    rw [mkBoot_le _ _ _ l2]
  · exact (percentile_rank _ hbd _ _ (by linarith) (by linarith) e1).2
  · have hr := (percentile_rank _ hbd _ _ (by linarith) (by linarith) e2).1
    generalize dist.filterMap id = bd at *
    have hc : bd.countP (fun x => decide (hi < x)) + bd.countP (fun x => decide (x ≤ hi)) = bd.length := by
      rw [List.length_eq_countP_add_countP (fun x => decide (hi < x))]
      congr 1
      apply List.countP_congr
      intro x _
      simp
    have hc' : (bd.countP (fun x => decide (hi < x)) : ℚ) + (bd.countP (fun x => decide (x ≤ hi)) : ℚ) =
        bd.length := by exact_mod_cast hc
    nlinarith [hr, hc']

example : ∃ x y : ℚ, some x ∈ [some 1, none, some 4] ∧ some y ∈ [some (1 : ℚ), none, some 4] ∧ x ≠ y :=
  ⟨1, 4, by simp, by simp, by norm_num⟩
example : confidenceInterval [some 1, none, some 4, some 2] (some 3) (1 / 2) .perc =
    .ok ⟨some (3 / 2), some 3, some 3⟩ := by decide +kernel

/-- C31: missing replicates have no influence: the interval is that of the available ones. -/
theorem C31_only_available (dist : List Cell) (stat : Option ℚ) (alpha : ℚ)
    (h : ∃ x, some x ∈ dist) :
    confidenceInterval dist stat alpha .perc =
      confidenceInterval ((dist.filterMap id).map some) stat alpha .perc := by
  obtain ⟨x, hx⟩ := h
  have hx' : x ∈ dist.filterMap id := by simpa [List.mem_filterMap] using hx
  have e : ((dist.filterMap id).map some).filterMap id = dist.filterMap id := by
    rw [List.filterMap_map]; simp
  cases stat with
  | none => rfl
  | some v =>
    have hs : allTheSame dist = allTheSame ((dist.filterMap id).map some) := by
      unfold allTheSame
      rw [e]
      have h1 : dist.isEmpty = false := by
        cases dist with
        | nil => simp at hx
        | cons _ _ => rfl
      have h2 : ((dist.filterMap id).map some).isEmpty = false := by
        cases hd : dist.filterMap id with
        | nil => rw [hd] at hx'; simp at hx'
        | cons _ _ => rfl
      rw [h1, h2]
    simp only [confidenceInterval, e, hs]

/-- C31: no bounds when the statistic is missing, or when all available replicates agree. -/
theorem C31_no_bounds (dist : List Cell) (alpha v x : ℚ) (m : CiMethod) :
    confidenceInterval dist none alpha m = .ok ⟨none, none, none⟩ ∧
    ((∀ y ∈ dist, y = none ∨ y = some x) → some x ∈ dist →
      confidenceInterval dist (some v) alpha .perc = .ok ⟨none, some v, none⟩) := by
  refine ⟨rfl, fun hall hx => ?_⟩
  have hx' : x ∈ dist.filterMap id := by simpa [List.mem_filterMap] using hx
  have hs : allTheSame dist = true := by
    unfold allTheSame
    split_ifs with h
    · rfl
    · have hd : (dist.filterMap id).dedup = [x] := by
        have hn := List.nodup_dedup (dist.filterMap id)
        have hm : ∀ y ∈ (dist.filterMap id).dedup, y = x := by
          intro y hy
          have : some y ∈ dist := by simpa [List.mem_filterMap] using List.mem_dedup.mp hy
          rcases hall _ this with h | h
          · cases h
          · exact Option.some.inj h
        have hx2 : x ∈ (dist.filterMap id).dedup := List.mem_dedup.mpr hx'
        match hl : (dist.filterMap id).dedup with
        | [] => rw [hl] at hx2; simp at hx2
        | [y] => rw [hl] at hm; rw [hm y (by simp)]
        | y :: z :: l =>
          rw [hl] at hm hn
          have := hm y (by simp)
          have h2 := hm z (by simp)
          rw [this, h2] at hn
          simp at hn
      rw [hd]; rfl
  simp [confidenceInterval, hs, mkBoot]

/-- C31: the pivotal interval of complete replicates is ordered too. -/
theorem C31_pivotal (dist : List ℚ) (hne : dist ≠ []) (v alpha : ℚ) (h0 : 0 ≤ alpha) (h1 : alpha ≤ 1) :
    ∃ lo hi, confidenceInterval (dist.map some) (some v) alpha .pivotal = .ok ⟨some lo, some v, some hi⟩ ∧
      lo ≤ hi ∧ ∃ a b, a ∈ dist ∧ b ∈ dist ∧ 2 * v - b ≤ lo ∧ hi ≤ 2 * v - a := by
  obtain ⟨a, b, lo, hi, ha, hb, e1, e2, l1, l2, l3⟩ :=
    percentile_mono dist hne (alpha / 2) (1 - alpha / 2) (by linarith) (by linarith) (by linarith)
  refine ⟨2 * v - hi, 2 * v - lo, ?_, by linarith, a, b, ha, hb, by linarith, by linarith⟩
  have e : (dist.map some).filterMap id = dist := by rw [List.filterMap_map]; simp
  have hn : (dist.map some).any Option.isNone = false := by simp
  simp only [confidenceInterval, percentileCells, hn, Bool.false_eq_true, if_false, e, e1, e2, bind,
    Except.bind]
  rw [mkBoot_le _ _ _ (by linarith)]

example : confidenceInterval [some 1, some 2, some 4] (some 3) (1 / 2) .pivotal =
    .ok ⟨some 3, some 3, some (9 / 2)⟩ := by decide +kernel

/-- A surprise: replicates that are all missing are not "all the same"; an IndexError escapes. -/
theorem C31_all_missing (k : ℕ) (v alpha : ℚ) (h0 : 0 ≤ alpha) (h1 : alpha ≤ 1) :
    confidenceInterval (List.replicate (k + 1) none) (some v) alpha .perc = .error .indexError := by
  have e : (List.replicate (k + 1) (none : Cell)).filterMap id = [] := by simp
  have hs : allTheSame (List.replicate (k + 1) (none : Cell)) = false := by
    unfold allTheSame
    rw [e]; simp
  have hp : ∀ q : ℚ, 0 ≤ q → q ≤ 1 → percentile [] q = .error .indexError := by
    intro q h0 h1
    unfold percentile
    rw [if_neg (by push Not; exact ⟨h0, h1⟩)]
    rfl
  simp only [confidenceInterval, hs, Bool.false_eq_true, if_false, e, hp (alpha / 2) (by linarith)
    (by linarith), bind, Except.bind]

/-! ### C32 -/

theorem mapM_mem {α β : Type} (f : α → Except PyErr β) : ∀ (l : List α) (r : List β),
    l.mapM f = .ok r → ∀ y ∈ r, ∃ x ∈ l, f x = .ok y
  | [], r, h, y, hy => by obtain rfl := Except.ok.inj h; simp at hy
  | x :: l, r, h, y, hy => by
    rw [List.mapM_cons] at h
    cases hx : f x with
    | error e => rw [hx] at h; cases h
    | ok z =>
      cases hl : l.mapM f with
      | error e => rw [hx, hl] at h; cases h
      | ok zs =>
        rw [hx, hl] at h
        obtain rfl := Except.ok.inj h
        rcases List.mem_cons.mp hy with rfl | hy
        · exact ⟨x, by simp, hx⟩
        · obtain ⟨x', h1, h2⟩ := mapM_mem f l zs hl y hy
          exact ⟨x', by simp [h1], h2⟩

theorem eclvLimits_different (column : List ℚ) (x y : ℚ) (hx : x ∈ column) (hy : y ∈ column) (hxy : x ≠ y)
    (alpha : ℚ) (h0 : 0 ≤ alpha) (h1 : alpha ≤ 1) :
    ∃ lo hi, percentile column (alpha / 2) = .ok lo ∧ percentile column (1 - alpha / 2) = .ok hi ∧
      eclvLimits (column.map some) alpha .perc = .ok (some lo, some hi) ∧ lo ≤ hi ∧
      ∃ a b, a ∈ column ∧ b ∈ column ∧ a ≤ lo ∧ hi ≤ b := by
  obtain ⟨a, b, lo, hi, ha, hb, e1, e2, l1, l2, l3⟩ :=
    percentile_mono column (List.ne_nil_of_mem hx) (alpha / 2) (1 - alpha / 2) (by linarith) (by linarith)
      (by linarith)
  refine ⟨lo, hi, e1, e2, ?_, l2, a, b, ha, hb, l1, l3⟩
  have e : (column.map some).filterMap id = column := by rw [List.filterMap_map]; simp
  have hn : (column.map some).any Option.isNone = false := by simp
  have hs : allTheSame (column.map some) = false := by
    unfold allTheSame
    rw [e]
    split_ifs with h
    · simp only [List.isEmpty_iff, List.map_eq_nil_iff] at h
      rw [h] at hx; simp at hx
    · simp only [beq_eq_false_iff_ne]
      intro hl
      obtain ⟨z, hz⟩ := List.length_eq_one_iff.mp hl
      have a1 : x ∈ column.dedup := List.mem_dedup.mpr hx
      have a2 : y ∈ column.dedup := List.mem_dedup.mpr hy
      rw [hz, List.mem_singleton] at a1 a2
      exact hxy (a1.trans a2.symm)
  simp only [eclvLimits, hs, Bool.false_eq_true, if_false, percentileCells, hn, e, e1, e2, bind, Except.bind]

theorem eclvLimits_equal (column : List ℚ) (hne : column ≠ []) (x : ℚ) (hx : ∀ y ∈ column, y = x) (alpha : ℚ) :
    eclvLimits (column.map some) alpha .perc = .ok (none, none) := by
  have e : (column.map some).filterMap id = column := by rw [List.filterMap_map]; simp
  have hs : allTheSame (column.map some) = true := by
    unfold allTheSame
    rw [e]
    split_ifs with h
    · rfl
    · have hd : column.dedup = [x] := by
        have h1 : column = List.replicate column.length x := List.eq_replicate_of_mem hx
        rw [h1]
        exact List.replicate_dedup (by simpa using hne)
      rw [hd]; rfl
  simp only [eclvLimits, hs, if_true]

theorem mapM_range_ok {β : Type} (f : ℕ → Except PyErr β) (P : ℕ → β → Prop) : ∀ n, (∀ i < n, ∃ y, f i = .ok y ∧ P i y) →
    ∃ r, (List.range n).mapM f = .ok r ∧ r.length = n ∧ ∀ i (h : i < r.length), P i r[i]
  | 0, _ => ⟨[], rfl, rfl, by simp⟩
  | n + 1, h => by
    obtain ⟨r, e1, e2, e3⟩ := mapM_range_ok f P n (fun i hi => h i (by omega))
    obtain ⟨y, h1, h2⟩ := h n (by omega)
    refine ⟨r ++ [y], ?_, by simp [e2], ?_⟩
    · rw [List.range_succ, List.mapM_append, e1]
      simp only [List.mapM_cons, List.mapM_nil, h1, bind, Except.bind, pure, Except.pure]
    · intro i hi
      by_cases hin : i < n
      · rw [List.getElem_append_left (by omega)]
        exact e3 i (by omega)
      · have : i = n := by simp at hi; omega
        subst this
        rw [List.getElem_append_right (by omega)]
        simpa [e2] using h2

/-- The values of the replicates at the ratio of index `i` (0 where a replicate is too short). -/
def ratioColumn (reps : List (List ℚ)) (i : ℕ) : List ℚ := reps.map fun r => r.getD i 0

theorem eclvColumn_eq (reps : List (List ℚ)) (hne : reps ≠ []) (i : ℕ) (h : ∀ r ∈ reps, i < r.length) :
    eclvColumn (reps.map fun r => r.map some) i = .ok ((ratioColumn reps i).map some) := by
  have key : (reps.map fun r => r.map (some : ℚ → Cell)).mapM (fun r => r[i]?) = some ((ratioColumn reps i).map some) := by
    clear hne
    induction reps with
    | nil => rfl
    | cons r rs ih =>
      have hr := h r (by simp)
      rw [List.map_cons, List.mapM_cons, ih (fun r hr => h r (by simp [hr]))]
      simp [ratioColumn, hr]
  unfold eclvColumn
  cases reps with
  | nil => exact absurd rfl hne
  | cons r rs =>
    rw [key]
    rfl

/-- C32 (the percentile method): the replicates that succeeded have a value at each cost/loss ratio of the point
estimate and there is one at least.  Then the interval is produced, with one pair of limits for each ratio.  Where two
replicates differ the limits exist, they are the percentiles alpha/2 and 1 - alpha/2 of the replicates at this ratio,
they are ordered and within the range of the replicates.  Where all replicates agree there are no limits. -/
theorem C32_limits_partial (dist : List (Option (List ℚ))) (v : List Cell) (alpha : ℚ) (h0 : 0 ≤ alpha) (h1 : alpha ≤ 1)
    (hne : dist.filterMap id ≠ []) (hlen : ∀ r ∈ dist.filterMap id, v.length ≤ r.length) :
    ∃ l, eclvInterval (dist.map fun r => r.map fun r => r.map some) (some v) alpha .perc = .ok (some l) ∧
      l.length = v.length ∧ ∀ i (h : i < l.length),
        ((∃ x ∈ ratioColumn (dist.filterMap id) i, ∃ y ∈ ratioColumn (dist.filterMap id) i, x ≠ y) →
          ∃ lo hi, l[i] = (some lo, some hi) ∧ lo ≤ hi ∧
            percentile (ratioColumn (dist.filterMap id) i) (alpha / 2) = .ok lo ∧
            percentile (ratioColumn (dist.filterMap id) i) (1 - alpha / 2) = .ok hi ∧
            ∃ a ∈ ratioColumn (dist.filterMap id) i, ∃ b ∈ ratioColumn (dist.filterMap id) i, a ≤ lo ∧ hi ≤ b) ∧
        ((∀ x ∈ ratioColumn (dist.filterMap id) i, ∀ y ∈ ratioColumn (dist.filterMap id) i, x = y) → l[i] = (none, none)) := by
  have hf : (dist.map fun r => r.map fun r => r.map (some : ℚ → Cell)).filterMap id =
      (dist.filterMap id).map fun r => r.map some := by
    rw [List.filterMap_map, List.map_filterMap]
    congr 1
  set reps := dist.filterMap id with hreps
  obtain ⟨l, e1, e2, e3⟩ := mapM_range_ok (fun i => do
      let column ← eclvColumn ((dist.map fun r => r.map fun r => r.map (some : ℚ → Cell)).filterMap id) i
      eclvLimits column alpha .perc)
    (fun i p => ((∃ x ∈ ratioColumn reps i, ∃ y ∈ ratioColumn reps i, x ≠ y) →
          ∃ lo hi, p = (some lo, some hi) ∧ lo ≤ hi ∧
            percentile (ratioColumn reps i) (alpha / 2) = .ok lo ∧
            percentile (ratioColumn reps i) (1 - alpha / 2) = .ok hi ∧
            ∃ a ∈ ratioColumn reps i, ∃ b ∈ ratioColumn reps i, a ≤ lo ∧ hi ≤ b) ∧
        ((∀ x ∈ ratioColumn reps i, ∀ y ∈ ratioColumn reps i, x = y) → p = (none, none))) v.length (by
      intro i hi
      rw [hf, eclvColumn_eq reps hne i (fun r hr => lt_of_lt_of_le hi (hlen r hr))]
      simp only [bind, Except.bind]
      by_cases hd : ∃ x ∈ ratioColumn reps i, ∃ y ∈ ratioColumn reps i, x ≠ y
      · obtain ⟨x, hx, y, hy, hxy⟩ := hd
        obtain ⟨lo, hi, p1, p2, p3, p4, a, b, ha, hb, q1, q2⟩ := eclvLimits_different _ x y hx hy hxy alpha h0 h1
        exact ⟨_, p3, fun _ => ⟨lo, hi, rfl, p4, p1, p2, a, ha, b, hb, q1, q2⟩, fun h => absurd (h x hx y hy) hxy⟩
      · push Not at hd
        have hc : ratioColumn reps i ≠ [] := by simpa [ratioColumn] using hne
        obtain ⟨x, hx⟩ := List.exists_mem_of_ne_nil _ hc
        exact ⟨_, eclvLimits_equal _ hc x (fun y hy => hd y hy x hx) alpha,
          fun ⟨x, hx, y, hy, hxy⟩ => absurd (hd x hx y hy) hxy, fun _ => rfl⟩)
  refine ⟨l, ?_, e2, e3⟩
  unfold eclvInterval
  simp only [e1, bind, Except.bind] at e1 ⊢

/-- Three replicates, one failed, over three ratios: limits where the replicates differ. -/
example : eclvInterval [some [some 1, some 5, some 4], none, some [some 3, some 5, some 8]]
      (some [some 2, some 6, none]) (1 / 20) .perc =
    .ok (some [(some (21 / 20), some (59 / 20)), (none, none), (some (41 / 10), some (79 / 10))]) := by
  decide +kernel

/-- C32 fails for the pivotal method: whatever the replicates, a point estimate with some ratio makes it fail. -/
theorem C32_counterexample (dist : List (Option (List Cell))) (x : Cell) (v : List Cell) (alpha : ℚ) :
    ∃ e, eclvInterval dist (some (x :: v)) alpha .pivotal = .error e := by
  simp only [eclvInterval]
  rw [List.length_cons, List.range_succ_eq_map, List.mapM_cons]
  cases hc : eclvColumn (dist.filterMap id) 0 with
  | error e => exact ⟨e, rfl⟩
  | ok c => exact ⟨.typeError, rfl⟩

/-- Complete, different replicates. -/
example : eclvInterval [some [some 1, some 5], some [some 2, some 6], some [some 3, some 8]]
      (some [some 2, some 6]) (1 / 20) .pivotal = .error .typeError := by
  decide +kernel

/-- Whatever the method: a pair of limits is absent or present and ordered. -/
theorem eclvInterval_ordered (dist : List (Option (List Cell))) (v : List Cell) (alpha : ℚ) (h0 : 0 ≤ alpha) (h1 : alpha ≤ 1)
    (m : CiMethod) (l : List (Option ℚ × Option ℚ)) (h : eclvInterval dist (some v) alpha m = .ok (some l)) :
    ∀ p ∈ l, p = (none, none) ∨ ∃ lo hi, p = (some lo, some hi) ∧ lo ≤ hi := by
  simp only [eclvInterval, bind, Except.bind] at h
  split at h
  · cases h
  · rename_i l' hl
    simp only [Except.ok.injEq, Option.some.injEq] at h
    subst h
    intro p hp
    obtain ⟨i, -, hi⟩ := mapM_mem _ _ _ hl p hp
    cases hc : eclvColumn (dist.filterMap id) i with
    | error e => rw [hc] at hi; cases hi
    | ok c =>
      rw [hc] at hi
      simp only [eclvLimits] at hi
      split at hi
      · cases hi
      · split at hi
        · exact .inl (Except.ok.inj hi).symm
        · right
          rename_i hs
          unfold percentileCells at hi
          split at hi
          · cases hi
          · have hne : c.filterMap id ≠ [] := by
              intro hn
              apply hs
              unfold allTheSame
              rename_i hany
              cases c with
              | nil => rfl
              | cons x c => cases x <;> simp_all
            obtain ⟨a, b, lo, up, ha, hb, e1, e2, l1, l2, l3⟩ := percentile_mono (c.filterMap id) hne (alpha / 2) (1 - alpha / 2)
              (by linarith) (by linarith) (by linarith)
            rw [e1, e2] at hi
            exact ⟨lo, up, (Except.ok.inj hi).symm, l2⟩
      · exact .inl (Except.ok.inj hi).symm

end Metcalcpy.Props
