/-
C157  Symmetric and antisymmetric parts about the equator.
C158  The two functions for the spectra of a segment agree.
-/
import Verif.Model.SpacetimeFilter
import Verif.Props.C156_Coherence

namespace Metcalcpy.Props
open Metcalcpy

/-- Row `i` of `out` belongs to the latitude `i` of those that `keep` keeps, and holds half of the value there plus `sgn` times the value at
the opposite latitude. -/
def IsPart (sgn : ℚ) (keep : ℚ → Bool) (X lat out : List ℚ) : Prop :=
  out.length = (lat.filter keep).length ∧
  ∀ (i a b : ℕ) (φ : ℚ), (lat.filter keep)[i]? = some φ → lat[a]? = some φ → lat[b]? = some (-φ) →
    out[i]? = some ((X.getD a 0 + sgn * X.getD b 0) / 2)

theorem symmFill_eq (sgn : ℚ) (X x : List ℚ) : ∀ n, n ≤ x.length →
    symmFill sgn X x n = .ok ((List.range n).map (fun ll => 1 / 2 * (X.getD ll 0 + sgn * X.getD (X.length - ll - 1) 0)) ++ x.drop n) := by
  intro n
  induction n with
  | zero => intro _; rfl
  | succ n ih =>
    intro hn
    have := ih (by omega)
    unfold symmFill at this ⊢
    rw [List.range_succ, List.foldlM_append, this]
    simp only [bind, Except.bind, List.foldlM_cons, List.foldlM_nil, pure, Except.pure]
    rw [if_pos (by simp; omega)]
    simp only [List.map_append, List.map_cons, List.map_nil, List.append_assoc]
    congr 1
    rw [List.set_append_right _ _ (by simp)]
    have hd : x.drop n = x[n]'(by omega) :: x.drop (n + 1) := List.drop_eq_getElem_cons (by omega)
    rw [hd]
    simp only [List.length_map, List.length_range, Nat.sub_self, List.set_cons_zero, List.cons_append, List.nil_append]

theorem maskRows_length (X lat : List ℚ) (p : ℚ → Bool) (h : X.length = lat.length) :
    ∃ x, maskRows X lat p = .ok x ∧ x.length = (lat.filter p).length := by
  refine ⟨_, if_pos h, ?_⟩
  rw [List.length_map]
  have : (lat.filter p) = ((X.zip lat).filter fun q => p q.2).map Prod.snd := by
    conv_lhs => rw [← List.map_snd_zip (l₁ := X) (l₂ := lat) (by omega)]
    rw [List.filter_map]
    rfl
  rw [this, List.length_map]

/-- Latitudes from north to south, the same on both sides of the equator. -/
structure Descending (lat : List ℚ) : Prop where
  sorted : lat.Pairwise (· > ·)
  symm : lat.reverse = lat.map (-·)

theorem Descending.get_opp {lat : List ℚ} (h : Descending lat) (i : ℕ) (hi : i < lat.length) :
    lat[lat.length - 1 - i]'(by omega) = -lat[i] := by
  have h1 : lat.reverse[i]? = (lat.map (-·))[i]? := by rw [h.symm]
  rw [List.getElem?_reverse hi, List.getElem?_map, List.getElem?_eq_getElem hi, List.getElem?_eq_getElem (by omega)] at h1
  simpa using h1

theorem Descending.lt {lat : List ℚ} (h : Descending lat) {i j : ℕ} (hij : i < j) (hj : j < lat.length) :
    lat[j] < lat[i]'(by omega) := (List.pairwise_iff_getElem.mp h.sorted) i j (by omega) hj hij

theorem Descending.sign {lat : List ℚ} (h : Descending lat) (i : ℕ) (hi : i < lat.length) :
    (0 < lat[i] ↔ 2 * i + 1 < lat.length) ∧ (0 ≤ lat[i] ↔ 2 * i + 1 ≤ lat.length) := by
  have ho := h.get_opp i hi
  rcases lt_trichotomy (lat.length - 1 - i) i with hc | hc | hc
  · have := h.lt hc hi
    rw [ho] at this
    constructor <;> constructor <;> intro h' <;> first | omega | linarith
  · have h0 : lat[i] = 0 := by
      have : lat[lat.length - 1 - i]'(by omega) = lat[i] := by congr 1
      rw [this] at ho
      linarith
    rw [h0]
    constructor <;> constructor <;> intro h' <;> first | omega | linarith | simp at h'
  · have := h.lt hc (by omega)
    rw [ho] at this
    constructor <;> constructor <;> intro h' <;> first | omega | linarith

theorem filter_eq_take_of {lat : List ℚ} (p : ℚ → Bool) (k : ℕ) (h : ∀ (i : ℕ) (hi : i < lat.length), p lat[i] = true ↔ i < k) :
    lat.filter p = lat.take k := by
  conv_lhs => rw [← List.take_append_drop k lat, List.filter_append]
  have h1 : (lat.take k).filter p = lat.take k := by
    rw [List.filter_eq_self]
    intro a ha
    obtain ⟨i, hi, rfl⟩ := List.getElem_of_mem ha
    rw [List.getElem_take]
    exact (h i (by simp at hi; omega)).mpr (by simp at hi; omega)
  have h2 : (lat.drop k).filter p = [] := by
    rw [List.filter_eq_nil_iff]
    intro a ha
    obtain ⟨i, hi, rfl⟩ := List.getElem_of_mem ha
    rw [List.getElem_drop]
    intro hp
    have := (h (k + i) (by simp at hi; omega)).mp hp
    omega
  rw [h1, h2, List.append_nil]

theorem descending_isPart (sgn : ℚ) (keep : ℚ → Bool) (X lat : List ℚ) (h : Descending lat) (hX : X.length = lat.length) (k : ℕ)
    (hk : k ≤ lat.length) (hkeep : lat.filter keep = lat.take k) :
    IsPart sgn keep X lat ((List.range k).map fun ll => 1 / 2 * (X.getD ll 0 + sgn * X.getD (X.length - ll - 1) 0)) := by
  refine ⟨by rw [hkeep]; simp [hk], ?_⟩
  intro i a b φ hi ha hb
  rw [hkeep] at hi
  obtain ⟨hi', he⟩ := List.getElem?_eq_some_iff.mp hi
  rw [List.getElem_take] at he
  simp only [List.length_take] at hi'
  obtain ⟨ha', hea⟩ := List.getElem?_eq_some_iff.mp ha
  obtain ⟨hb', heb⟩ := List.getElem?_eq_some_iff.mp hb
  have inj : ∀ (p q : ℕ) (hp : p < lat.length) (hq : q < lat.length), lat[p] = lat[q] → p = q := by
    intro p q hp hq hpq
    rcases lt_trichotomy p q with hc | hc | hc
    · have := h.lt hc hq; linarith
    · exact hc
    · have := h.lt hc hp; linarith
  have e1 : a = i := inj a i ha' (by omega) (by rw [hea, he])
  have e2 : b = lat.length - 1 - i := inj b _ hb' (by omega) (by rw [heb, h.get_opp i (by omega), he])
  rw [List.getElem?_map, List.getElem?_range (by omega)]
  simp only [Option.map_some]
  rw [e1, e2, hX, Nat.sub_right_comm]
  congr 1
  ring

theorem getSymmasymm_symm (X lat : List ℚ) (hX : X.length = lat.length) (hc : (lat.filter fun l => decide (0 ≤ l)).length = (lat.length + 1) / 2) :
    getSymmasymm X lat "symm" =
      .ok ((List.range ((lat.length + 1) / 2)).map fun ll => 1 / 2 * (X.getD ll 0 + 1 * X.getD (X.length - ll - 1) 0)) := by
  obtain ⟨x, h1, h2⟩ := maskRows_length X lat (fun l => decide (0 ≤ l)) hX
  unfold getSymmasymm
  simp only [if_true, h1, bind, Except.bind]
  have hk : (if lat.length % 2 = 1 then symmFill 1 X x (X.length / 2 + 1) else symmFill 1 X x (X.length / 2)) =
      symmFill 1 X x ((lat.length + 1) / 2) := by
    split <;> congr 1 <;> omega
  rw [hk, symmFill_eq _ _ _ _ (by omega), List.drop_of_length_le (by omega), List.append_nil]

theorem getSymmasymm_asymm (X lat : List ℚ) (hX : X.length = lat.length) (hc : (lat.filter fun l => decide (0 < l)).length = lat.length / 2)
    (opt : String) (ho : opt = "asymm" ∨ opt = "anti-symm") :
    getSymmasymm X lat opt =
      .ok ((List.range (lat.length / 2)).map fun ll => 1 / 2 * (X.getD ll 0 + -1 * X.getD (X.length - ll - 1) 0)) := by
  obtain ⟨x, h1, h2⟩ := maskRows_length X lat (fun l => decide (0 < l)) hX
  have hs : ¬ opt = "symm" := by rcases ho with rfl | rfl <;> decide
  unfold getSymmasymm
  simp only [hs, if_false, ho, if_true, h1, bind, Except.bind, ite_self]
  rw [symmFill_eq _ _ _ _ (by omega), List.drop_of_length_le (by omega), List.append_nil, hX]

theorem Descending.filters {lat : List ℚ} (h : Descending lat) :
    (lat.filter fun l => decide (0 ≤ l)) = lat.take ((lat.length + 1) / 2) ∧ (lat.filter fun l => decide (0 < l)) = lat.take (lat.length / 2) := by
  constructor
  · apply filter_eq_take_of
    intro i hi
    rw [decide_eq_true_iff, (h.sign i hi).2]
    omega
  · apply filter_eq_take_of
    intro i hi
    rw [decide_eq_true_iff, (h.sign i hi).1]
    omega

/-- C157, proved for latitudes that run from north to south: the parts are right. -/
theorem C157_descending_partial (X lat : List ℚ) (h : Descending lat) (hX : X.length = lat.length) :
    (∃ out, getSymmasymm X lat "symm" = .ok out ∧ IsPart 1 (fun l => decide (0 ≤ l)) X lat out) ∧
    ∀ opt, opt = "asymm" ∨ opt = "anti-symm" → ∃ out, getSymmasymm X lat opt = .ok out ∧ IsPart (-1) (fun l => decide (0 < l)) X lat out := by
  obtain ⟨h1, h2⟩ := h.filters
  refine ⟨⟨_, getSymmasymm_symm X lat hX (by rw [h1]; simp; omega), descending_isPart _ _ X lat h hX _ (by omega) h1⟩, ?_⟩
  intro opt ho
  exact ⟨_, getSymmasymm_asymm X lat hX (by rw [h2]; simp; omega) opt ho, descending_isPart _ _ X lat h hX _ (by omega) h2⟩

theorem isPart_reverse (sgn : ℚ) (keep : ℚ → Bool) (X lat out : List ℚ) (hX : X.length = lat.length)
    (h : IsPart sgn keep X.reverse lat.reverse out) : IsPart sgn keep X lat out.reverse := by
  obtain ⟨h1, h2⟩ := h
  rw [List.filter_reverse, List.length_reverse] at h1
  refine ⟨by simpa using h1, ?_⟩
  intro i a b φ hi ha hb
  obtain ⟨hi', he⟩ := List.getElem?_eq_some_iff.mp hi
  obtain ⟨ha', hea⟩ := List.getElem?_eq_some_iff.mp ha
  obtain ⟨hb', heb⟩ := List.getElem?_eq_some_iff.mp hb
  rw [List.getElem?_reverse (by omega)]
  have hg : ∀ c, c < lat.length → X.reverse.getD (lat.length - 1 - c) 0 = X.getD c 0 := by
    intro c hc
    rw [List.getD, List.getD, List.getElem?_reverse (by omega), hX]
    congr 2
    omega
  have := h2 (out.length - 1 - i) (lat.length - 1 - a) (lat.length - 1 - b) φ ?_ ?_ ?_
  · rw [this, hg a ha', hg b hb']
  · rw [List.filter_reverse, List.getElem?_reverse (by omega), ← hi]
    congr 1
    omega
  · rw [List.getElem?_reverse (by omega), ← ha]
    congr 1
    omega
  · rw [List.getElem?_reverse (by omega), ← hb]
    congr 1
    omega

/-- C157 is false of latitudes that run from south to north: the rows of the symmetric part come in the reverse order of their latitudes,
and the antisymmetric part has in addition the wrong sign. -/
theorem C157_ascending_counterexample (X lat : List ℚ) (h : Descending lat.reverse) (hX : X.length = lat.length) :
    (∃ out, getSymmasymm X lat "symm" = .ok out ∧ IsPart 1 (fun l => decide (0 ≤ l)) X lat out.reverse) ∧
    ∃ out, getSymmasymm X lat "asymm" = .ok out ∧ IsPart (-1) (fun l => decide (0 < l)) X lat (out.reverse.map (-·)) := by
  obtain ⟨h1, h2⟩ := h.filters
  have l1 : (lat.filter fun l => decide (0 ≤ l)).length = (lat.length + 1) / 2 := by
    have := congrArg List.length h1
    rw [List.filter_reverse, List.length_reverse, List.length_take, List.length_reverse] at this
    omega
  have l2 : (lat.filter fun l => decide (0 < l)).length = lat.length / 2 := by
    have := congrArg List.length h2
    rw [List.filter_reverse, List.length_reverse, List.length_take, List.length_reverse] at this
    omega
  have hg : ∀ ll, ll < X.length → X.reverse.getD ll 0 = X.getD (X.length - ll - 1) 0 ∧
      X.reverse.getD (X.length - ll - 1) 0 = X.getD ll 0 := by
    intro ll hl
    constructor <;> rw [List.getD, List.getD, List.getElem?_reverse (by omega)] <;> congr 2 <;> omega
  refine ⟨⟨_, getSymmasymm_symm X lat hX l1, ?_⟩, ⟨_, getSymmasymm_asymm X lat hX l2 "asymm" (Or.inl rfl), ?_⟩⟩
  · apply isPart_reverse _ _ _ _ _ hX
    have := descending_isPart 1 (fun l => decide (0 ≤ l)) X.reverse lat.reverse h (by simpa using hX) _ (by omega) h1
    convert this using 1
    simp only [List.length_reverse]
    apply List.map_congr_left
    intro ll hll
    have := hg ll (by have := List.mem_range.mp hll; omega)
    rw [this.1, this.2]
    ring
  · rw [List.map_reverse]
    apply isPart_reverse _ _ _ _ _ hX
    have := descending_isPart (-1) (fun l => decide (0 < l)) X.reverse lat.reverse h (by simpa using hX) _ (by omega) h2
    convert this using 1
    simp only [List.length_reverse, List.map_map]
    apply List.map_congr_left
    intro ll hll
    have := hg ll (by have := List.mem_range.mp hll; omega)
    simp only [Function.comp]
    rw [this.1, this.2]
    ring

/-- C157: another option raises. -/
theorem C157_option (X lat : List ℚ) (opt : String) (h : opt ∉ ["symm", "asymm", "anti-symm"]) :
    getSymmasymm X lat opt = .error .unboundLocalError := by
  simp only [List.mem_cons, List.not_mem_nil, or_false, not_or] at h
  unfold getSymmasymm
  simp only [h.1, h.2.1, h.2.2, if_false, or_self]

example : Descending [10, 5, 0, -5, -10] ∧ getSymmasymm [1, 2, 3, 6, 9] [10, 5, 0, -5, -10] "symm" = .ok [5, 4, 3] ∧
    getSymmasymm [1, 2, 3, 6, 9] [10, 5, 0, -5, -10] "asymm" = .ok [-4, -2] ∧
    getSymmasymm [9, 6, 3, 2, 1] [-10, -5, 0, 5, 10] "symm" = .ok [5, 4, 3] ∧
    getSymmasymm [9, 6, 3, 2, 1] [-10, -5, 0, 5, 10] "asymm" = .ok [4, 2] :=
  ⟨⟨by decide +kernel, by decide +kernel⟩, by decide +kernel, by decide +kernel, by decide +kernel, by decide +kernel⟩

/-! ### C158 -/

/-- C158 is false: of the same coefficients mjo_cross_segment and mjo_cross_segment_realfft give the same powers and the same
co-spectrum, but quadrature spectra of opposite sign, that is, opposite phases. -/
theorem C158_quadrature_counterexample (c : List (ℂ × ℂ)) :
    (crossAtComplex c).px = (crossAt c).px ∧ (crossAtComplex c).py = (crossAt c).py ∧ (crossAtComplex c).co = (crossAt c).co ∧
      (crossAtComplex c).quad = -(crossAt c).quad := by
  have hsum : (c.map fun p => (starRingEnd ℂ) p.2 * p.1).sum =
      ⟨(c.map fun p => ((starRingEnd ℂ) p.1 * p.2).re).sum, -(c.map fun p => ((starRingEnd ℂ) p.1 * p.2).im).sum⟩ := by
    induction c with
    | nil => apply Complex.ext <;> simp
    | cons p c ih =>
      simp only [List.map_cons, List.sum_cons]
      rw [ih]
      apply Complex.ext
      · simp; ring
      · simp; ring
  refine ⟨rfl, rfl, ?_, ?_⟩ <;> simp only [crossAtComplex, crossAt] <;> rw [hsum]
  · rw [Complex.div_natCast_re]
  · rw [Complex.div_natCast_im, neg_div]

/-- C158 is false: with even numbers of times and longitudes the last frequency of mjo_cross_segment, a copy of the first one for the power
of X, is zero for the other spectra. -/
theorem C158_nyquist_counterexample (NL entry : ℕ) (rows : List (List ℝ)) (ht : rows.length % 2 = 0) (hl : NL % 2 = 0) (h0 : 0 < rows.length) :
    (complexRows NL 0 rows)[rows.length]? = rows[0]? ∧
      (entry ≠ 0 → (complexRows NL entry rows)[rows.length]? = some (List.replicate NL 0)) := by
  unfold complexRows
  simp only [ht, hl, if_true, show ¬ (0 : ℕ) = 1 by omega, if_false]
  constructor
  · rw [List.getElem?_append_right (le_refl _)]
    simp [List.getElem?_take]
  · intro he
    simp only [he, if_false]
    simp

/-- C158, proved for other shapes: all four spectra are closed alike. -/
theorem C158_closed_partial (NL entry : ℕ) (rows : List (List ℝ)) (h : rows.length % 2 = 1 ∨ NL % 2 = 1) :
    complexRows NL entry rows = segmentRows rows := by
  unfold complexRows segmentRows
  rcases h with h | h
  · simp [h]
  · by_cases h1 : rows.length % 2 = 1 <;> simp [h, h1]

example : crossAt [(1, Complex.I)] = ⟨1, 1, 0, 1⟩ ∧ complexRows 2 1 [[1, 2], [3, 4]] = [[1, 2], [3, 4], [0, 0]] := by
  constructor
  · simp [crossAt]
  · rfl

end Metcalcpy.Props
