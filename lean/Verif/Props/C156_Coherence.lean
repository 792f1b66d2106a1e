/-
C156  Coherence squared lies between 0 and 1, and is 1 for proportional signals; the phase is the phase of the factor.
-/
import Verif.Lemmas.Coherence

namespace Metcalcpy.Props
open Metcalcpy

/-- Powers that are not negative, and a cross spectrum bounded by them. -/
def Bounded (s : Spectrum) : Prop := 0 ≤ s.px ∧ 0 ≤ s.py ∧ s.co ^ 2 + s.quad ^ 2 ≤ s.px * s.py

theorem bounded_plus_aux {p q c d p' q' c' d' : ℝ} (hp : 0 ≤ p) (hq : 0 ≤ q) (h : c ^ 2 + d ^ 2 ≤ p * q) (hp' : 0 ≤ p') (hq' : 0 ≤ q')
    (h' : c' ^ 2 + d' ^ 2 ≤ p' * q') : (c + c') ^ 2 + (d + d') ^ 2 ≤ (p + p') * (q + q') := by
  have hB : 0 ≤ (p * q' + p' * q) / 2 := by positivity
  have h1 : (c * c' + d * d') ^ 2 ≤ ((p * q' + p' * q) / 2) ^ 2 := by
    have a : (c * c' + d * d') ^ 2 ≤ (c ^ 2 + d ^ 2) * (c' ^ 2 + d' ^ 2) := by nlinarith [sq_nonneg (c * d' - d * c')]
    have b : (c ^ 2 + d ^ 2) * (c' ^ 2 + d' ^ 2) ≤ (p * q) * (p' * q') := mul_le_mul h h' (by positivity) (by positivity)
    nlinarith [sq_nonneg (p * q' - p' * q)]
  have h2 := abs_le_of_sq_le_sq' h1 hB
  nlinarith [h2.2]

theorem bounded_cone : ConeLike Bounded where
  plus := by
    rintro a b ⟨h1, h2, h3⟩ ⟨h1', h2', h3'⟩
    exact ⟨add_nonneg h1 h1', add_nonneg h2 h2', bounded_plus_aux h1 h2 h3 h1' h2' h3'⟩
  times := by
    rintro t a ht ⟨h1, h2, h3⟩
    refine ⟨mul_nonneg ht.le h1, mul_nonneg ht.le h2, ?_⟩
    simp only [Spectrum.times]
    nlinarith [mul_le_mul_of_nonneg_left h3 (sq_nonneg t)]

theorem crossAt_sum_bounded (c : List (ℂ × ℂ)) :
    0 ≤ (c.map fun p => ‖p.1‖ ^ 2).sum ∧ 0 ≤ (c.map fun p => ‖p.2‖ ^ 2).sum ∧
      (c.map fun p => ((starRingEnd ℂ) p.1 * p.2).re).sum ^ 2 + (c.map fun p => ((starRingEnd ℂ) p.1 * p.2).im).sum ^ 2 ≤
        (c.map fun p => ‖p.1‖ ^ 2).sum * (c.map fun p => ‖p.2‖ ^ 2).sum := by
  induction c with
  | nil => simp
  | cons p c ih =>
    obtain ⟨h1, h2, h3⟩ := ih
    simp only [List.map_cons, List.sum_cons]
    refine ⟨by positivity, by positivity, bounded_plus_aux (by positivity) (by positivity) ?_ h1 h2 h3⟩
    apply le_of_eq
    have : ((starRingEnd ℂ) p.1 * p.2).re ^ 2 + ((starRingEnd ℂ) p.1 * p.2).im ^ 2 = Complex.normSq ((starRingEnd ℂ) p.1 * p.2) := by
      rw [Complex.normSq_apply]; ring
    rw [this, Complex.normSq_mul, Complex.normSq_conj, Complex.normSq_eq_norm_sq, Complex.normSq_eq_norm_sq]

theorem crossAt_bounded (c : List (ℂ × ℂ)) : Bounded (crossAt c) := by
  obtain ⟨h1, h2, h3⟩ := crossAt_sum_bounded c
  refine ⟨div_nonneg h1 (Nat.cast_nonneg _), div_nonneg h2 (Nat.cast_nonneg _), ?_⟩
  simp only [crossAt, div_pow]
  rw [← add_div, div_mul_div_comm, ← sq]
  exact div_le_div_of_nonneg_right h3 (sq_nonneg _)

/-- C156: whatever the two signals, their segments, latitudes and frequencies, the time mean has no coherence; at every other
frequency coherence squared, where there is one, lies between 0 and 1, and the phase components are minus the sine and the cosine of the
phase. -/
theorem C156_range (nfreq : ℕ) (hn : 3 ≤ nfreq) (segs : List (List (List (ℂ × ℂ)))) (hs : segs ≠ [])
    (hl : ∀ seg ∈ segs, (segmentRows seg).length = nfreq) :
    ∃ out, mjoCross nfreq segs = .ok out ∧ out.length = nfreq ∧ out[0]? = some (none, none, none, none) ∧
      ∀ (j : ℕ) (r : Option ℝ × Option ℝ × Option ℝ × Option ℝ), 1 ≤ j → out[j]? = some r →
        (∀ c, r.1 = some c → 0 ≤ c ∧ c ≤ 1) ∧
        ∃ θ, r.2.1 = some θ ∧ ∀ v w, r.2.2 = (some v, some w) → v = -Real.sin θ ∧ w = Real.cos θ := by
  obtain ⟨g, h1, h2⟩ := mjoCross_cone bounded_cone nfreq hn segs hs hl (fun _ _ row _ => crossAt_bounded row)
  refine ⟨_, h1, by simp; omega, rfl, ?_⟩
  intro j r hj hr
  obtain ⟨i, rfl⟩ : ∃ i, j = i + 1 := ⟨j - 1, by omega⟩
  simp only [List.getElem?_cons_succ, List.getElem?_map, Option.map_eq_some_iff] at hr
  obtain ⟨i', hi, rfl⟩ := hr
  rw [List.getElem?_eq_some_iff] at hi
  obtain ⟨hi, rfl⟩ := hi
  rw [List.length_range] at hi
  rw [List.getElem_range]
  obtain ⟨hx, hy, hc⟩ := h2 i hi
  simp only [coh2pha]
  refine ⟨?_, _, rfl, ?_⟩
  · intro c hc'
    split_ifs at hc' with h0
    cases hc'
    have hpos : 0 < (g i).px * (g i).py := by
      rw [not_or] at h0
      exact mul_pos (lt_of_le_of_ne hx (Ne.symm h0.1)) (lt_of_le_of_ne hy (Ne.symm h0.2))
    exact ⟨by positivity, (div_le_one hpos).mpr hc⟩
  · intro v w hvw
    by_cases h0 : √((g i).quad ^ 2 + (g i).co ^ 2) = 0
    · simp [h0] at hvw
    · simp only [h0, if_false, Prod.mk.injEq, Option.some.injEq] at hvw
      have hz : (⟨(g i).co, (g i).quad⟩ : ℂ) ≠ 0 := by
        intro h
        have e1 := congrArg Complex.re h
        have e2 := congrArg Complex.im h
        simp only [Complex.zero_re, Complex.zero_im] at e1 e2
        exact h0 (by rw [e1, e2]; simp)
      have hn' : ‖(⟨(g i).co, (g i).quad⟩ : ℂ)‖ = √((g i).quad ^ 2 + (g i).co ^ 2) := by
        rw [Complex.norm_def, Complex.normSq_mk]
        congr 1
        ring
      rw [Complex.sin_arg, Complex.cos_arg hz, hn', ← hvw.1, ← hvw.2]
      exact ⟨by ring, rfl⟩

/-- Proportional signals: the spectra are those of a factor `lam`, and the power of X is positive. -/
def Proportional (lam : ℂ) (s : Spectrum) : Prop :=
  0 < s.px ∧ s.py = ‖lam‖ ^ 2 * s.px ∧ s.co = lam.re * s.px ∧ s.quad = lam.im * s.px

theorem proportional_cone (lam : ℂ) : ConeLike (Proportional lam) where
  plus := by
    rintro a b ⟨h1, h2, h3, h4⟩ ⟨h1', h2', h3', h4'⟩
    refine ⟨add_pos h1 h1', ?_, ?_, ?_⟩ <;> simp only [Spectrum.plus]
    · rw [h2, h2']; ring
    · rw [h3, h3']; ring
    · rw [h4, h4']; ring
  times := by
    rintro t a ht ⟨h1, h2, h3, h4⟩
    refine ⟨mul_pos ht h1, ?_, ?_, ?_⟩ <;> simp only [Spectrum.times]
    · rw [h2]; ring
    · rw [h3]; ring
    · rw [h4]; ring

theorem sum_map_mul_left' {α : Type} (k : ℝ) (f : α → ℝ) (l : List α) : (l.map fun x => k * f x).sum = k * (l.map f).sum := by
  induction l with
  | nil => simp
  | cons x l ih => simp [ih, mul_add]

theorem crossAt_proportional (lam : ℂ) (c : List (ℂ × ℂ)) (h : ∀ p ∈ c, p.2 = lam * p.1) (hx : ∃ p ∈ c, p.1 ≠ 0) :
    Proportional lam (crossAt c) := by
  have hre : ∀ p ∈ c, (starRingEnd ℂ) p.1 * p.2 = lam * (‖p.1‖ ^ 2 : ℝ) := by
    intro p hp
    rw [h p hp, mul_left_comm, ← Complex.normSq_eq_conj_mul_self, Complex.normSq_eq_norm_sq]
  obtain ⟨p, hp, hp0⟩ := hx
  have hlen : 0 < c.length := List.length_pos_of_mem hp
  have hpos : 0 < (c.map fun p => ‖p.1‖ ^ 2).sum := by
    have h1 : ‖p.1‖ ^ 2 ≤ (c.map fun p => ‖p.1‖ ^ 2).sum :=
      List.single_le_sum (by intro x hx; obtain ⟨q, -, rfl⟩ := List.mem_map.mp hx; positivity) _
        (List.mem_map.mpr ⟨p, hp, rfl⟩)
    have h2 : 0 < ‖p.1‖ ^ 2 := by positivity
    linarith
  refine ⟨by simp only [crossAt]; positivity, ?_, ?_, ?_⟩ <;> simp only [crossAt]
  · rw [List.map_congr_left (g := fun p : ℂ × ℂ => ‖lam‖ ^ 2 * ‖p.1‖ ^ 2), sum_map_mul_left', mul_div_assoc]
    intro q hq
    rw [h q hq, norm_mul, mul_pow]
  · rw [List.map_congr_left (g := fun p : ℂ × ℂ => lam.re * ‖p.1‖ ^ 2), sum_map_mul_left', mul_div_assoc]
    intro q hq
    rw [hre q hq, Complex.re_mul_ofReal]
  · rw [List.map_congr_left (g := fun p : ℂ × ℂ => lam.im * ‖p.1‖ ^ 2), sum_map_mul_left', mul_div_assoc]
    intro q hq
    rw [hre q hq, Complex.im_mul_ofReal]

/-- C156: if at every segment, frequency and latitude Y is `lam` times X, and X does not vanish everywhere, then away from the time mean
coherence squared is 1 and the phase is that of `lam`. -/
theorem C156_proportional (nfreq : ℕ) (hn : 3 ≤ nfreq) (segs : List (List (List (ℂ × ℂ)))) (hs : segs ≠ [])
    (hl : ∀ seg ∈ segs, (segmentRows seg).length = nfreq) (lam : ℂ) (hlam : lam ≠ 0)
    (hy : ∀ seg ∈ segs, ∀ row ∈ seg, ∀ p ∈ row, p.2 = lam * p.1) (hx : ∀ seg ∈ segs, ∀ row ∈ seg, ∃ p ∈ row, p.1 ≠ 0) :
    ∃ out, mjoCross nfreq segs = .ok out ∧ ∀ j : ℕ, 1 ≤ j → j < nfreq →
      ∃ v, out[j]? = some (some 1, some lam.arg, v) := by
  obtain ⟨g, h1, h2⟩ := mjoCross_cone (proportional_cone lam) nfreq hn segs hs hl
    (fun seg hseg row hrow => crossAt_proportional lam row (hy seg hseg row hrow) (hx seg hseg row hrow))
  refine ⟨_, h1, ?_⟩
  intro j hj hjn
  obtain ⟨i, rfl⟩ : ∃ i, j = i + 1 := ⟨j - 1, by omega⟩
  have hi : i < nfreq - 1 := by omega
  obtain ⟨hp, hpy, hc, hq⟩ := h2 i hi
  have hn2 : 0 < ‖lam‖ ^ 2 := by positivity
  have hpy' : 0 < (g i).py := by rw [hpy]; positivity
  have harg : Complex.arg ⟨(g i).co, (g i).quad⟩ = lam.arg := by
    have : (⟨(g i).co, (g i).quad⟩ : ℂ) = (((g i).px : ℝ) : ℂ) * lam := by
      rw [hc, hq]
      apply Complex.ext
      · rw [Complex.re_ofReal_mul]; simp; ring
      · rw [Complex.im_ofReal_mul]; simp; ring
    rw [this, Complex.arg_real_mul _ hp]
  have hcoh : ((g i).co ^ 2 + (g i).quad ^ 2) / ((g i).px * (g i).py) = 1 := by
    rw [div_eq_one_iff_eq (by positivity), hc, hq, hpy, ← Complex.normSq_eq_norm_sq, Complex.normSq_apply]
    ring
  refine ⟨((coh2pha (some (g i).px) (some (g i).py) (some (g i).co) (some (g i).quad)).2.2), ?_⟩
  rw [List.getElem?_cons_succ, List.getElem?_map, List.getElem?_range hi]
  simp only [Option.map_some, coh2pha]
  rw [if_neg (by rw [not_or]; exact ⟨hp.ne', hpy'.ne'⟩), hcoh, harg]

/-- C156, where no segment is used (see C154): there is no coherence at any frequency. -/
theorem C156_no_segments (nfreq : ℕ) :
    mjoCross nfreq [] = .ok (List.replicate nfreq (none, none, none, none)) := by
  unfold mjoCross
  simp only [List.foldlM_nil, pure, Except.pure, bind, Except.bind, List.length_nil]
  congr 1
  rw [List.eq_replicate_iff]
  refine ⟨by simp, ?_⟩
  intro r hr
  obtain ⟨j, -, rfl⟩ := List.mem_map.mp hr
  have : ∀ l : List (Option ℝ), (divEntry l 0).getD j none = none := by
    intro l
    unfold divEntry
    simp [List.getD]
  simp only [this]
  rfl

/-- Two segments of four times (three frequencies), one latitude: Y is X a quarter of a cycle later. -/
example : ∃ out, mjoCross 3 [[[(1, Complex.I)], [(2, 2 * Complex.I)], [(1, Complex.I)]], [[(1, Complex.I)], [(3, 3 * Complex.I)], [(1, Complex.I)]]] = .ok out ∧
    ∀ j : ℕ, 1 ≤ j → j < 3 → ∃ v, out[j]? = some (some 1, some (Real.pi / 2), v) := by
  rw [← Complex.arg_I]
  refine C156_proportional 3 (by omega) _ (by simp) ?_ Complex.I Complex.I_ne_zero ?_ ?_
  · intro seg hseg
    simp at hseg
    rcases hseg with rfl | rfl <;> rfl
  · intro seg hseg row hrow p hp
    simp at hseg
    rcases hseg with rfl | rfl <;> simp at hrow <;> rcases hrow with rfl | rfl | rfl <;> simp at hp <;> subst hp <;> simp [mul_comm]
  · intro seg hseg row hrow
    simp at hseg
    rcases hseg with rfl | rfl <;> simp at hrow <;> rcases hrow with rfl | rfl | rfl <;> simp

end Metcalcpy.Props
