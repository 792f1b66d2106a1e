/-
C118: the biweight midcorrelation.
-/
import Verif.Lemmas.Median
import Verif.Lemmas.Pairs
import Verif.Spec.Tost

namespace Metcalcpy.Props
open Metcalcpy Spec

theorem cosine_abs_le (f g : ℚ → ℚ) (ps : List (ℚ × ℚ)) : |cosine f g ps| ≤ 1 := by
  have h := cauchy_list (fun p : ℚ × ℚ => f p.1) (fun p : ℚ × ℚ => g p.2) ps
  have h' : (((ps.map (fun p => f p.1 * g p.2)).sum : ℚ) : ℝ) ^ 2 ≤
      ((((ps.map (fun p => f p.1 ^ 2)).sum * (ps.map (fun p => g p.2 ^ 2)).sum : ℚ)) : ℝ) := by exact_mod_cast h
  unfold cosine
  rw [abs_div, abs_of_nonneg (Real.sqrt_nonneg _)]
  exact div_le_one_of_le₀ (Real.abs_le_sqrt h') (Real.sqrt_nonneg _)

theorem cosine_perm (f g : ℚ → ℚ) {ps qs : List (ℚ × ℚ)} (h : ps.Perm qs) : cosine f g ps = cosine f g qs := by
  unfold cosine
  rw [(h.map _).sum_eq, (h.map (fun p : ℚ × ℚ => f p.1 ^ 2)).sum_eq, (h.map (fun p : ℚ × ℚ => g p.2 ^ 2)).sum_eq]

theorem cosine_swap (f g : ℚ → ℚ) (ps : List (ℚ × ℚ)) : cosine g f (ps.map Prod.swap) = cosine f g ps := by
  unfold cosine
  simp only [List.map_map, Function.comp_def, Prod.fst_swap, Prod.snd_swap]
  rw [mul_comm (ps.map (fun p => g p.2 ^ 2)).sum]
  simp only [mul_comm (g _) (f _)]

theorem sum_map_const_mul {α : Type} (k : ℚ) (f : α → ℚ) (l : List α) :
    (l.map (fun a => k * f a)).sum = k * (l.map f).sum := by
  induction l with
  | nil => simp
  | cons a l ih => simp only [List.map_cons, List.sum_cons, ih]; ring

theorem sum_sq_nonneg {α : Type} (f : α → ℚ) (l : List α) : 0 ≤ (l.map (fun a => f a ^ 2)).sum :=
  List.sum_nonneg (by simp only [List.mem_map]; rintro _ ⟨a, _, rfl⟩; positivity)

theorem sum_sq_pos {α : Type} (f : α → ℚ) (l : List α) (a : α) (ha : a ∈ l) (h : f a ≠ 0) :
    0 < (l.map (fun a => f a ^ 2)).sum := by
  induction l with
  | nil => simp at ha
  | cons b l ih =>
    simp only [List.map_cons, List.sum_cons]
    rcases List.mem_cons.mp ha with rfl | ha
    · have := sum_sq_nonneg f l; positivity
    · have := ih ha; positivity

/-- Multiplying the first function by `k` multiplies the cosine by its sign. -/
theorem cosine_scale (f g : ℚ → ℚ) (k : ℚ) (ps : List (ℚ × ℚ)) :
    cosine (fun v => k * f v) g ps = (if k < 0 then -1 else if k = 0 then 0 else 1) * cosine f g ps := by
  unfold cosine
  have h1 : (ps.map (fun p => k * f p.1 * g p.2)).sum = k * (ps.map (fun p => f p.1 * g p.2)).sum := by
    rw [← sum_map_const_mul]; simp only [mul_assoc]
  have h2 : (ps.map (fun p => (k * f p.1) ^ 2)).sum = k ^ 2 * (ps.map (fun p => f p.1 ^ 2)).sum := by
    rw [← sum_map_const_mul]; simp only [mul_pow]
  rw [h1, h2]
  push_cast
  rw [mul_assoc ((k : ℝ) ^ 2), Real.sqrt_mul (sq_nonneg _), Real.sqrt_sq_eq_abs, mul_div_mul_comm]
  congr 1
  rcases lt_trichotomy k 0 with h | rfl | h
  · have : (k : ℝ) < 0 := by exact_mod_cast h
    rw [if_pos h, abs_of_neg this, div_neg, div_self this.ne]
  · simp
  · have : (0 : ℝ) < k := by exact_mod_cast h
    rw [if_neg (not_lt.mpr h.le), if_neg h.ne', abs_of_pos this, div_self this.ne']

theorem bicorNorm_eq (c m d v : ℚ) (h : 0 < c * d) : bicorNorm c m d v = biweight c m d v := by
  unfold bicorNorm biweight
  dsimp only
  have : 1 - |(v - m) / (c * d)| > 0 ↔ |v - m| < c * d := by
    rw [abs_div, abs_of_pos h, gt_iff_lt, sub_pos, div_lt_one h]
  by_cases hc : |v - m| < c * d
  · rw [if_pos (this.mpr hc), if_pos hc, mul_one]
  · rw [if_neg (mt this.mp hc), if_neg hc]; simp

/-- A tuning constant above 2 keeps at least one value. -/
theorem biweight_ne_zero {l : List ℚ} {m d : ℚ} (h : IsMedMad l m d) (hd : d ≠ 0) (c : ℚ) (hc : 2 < c) :
    ∃ v ∈ l, biweight c m d v ≠ 0 := by
  have h0 : 0 < d := lt_of_le_of_ne h.nonneg (Ne.symm hd)
  obtain ⟨v, hv, h1, h2⟩ := h.witness
  refine ⟨v, hv, ?_⟩
  have h3 : |v - m| < c * d := by nlinarith
  have hcd : 0 < c * d := lt_of_le_of_lt (abs_nonneg _) h3
  unfold biweight
  rw [if_pos h3]
  have hvm : v - m ≠ 0 := by intro h; rw [h, abs_zero] at h1; linarith
  have hu : ((v - m) / (c * d)) ^ 2 < 1 := by
    rw [div_pow, div_lt_one (by positivity), ← sq_abs (v - m)]
    exact pow_lt_pow_left₀ h3 (abs_nonneg _) (by norm_num)
  exact mul_ne_zero hvm (pow_ne_zero _ (by linarith))

theorem medMad_unique {l : List ℚ} {m d m' d' : ℚ} (h : IsMedMad l m d) (h' : IsMedMad l m' d') : m = m' ∧ d = d' := by
  obtain rfl := h.1.unique h'.1
  exact ⟨rfl, h.2.unique h'.2⟩

theorem bicor_eq (D : TDist) (c : ℚ) (hc : 2 < c) (ps : List (ℚ × ℚ)) (mx dx my dy : ℚ)
    (hx : IsMedMad (firsts ps) mx dx) (hy : IsMedMad (seconds ps) my dy) (h1 : dx ≠ 0) (h2 : dy ≠ 0) :
    bicor D (firsts ps) (seconds ps) c = some ⟨cosine (biweight c mx dx) (biweight c my dy) ps,
      corrPval D (cosine (biweight c mx dx) (biweight c my dy) ps) ps.length⟩ := by
  have p1 : 0 < c * dx := mul_pos (by linarith) (lt_of_le_of_ne hx.nonneg (Ne.symm h1))
  have p2 : 0 < c * dy := mul_pos (by linarith) (lt_of_le_of_ne hy.nonneg (Ne.symm h2))
  obtain ⟨v, hv, hv0⟩ := biweight_ne_zero hx h1 c hc
  obtain ⟨w, hw, hw0⟩ := biweight_ne_zero hy h2 c hc
  unfold bicor
  rw [if_neg (by rintro (h | h); exacts [hx.1.ne_nil h, hy.1.ne_nil h]), hx.eq.1, hx.eq.2, hy.eq.1, hy.eq.2,
    if_neg (by rintro (h | h); exacts [h1 h, h2 h])]
  have e1 : (firsts ps).map (bicorNorm c mx dx) = ps.map (fun p => biweight c mx dx p.1) := by
    rw [firsts, List.map_map]; exact List.map_congr_left (fun p _ => bicorNorm_eq _ _ _ _ p1)
  have e2 : (seconds ps).map (bicorNorm c my dy) = ps.map (fun p => biweight c my dy p.2) := by
    rw [seconds, List.map_map]; exact List.map_congr_left (fun p _ => bicorNorm_eq _ _ _ _ p2)
  have s1 : 0 < (ps.map (fun p => biweight c mx dx p.1 ^ 2)).sum := by
    obtain ⟨p, hp, rfl⟩ := List.mem_map.mp hv
    exact sum_sq_pos (fun p : ℚ × ℚ => biweight c mx dx p.1) ps p hp hv0
  have s2 : 0 < (ps.map (fun p => biweight c my dy p.2 ^ 2)).sum := by
    obtain ⟨p, hp, rfl⟩ := List.mem_map.mp hw
    exact sum_sq_pos (fun p : ℚ × ℚ => biweight c my dy p.2) ps p hp hw0
  have ez : (List.zipWith (fun a b => a * b) (ps.map (fun p => biweight c mx dx p.1))
      (ps.map (fun p => biweight c my dy p.2))) = ps.map (fun p => biweight c mx dx p.1 * biweight c my dy p.2) := by
    rw [List.zipWith_map, List.zipWith_self]
  rw [e1, e2]
  simp only [ez, List.map_map, Function.comp_def]
  have s1' : (0 : ℝ) < ((ps.map (fun p => biweight c mx dx p.1 ^ 2)).sum : ℚ) := by exact_mod_cast s1
  have s2' : (0 : ℝ) < ((ps.map (fun p => biweight c my dy p.2 ^ 2)).sum : ℚ) := by exact_mod_cast s2
  rw [if_neg (mul_pos (Real.sqrt_pos.mpr s1') (Real.sqrt_pos.mpr s2')).ne', ← Real.sqrt_mul s1'.le]
  simp only [cosine, Rat.cast_mul, firsts, List.length_map]

/-- C118: with a tuning constant above 2 (the default is 9) the coefficient is undefined exactly when there is no case
or one of the two median absolute deviations is 0. -/
theorem C118_nan_iff (D : TDist) (c : ℚ) (hc : 2 < c) (ps : List (ℚ × ℚ)) :
    bicor D (firsts ps) (seconds ps) c = none ↔
      ps = [] ∨ (∃ m, IsMedMad (firsts ps) m 0) ∨ (∃ m, IsMedMad (seconds ps) m 0) := by
  by_cases h0 : ps = []
  · subst h0; simp [bicor, firsts]
  have f0 : firsts ps ≠ [] := by simpa [firsts] using h0
  have s0 : seconds ps ≠ [] := by simpa [seconds] using h0
  have hx := exists_medMad _ f0
  have hy := exists_medMad _ s0
  by_cases h1 : madOf (firsts ps) = 0
  · refine ⟨fun _ => Or.inr (Or.inl ⟨_, h1 ▸ hx⟩), fun _ => ?_⟩
    unfold bicor; rw [if_neg (by simp [f0, s0]), if_pos (Or.inl h1)]
  by_cases h2 : madOf (seconds ps) = 0
  · refine ⟨fun _ => Or.inr (Or.inr ⟨_, h2 ▸ hy⟩), fun _ => ?_⟩
    unfold bicor; rw [if_neg (by simp [f0, s0]), if_pos (Or.inr h2)]
  rw [bicor_eq D c hc ps _ _ _ _ hx hy h1 h2]
  simp only [reduceCtorEq, h0, false_or, false_iff, not_or, not_exists]
  exact ⟨fun m hm => h1 (medMad_unique hx hm).2, fun m hm => h2 (medMad_unique hy hm).2⟩

/-- C118: the coefficient is `Σ a b / √(Σ a² Σ b²)` over the cases, where `a` and `b` are the biweighted deviations
of the two values from the two medians, and lies between -1 and 1. -/
theorem C118_value (D : TDist) (c : ℚ) (hc : 2 < c) (ps : List (ℚ × ℚ)) (mx dx my dy : ℚ)
    (hx : IsMedMad (firsts ps) mx dx) (hy : IsMedMad (seconds ps) my dy) (h1 : dx ≠ 0) (h2 : dy ≠ 0) :
    ∃ res, bicor D (firsts ps) (seconds ps) c = some res ∧
      res.r = cosine (biweight c mx dx) (biweight c my dy) ps ∧ -1 ≤ res.r ∧ res.r ≤ 1 :=
  ⟨_, bicor_eq D c hc ps mx dx my dy hx hy h1 h2, rfl, abs_le.mp (cosine_abs_le _ _ _)⟩

/-- C118: exchanging the two variables changes nothing. -/
theorem C118_symmetric (D : TDist) (c : ℚ) (hc : 2 < c) (ps : List (ℚ × ℚ)) :
    bicor D (seconds ps) (firsts ps) c = bicor D (firsts ps) (seconds ps) c := by
  have e1 : firsts (ps.map Prod.swap) = seconds ps := by simp [firsts, seconds]
  have e2 : seconds (ps.map Prod.swap) = firsts ps := by simp [firsts, seconds]
  rcases hb : bicor D (firsts ps) (seconds ps) c with _ | res
  · rw [C118_nan_iff D c hc] at hb
    rw [← e1, ← e2, C118_nan_iff D c hc, e1, e2]
    rcases hb with h | h | h
    · exact Or.inl (by rw [h]; rfl)
    · exact Or.inr (Or.inr h)
    · exact Or.inr (Or.inl h)
  · have hn : ¬ _ := mt (C118_nan_iff D c hc ps).mpr (by rw [hb]; simp)
    push Not at hn
    have f0 : firsts ps ≠ [] := by simpa [firsts] using hn.1
    have s0 : seconds ps ≠ [] := by simpa [seconds] using hn.1
    have hx := exists_medMad _ f0
    have hy := exists_medMad _ s0
    have h1 : madOf (firsts ps) ≠ 0 := fun h => hn.2.1 _ (h ▸ hx)
    have h2 : madOf (seconds ps) ≠ 0 := fun h => hn.2.2 _ (h ▸ hy)
    rw [← hb, bicor_eq D c hc ps _ _ _ _ hx hy h1 h2, ← e1, ← e2,
      bicor_eq D c hc (ps.map Prod.swap) _ _ _ _ (by rw [e1]; exact hy) (by rw [e2]; exact hx) h2 h1, e1, e2,
      cosine_swap, List.length_map]

/-- C118: the order of the cases does not matter. -/
theorem C118_order (D : TDist) (c : ℚ) (hc : 2 < c) (ps qs : List (ℚ × ℚ)) (hp : ps.Perm qs) :
    bicor D (firsts ps) (seconds ps) c = bicor D (firsts qs) (seconds qs) c := by
  have e1 : (firsts ps).Perm (firsts qs) := hp.map _
  have e2 : (seconds ps).Perm (seconds qs) := hp.map _
  by_cases hn : bicor D (firsts ps) (seconds ps) c = none
  · rw [hn, eq_comm, C118_nan_iff D c hc]
    rw [C118_nan_iff D c hc] at hn
    rcases hn with h | ⟨m, h⟩ | ⟨m, h⟩
    · exact Or.inl (by rw [h] at hp; exact List.nil_perm.mp hp)
    · exact Or.inr (Or.inl ⟨m, h.perm e1⟩)
    · exact Or.inr (Or.inr ⟨m, h.perm e2⟩)
  · rw [C118_nan_iff D c hc] at hn
    push Not at hn
    have hx := exists_medMad (firsts ps) (by simpa [firsts] using hn.1)
    have hy := exists_medMad (seconds ps) (by simpa [seconds] using hn.1)
    have h1 : madOf (firsts ps) ≠ 0 := fun h => hn.2.1 _ (h ▸ hx)
    have h2 : madOf (seconds ps) ≠ 0 := fun h => hn.2.2 _ (h ▸ hy)
    rw [bicor_eq D c hc ps _ _ _ _ hx hy h1 h2, bicor_eq D c hc qs _ _ _ _ (hx.perm e1) (hy.perm e2) h1 h2,
      cosine_perm _ _ hp, hp.length_eq]

/-- C118: a variable that is not concentrated on its median correlates perfectly with itself. -/
theorem C118_self (D : TDist) (c : ℚ) (hc : 2 < c) (x : List ℚ) (m d : ℚ) (hx : IsMedMad x m d) (hd : d ≠ 0) :
    ∃ res, bicor D x x c = some res ∧ res.r = 1 := by
  have e1 : firsts (x.map (fun v => (v, v))) = x := by simp [firsts, Function.comp_def]
  have e2 : seconds (x.map (fun v => (v, v))) = x := by simp [seconds, Function.comp_def]
  have := bicor_eq D c hc (x.map (fun v => (v, v))) m d m d (by rw [e1]; exact hx) (by rw [e2]; exact hx) hd hd
  rw [e1, e2] at this
  refine ⟨_, this, ?_⟩
  obtain ⟨v, hv, hv0⟩ := biweight_ne_zero hx hd c hc
  have hs := sum_sq_pos (biweight c m d) x v hv hv0
  have hs' : (0 : ℝ) < ((x.map (fun v => biweight c m d v ^ 2)).sum : ℚ) := by exact_mod_cast hs
  simp only [cosine, List.map_map, Function.comp_def, ← pow_two]
  rw [Rat.cast_pow, Real.sqrt_sq hs'.le, div_self hs'.ne']

theorem biweight_affine (c m d a b v : ℚ) (ha : a ≠ 0) :
    biweight c (a * m + b) (|a| * d) (a * v + b) = a * biweight c m d v := by
  have e : a * v + b - (a * m + b) = a * (v - m) := by ring
  have hiff : |a * (v - m)| < c * (|a| * d) ↔ |v - m| < c * d := by
    rw [abs_mul, show c * (|a| * d) = |a| * (c * d) by ring]
    exact mul_lt_mul_iff_of_pos_left (abs_pos.mpr ha)
  unfold biweight
  rw [e]
  by_cases h : |v - m| < c * d
  · rw [if_pos h, if_pos (hiff.mpr h)]
    have : (a * (v - m) / (c * (|a| * d))) ^ 2 = ((v - m) / (c * d)) ^ 2 := by
      rw [show c * (|a| * d) = |a| * (c * d) by ring, div_pow, div_pow, mul_pow, mul_pow, sq_abs,
        mul_div_mul_left _ _ (pow_ne_zero 2 ha)]
    rw [this]; ring
  · rw [if_neg h, if_neg (mt hiff.mp h), mul_zero]

/-- C118: changing the unit and the origin of a variable changes at most the sign of the coefficient, according to the
direction of the change; whether it is defined does not change. -/
theorem C118_affine (D : TDist) (c : ℚ) (hc : 2 < c) (ps : List (ℚ × ℚ)) (a b : ℚ) (ha : a ≠ 0) :
    (bicor D ((firsts ps).map (fun v => a * v + b)) (seconds ps) c).map CorrResult.r =
      (bicor D (firsts ps) (seconds ps) c).map (fun res => (if a < 0 then -1 else 1) * res.r) := by
  have e1 : firsts (ps.map (fun p => (a * p.1 + b, p.2))) = (firsts ps).map (fun v => a * v + b) := by simp [firsts]
  have e2 : seconds (ps.map (fun p => (a * p.1 + b, p.2))) = seconds ps := by simp [seconds]
  by_cases hn : bicor D (firsts ps) (seconds ps) c = none
  · rw [hn, ← e1, ← e2]
    have : bicor D (firsts (ps.map (fun p => (a * p.1 + b, p.2)))) (seconds (ps.map (fun p => (a * p.1 + b, p.2)))) c
        = none := by
      rw [C118_nan_iff D c hc] at hn ⊢
      rcases hn with h | ⟨m, h⟩ | ⟨m, h⟩
      · exact Or.inl (by rw [h]; rfl)
      · exact Or.inr (Or.inl ⟨_, by have := h.affine a b; rw [mul_zero] at this; rw [e1]; exact this⟩)
      · exact Or.inr (Or.inr ⟨m, by rw [e2]; exact h⟩)
    rw [this]; rfl
  · rw [C118_nan_iff D c hc] at hn
    push Not at hn
    have hx := exists_medMad (firsts ps) (by simpa [firsts] using hn.1)
    have hy := exists_medMad (seconds ps) (by simpa [seconds] using hn.1)
    have h1 : madOf (firsts ps) ≠ 0 := fun h => hn.2.1 _ (h ▸ hx)
    have h2 : madOf (seconds ps) ≠ 0 := fun h => hn.2.2 _ (h ▸ hy)
    rw [bicor_eq D c hc ps _ _ _ _ hx hy h1 h2, ← e1, ← e2,
      bicor_eq D c hc _ _ _ _ _ (by rw [e1]; exact hx.affine a b) (by rw [e2]; exact hy)
        (mul_ne_zero (abs_ne_zero.mpr ha) h1) h2]
    simp only [Option.map_some, Option.some.injEq]
    have := cosine_scale (biweight c (npMedian (firsts ps)) (madOf (firsts ps)))
      (biweight c (npMedian (seconds ps)) (madOf (seconds ps))) a ps
    rw [if_neg ha] at this
    rw [e2, ← this]
    simp only [cosine, List.map_map, Function.comp_def, biweight_affine _ _ _ _ _ _ ha]

theorem medMad_replace_up {p q : List ℚ} {v w m d c : ℚ} (h : IsMedMad (p ++ v :: q) m d) (hd : d ≠ 0) (hc : 2 < c)
    (hv : c * d ≤ v - m) (hw : c * d ≤ w - m) : IsMedMad (p ++ w :: q) m d := by
  have h0 : 0 < d := lt_of_le_of_ne h.nonneg (Ne.symm hd)
  have hcd : 2 * d < c * d := mul_lt_mul_of_pos_right hc h0
  constructor
  · refine h.1.replace (fun a b hab e hside ha hb => ?_)
    have hall : ∀ u ∈ (p ++ v :: q).map (fun v => |v - m|), b - m ≤ u := by
      intro u hu
      obtain ⟨u, hu', rfl⟩ := List.mem_map.mp hu
      rcases hside u hu' with h | h
      · refine le_trans ?_ (neg_le_abs _); linarith
      · refine le_trans ?_ (le_abs_self _); linarith
    obtain ⟨a', b', ha', hb', _, e', _⟩ := h.2.middle
    have := hall _ ha'; have := hall _ hb'
    constructor <;> linarith
  · have h2 := h.2
    rw [List.map_append, List.map_cons] at h2 ⊢
    refine h2.replace (fun a b hab e hside ha hb => ?_)
    rw [← List.map_cons (f := fun v : ℚ => |v - m|), ← List.map_append] at ha
    obtain ⟨u, _, rfl⟩ := List.mem_map.mp ha
    have := abs_nonneg (u - m)
    have := le_abs_self (v - m)
    have := le_abs_self (w - m)
    constructor <;> linarith

theorem medMad_replace {p q : List ℚ} {v w m d c : ℚ} (h : IsMedMad (p ++ v :: q) m d) (hd : d ≠ 0) (hc : 2 < c)
    (hvw : (c * d ≤ v - m ∧ c * d ≤ w - m) ∨ (c * d ≤ m - v ∧ c * d ≤ m - w)) : IsMedMad (p ++ w :: q) m d := by
  rcases hvw with ⟨hv, hw⟩ | ⟨hv, hw⟩
  · exact medMad_replace_up h hd hc hv hw
  · have h1 := h.affine (-1) 0
    rw [List.map_append, List.map_cons, abs_neg, abs_one, one_mul] at h1
    have h2 := (medMad_replace_up (w := -1 * w + 0) h1 hd hc (by linarith) (by linarith)).affine (-1) 0
    rw [← List.map_cons (f := fun v : ℚ => -1 * v + 0), ← List.map_append, List.map_map, abs_neg, abs_one, one_mul] at h2
    have e : ((fun v : ℚ => -1 * v + 0) ∘ fun v : ℚ => -1 * v + 0) = id := by funext v; simp
    rw [e, List.map_id] at h2
    simpa using h2

/-- C118: a value `c` median absolute deviations or more away from the median has no influence: moving it anywhere on
the same side, as long as it stays that far away, changes neither the coefficient nor the p-value. -/
theorem C118_outlier (D : TDist) (c : ℚ) (hc : 2 < c) (ps qs : List (ℚ × ℚ)) (v w z m d : ℚ)
    (h : IsMedMad (firsts (ps ++ (v, z) :: qs)) m d) (hd : d ≠ 0)
    (hvw : (c * d ≤ v - m ∧ c * d ≤ w - m) ∨ (c * d ≤ m - v ∧ c * d ≤ m - w)) :
    bicor D (firsts (ps ++ (w, z) :: qs)) (seconds (ps ++ (w, z) :: qs)) c =
      bicor D (firsts (ps ++ (v, z) :: qs)) (seconds (ps ++ (v, z) :: qs)) c := by
  have hx' : IsMedMad (firsts (ps ++ (w, z) :: qs)) m d := by
    have h' := h
    simp only [firsts, List.map_append, List.map_cons] at h' ⊢
    exact medMad_replace h' hd hc hvw
  have es : seconds (ps ++ (w, z) :: qs) = seconds (ps ++ (v, z) :: qs) := by simp [seconds]
  have hy := exists_medMad (seconds (ps ++ (v, z) :: qs)) (by simp [seconds])
  by_cases h2 : madOf (seconds (ps ++ (v, z) :: qs)) = 0
  · rw [h2] at hy
    rw [(C118_nan_iff D c hc _).mpr (Or.inr (Or.inr ⟨_, hy⟩)),
      (C118_nan_iff D c hc _).mpr (Or.inr (Or.inr ⟨_, by rw [es]; exact hy⟩))]
  · rw [bicor_eq D c hc _ _ _ _ _ h hy hd h2, bicor_eq D c hc _ _ _ _ _ hx' (by rw [es]; exact hy) hd h2]
    have hz : ∀ u, u = v ∨ u = w → biweight c m d u = 0 := by
      intro u hu
      unfold biweight
      rw [if_neg]
      rw [not_lt]
      have e1 := le_abs_self (u - m)
      have e2 := neg_le_abs (u - m)
      rcases hu with rfl | rfl <;> rcases hvw with ⟨a, b⟩ | ⟨a, b⟩ <;> linarith
    have : ∀ g, cosine (biweight c m d) g (ps ++ (w, z) :: qs) = cosine (biweight c m d) g (ps ++ (v, z) :: qs) := by
      intro g
      simp [cosine, hz v (Or.inl rfl), hz w (Or.inr rfl)]
    rw [this, List.length_append, List.length_append]; rfl

theorem isDist_half {D : TDist} {df : ℝ} (h : IsDist D df) : D.cdf 0 df = 1 / 2 := by
  have := h.symm 0; rw [neg_zero] at this; linarith

/-- The argument of the distribution function grows with the size of the coefficient. -/
theorem tval_lt {r s : ℝ} {n : ℕ} (hn : 2 < n) (h : |r| < |s|) (hs : s ^ 2 < 1) :
    |r * √(((n : ℝ) - 2) / (1 - r ^ 2))| < |s * √(((n : ℝ) - 2) / (1 - s ^ 2))| := by
  have hn' : (0 : ℝ) < (n : ℝ) - 2 := by have : (2 : ℝ) < n := by exact_mod_cast hn
                                         linarith
  have hrs : r ^ 2 < s ^ 2 := sq_lt_sq.mpr h
  rw [abs_mul, abs_mul, abs_of_nonneg (Real.sqrt_nonneg _), abs_of_nonneg (Real.sqrt_nonneg _)]
  have h1 : √(((n : ℝ) - 2) / (1 - r ^ 2)) ≤ √(((n : ℝ) - 2) / (1 - s ^ 2)) :=
    Real.sqrt_le_sqrt (div_le_div_of_nonneg_left hn'.le (by linarith) (by linarith))
  have h2 : 0 < √(((n : ℝ) - 2) / (1 - s ^ 2)) := Real.sqrt_pos.mpr (div_pos hn' (by linarith))
  calc |r| * √(((n : ℝ) - 2) / (1 - r ^ 2)) ≤ |r| * √(((n : ℝ) - 2) / (1 - s ^ 2)) :=
        mul_le_mul_of_nonneg_left h1 (abs_nonneg _)
    _ < _ := mul_lt_mul_of_pos_right h h2

theorem abs_eq_one_of_sq {r : ℝ} (h : r ^ 2 = 1) : |r| = 1 := by
  rcases sq_eq_one_iff.mp h with rfl | rfl <;> simp

theorem corrPval_facts (D : TDist) (n : ℕ) (hn : 2 < n) (hD : IsDist D ((n : ℝ) - 2)) (r : ℝ) (hr : |r| ≤ 1) :
    ∃ p, corrPval D r n = some p ∧ 0 ≤ p ∧ p ≤ 1 ∧ (r = 0 → p = 1) ∧ (|r| = 1 → p = 0) ∧
      ∀ s, |s| ≤ 1 → |r| < |s| → ∃ p', corrPval D s n = some p' ∧ (p' < p ∨ |s| = 1 ∧ p' = 0) := by
  have hhalf := isDist_half hD
  have hge : ∀ x : ℝ, 1 / 2 ≤ D.cdf |x| ((n : ℝ) - 2) := by
    intro x
    rcases (abs_nonneg x).eq_or_lt with h | h
    · rw [← h, hhalf]
    · rw [← hhalf]; exact (hD.mono _ _ h).le
  unfold corrPval
  rw [if_neg (by omega)]
  by_cases h1 : r ^ 2 = 1
  · have hr1 : |r| = 1 := abs_eq_one_of_sq h1
    refine ⟨0, if_pos h1, le_rfl, zero_le_one, ?_, fun _ => rfl, ?_⟩
    · intro h; rw [h] at h1; norm_num at h1
    · intro s hs hlt; rw [hr1] at hlt; exact absurd hlt (not_lt.mpr hs)
  · have hrlt : |r| < 1 := lt_of_le_of_ne hr (fun h => h1 (by rw [← sq_abs, h, one_pow]))
    have b1 := hD.le_one |r * √(((n : ℝ) - 2) / (1 - r ^ 2))|
    have b2 := hge (r * √(((n : ℝ) - 2) / (1 - r ^ 2)))
    refine ⟨_, if_neg h1, by linarith, by linarith, ?_, fun h => absurd h hrlt.ne, ?_⟩
    · intro h; rw [h, zero_mul, abs_zero, hhalf]; norm_num
    · intro s hs hlt
      rw [if_neg (by omega)]
      by_cases h2 : s ^ 2 = 1
      · exact ⟨0, if_pos h2, Or.inr ⟨abs_eq_one_of_sq h2, rfl⟩⟩
      · have hslt : s ^ 2 < 1 := lt_of_le_of_ne (by rw [← sq_abs]; exact pow_le_one₀ (abs_nonneg _) hs) h2
        refine ⟨_, if_neg h2, Or.inl ?_⟩
        have := hD.mono _ _ (tval_lt hn hlt hslt)
        linarith

/-- C118: the p-value is a number exactly when there are more than two cases; it lies between 0 and 1, is 1 for a
coefficient of 0 and 0 for a coefficient of ±1, and two samples of the same size are ordered by it against the size of
their coefficients. -/
theorem C118_pvalue (D : TDist) (c : ℚ) (hc : 2 < c) (ps : List (ℚ × ℚ)) (res : CorrResult)
    (h : bicor D (firsts ps) (seconds ps) c = some res) :
    (ps.length ≤ 2 → res.pval = none) ∧
    (2 < ps.length → IsDist D ((ps.length : ℝ) - 2) → ∃ p, res.pval = some p ∧ 0 ≤ p ∧ p ≤ 1 ∧
      (res.r = 0 → p = 1) ∧ (|res.r| = 1 → p = 0) ∧
      ∀ qs res', qs.length = ps.length → bicor D (firsts qs) (seconds qs) c = some res' → |res.r| < |res'.r| →
        ∃ p', res'.pval = some p' ∧ (p' < p ∨ |res'.r| = 1 ∧ p' = 0)) := by
  have key : ∀ qs res', bicor D (firsts qs) (seconds qs) c = some res' →
      res'.pval = corrPval D res'.r qs.length ∧ |res'.r| ≤ 1 := by
    intro qs res' h
    have hn : bicor D (firsts qs) (seconds qs) c ≠ none := by rw [h]; simp
    rw [ne_eq, C118_nan_iff D c hc] at hn
    push Not at hn
    have hx := exists_medMad (firsts qs) (by simpa [firsts] using hn.1)
    have hy := exists_medMad (seconds qs) (by simpa [seconds] using hn.1)
    rw [bicor_eq D c hc qs _ _ _ _ hx hy (fun h => hn.2.1 _ (h ▸ hx)) (fun h => hn.2.2 _ (h ▸ hy)),
      Option.some.injEq] at h
    subst h
    exact ⟨rfl, cosine_abs_le _ _ _⟩
  obtain ⟨k1, k2⟩ := key ps res h
  constructor
  · intro hl; rw [k1, corrPval, if_pos hl]
  · intro hl hD
    obtain ⟨p, e, a1, a2, a3, a4, a5⟩ := corrPval_facts D ps.length hl hD res.r k2
    refine ⟨p, k1.trans e, a1, a2, a3, a4, ?_⟩
    intro qs res' hq hb hlt
    obtain ⟨l1, l2⟩ := key qs res' hb
    obtain ⟨p', e', h'⟩ := a5 res'.r l2 hlt
    exact ⟨p', by rw [l1, hq]; exact e', h'⟩

/-- A case: medians 3 and 2, deviations 1 and 1; the last case is an outlier in the first variable. -/
def exBicor : List (ℚ × ℚ) := [(1, 1), (2, 2), (3, 2), (4, 4), (100, 3)]

theorem exBicor_x : IsMedMad (firsts exBicor) 3 1 :=
  ⟨⟨[1, 2, 3, 4, 100], List.Perm.refl _, by decide +kernel, 3, 3, by decide +kernel, by decide +kernel, by norm_num⟩,
    ⟨[0, 1, 1, 2, 97], by decide +kernel, by decide +kernel, 1, 1, by decide +kernel, by decide +kernel, by norm_num⟩⟩
theorem exBicor_y : IsMedMad (seconds exBicor) 2 1 :=
  ⟨⟨[1, 2, 2, 3, 4], by decide +kernel, by decide +kernel, 2, 2, by decide +kernel, by decide +kernel, by norm_num⟩,
    ⟨[0, 0, 1, 1, 2], by decide +kernel, by decide +kernel, 1, 1, by decide +kernel, by decide +kernel, by norm_num⟩⟩

example (D : TDist) : ∃ res, bicor D (firsts exBicor) (seconds exBicor) = some res ∧ res.r ≤ 1 := by
  obtain ⟨res, h, _, _, h'⟩ := C118_value D 9 (by norm_num) exBicor 3 1 2 1 exBicor_x exBicor_y (by norm_num) (by norm_num)
  exact ⟨res, h, h'⟩

example (D : TDist) : bicor D [1, 2, 3, 4, 1000] [1, 2, 2, 4, 3] = bicor D [1, 2, 3, 4, 100] [1, 2, 2, 4, 3] :=
  C118_outlier D 9 (by norm_num) [(1, 1), (2, 2), (3, 2), (4, 4)] [] 100 1000 3 3 1 exBicor_x (by norm_num)
    (Or.inl (by norm_num))

/-- The weights matter: the correlation of the weighted values is not that of the values. -/
example : biweight 9 3 1 100 = 0 ∧ biweight 9 3 1 4 = (80 / 81) ^ 2 := by decide +kernel

end Metcalcpy.Props
