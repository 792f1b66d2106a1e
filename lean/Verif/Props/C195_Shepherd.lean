/-
C195  Shepherd's pi is the rank correlation of the pairs that are not outliers by their Mahalanobis distance.
-/
import Verif.Model.Shepherd
import Verif.Props.C110_ScorecardRun
import Mathlib.Tactic.Linarith
import Mathlib.Tactic.FieldSimp
import Mathlib.Tactic.LinearCombination
import Mathlib.Algebra.Order.BigOperators.Group.List

namespace Metcalcpy.Props
open Metcalcpy

/-- `m` is the squared Mahalanobis distance of `p` from the mean of the `n` points `s`: with the covariance matrix `C` of the points and
`C w = p - mean`, it is the scalar product of `w` and `p - mean`. -/
def IsMahalanobis (s : List (ℚ × ℚ)) (p : ℚ × ℚ) (m : ℚ) : Prop :=
  ∃ mx my u v : ℚ, mx * s.length = (s.map Prod.fst).sum ∧ my * s.length = (s.map Prod.snd).sum ∧
    ((s.map fun q => (q.1 - mx) ^ 2).sum * u + (s.map fun q => (q.1 - mx) * (q.2 - my)).sum * v) / (s.length - 1) = p.1 - mx ∧
    ((s.map fun q => (q.1 - mx) * (q.2 - my)).sum * u + (s.map fun q => (q.2 - my) ^ 2).sum * v) / (s.length - 1) = p.2 - my ∧
    m = u * (p.1 - mx) + v * (p.2 - my)

/-- The points lie on one line. -/
def OnLine (s : List (ℚ × ℚ)) : Prop := ∃ a b c : ℚ, (a ≠ 0 ∨ b ≠ 0) ∧ ∀ p ∈ s, a * p.1 + b * p.2 = c

theorem sum_sq_zero {α : Type} (f : α → ℚ) (s : List α) (h : (s.map fun p => f p ^ 2).sum = 0) : ∀ p ∈ s, f p = 0 := by
  induction s with
  | nil => simp
  | cons q s ih =>
    rw [List.map_cons, List.sum_cons] at h
    have h1 : 0 ≤ (s.map fun p => f p ^ 2).sum := List.sum_nonneg (by simp only [List.mem_map]; rintro _ ⟨p, _, rfl⟩; positivity)
    have h2 : 0 ≤ f q ^ 2 := by positivity
    intro p hp
    rcases List.mem_cons.mp hp with rfl | hp
    · have : f p ^ 2 = 0 := by linarith
      simpa using this
    · exact ih (by linarith) p hp

theorem scatter_combination (s : List (ℚ × ℚ)) (mx my a b : ℚ) :
    (s.map fun p => (a * (p.2 - my) - b * (p.1 - mx)) ^ 2).sum =
      a ^ 2 * (s.map fun p => (p.2 - my) ^ 2).sum - 2 * a * b * (s.map fun p => (p.1 - mx) * (p.2 - my)).sum +
        b ^ 2 * (s.map fun p => (p.1 - mx) ^ 2).sum := by
  induction s with
  | nil => simp
  | cons q s ih => simp only [List.map_cons, List.sum_cons, ih]; ring

theorem sum_const_of {α : Type} (f : α → ℚ) (c : ℚ) (s : List α) (h : ∀ p ∈ s, f p = c) : (s.map f).sum = s.length * c := by
  induction s with
  | nil => simp
  | cons q s ih =>
    rw [List.map_cons, List.sum_cons, h q (by simp), ih fun p hp => h p (by simp [hp]), List.length_cons]
    push_cast
    ring

theorem sum_lin (s : List (ℚ × ℚ)) (a b : ℚ) : (s.map fun p => a * p.1 + b * p.2).sum = a * (s.map Prod.fst).sum + b * (s.map Prod.snd).sum := by
  induction s with
  | nil => simp
  | cons q s ih => simp only [List.map_cons, List.sum_cons, ih]; ring

/-- The matrix of the deviations is singular exactly if the points lie on a line. -/
theorem singular_iff (s : List (ℚ × ℚ)) : (scatter s).1 * (scatter s).2.2 - (scatter s).2.1 * (scatter s).2.1 = 0 ↔ OnLine s := by
  unfold scatter
  dsimp only
  generalize hmx : (s.map Prod.fst).sum / s.length = mx
  generalize hmy : (s.map Prod.snd).sum / s.length = my
  constructor
  · intro h
    by_cases hx : (s.map fun p => (p.1 - mx) ^ 2).sum = 0
    · refine ⟨1, 0, mx, Or.inl one_ne_zero, fun p hp => ?_⟩
      have := sum_sq_zero (fun p : ℚ × ℚ => p.1 - mx) s hx p hp
      linarith
    · have h1 := scatter_combination s mx my (s.map fun p => (p.1 - mx) ^ 2).sum (s.map fun p => (p.1 - mx) * (p.2 - my)).sum
      generalize (s.map fun p => (p.1 - mx) ^ 2).sum = A at *
      generalize (s.map fun p => (p.1 - mx) * (p.2 - my)).sum = B at *
      generalize (s.map fun p => (p.2 - my) ^ 2).sum = C at *
      have h2 : (s.map fun p => (A * (p.2 - my) - B * (p.1 - mx)) ^ 2).sum = 0 := by
        rw [h1]
        linear_combination A * h
      refine ⟨-B, A, A * my - B * mx, Or.inr hx, fun p hp => ?_⟩
      have := sum_sq_zero (fun p : ℚ × ℚ => A * (p.2 - my) - B * (p.1 - mx)) s h2 p hp
      linarith
  · rintro ⟨a, b, c, hab, h⟩
    by_cases hs : s = []
    · subst hs
      simp
    · have hlen : (s.length : ℚ) ≠ 0 := by
        have := List.length_pos_iff.mpr hs
        exact_mod_cast this.ne'
      have hsum := sum_const_of (fun p : ℚ × ℚ => a * p.1 + b * p.2) c s h
      rw [sum_lin] at hsum
      have hmean : a * mx + b * my = c := by
        rw [← hmx, ← hmy]
        field_simp
        linarith
      -- a (x - mx) = - b (y - my)
      have hz : (s.map fun p => (b * (p.2 - my) - (-a) * (p.1 - mx)) ^ 2).sum = 0 := by
        have : ∀ p ∈ s, (b * (p.2 - my) - (-a) * (p.1 - mx)) ^ 2 = 0 := by
          intro p hp
          have h3 := h p hp
          have : b * (p.2 - my) - (-a) * (p.1 - mx) = 0 := by linear_combination h3 - hmean
          rw [this]; ring
        rw [sum_const_of _ 0 s this]; ring
      have hxa : ∀ p ∈ s, a * ((p.1 - mx) * (p.1 - mx)) = -b * ((p.1 - mx) * (p.2 - my)) := by
        intro p hp
        have h3 := h p hp
        linear_combination (p.1 - mx) * (h3 - hmean)
      have hya : ∀ p ∈ s, a * ((p.1 - mx) * (p.2 - my)) = -b * ((p.2 - my) * (p.2 - my)) := by
        intro p hp
        have h3 := h p hp
        linear_combination (p.2 - my) * (h3 - hmean)
      have e1 : a * (s.map fun p => (p.1 - mx) ^ 2).sum = -b * (s.map fun p => (p.1 - mx) * (p.2 - my)).sum := by
        rw [← List.sum_map_mul_left, ← List.sum_map_mul_left]
        congr 1
        apply List.map_congr_left
        intro p hp
        rw [sq]
        exact hxa p hp
      have e2 : a * (s.map fun p => (p.1 - mx) * (p.2 - my)).sum = -b * (s.map fun p => (p.2 - my) ^ 2).sum := by
        rw [← List.sum_map_mul_left, ← List.sum_map_mul_left]
        congr 1
        apply List.map_congr_left
        intro p hp
        rw [sq]
        exact hya p hp
      generalize (s.map fun p => (p.1 - mx) ^ 2).sum = A at *
      generalize (s.map fun p => (p.1 - mx) * (p.2 - my)).sum = B at *
      generalize (s.map fun p => (p.2 - my) ^ 2).sum = C at *
      rcases hab with ha | hb
      · have : a * (A * C - B * B) = 0 := by linear_combination C * e1 - B * e2
        rcases mul_eq_zero.mp this with h | h
        · exact absurd h ha
        · exact h
      · have : b * (A * C - B * B) = 0 := by linear_combination A * e2 - B * e1
        rcases mul_eq_zero.mp this with h | h
        · exact absurd h hb
        · exact h

/-- The pairs drawn. -/
def drawn (X : List (ℚ × ℚ)) (d : List ℕ) : List (ℚ × ℚ) := d.map fun i => X.getD i (0, 0)

/-- The distance does not depend on the choice of the solution: it is determined by the points. -/
theorem C195_distance_unique (s : List (ℚ × ℚ)) (p : ℚ × ℚ) (m m' : ℚ) (h : IsMahalanobis s p m) (h' : IsMahalanobis s p m') : m = m' := by
  obtain ⟨mx, my, u, v, e1, e2, e3, e4, e5⟩ := h
  obtain ⟨mx', my', u', v', f1, f2, f3, f4, f5⟩ := h'
  by_cases hs : s = []
  · subst hs
    simp at e3 e4 f3 f4
    rw [e5, f5, ← e3, ← e4, ← f3, ← f4]
    ring
  · have hlen : (s.length : ℚ) ≠ 0 := by
      have := List.length_pos_iff.mpr hs
      exact_mod_cast this.ne'
    have hx : mx' = mx := mul_right_cancel₀ hlen (f1.trans e1.symm)
    have hy : my' = my := mul_right_cancel₀ hlen (f2.trans e2.symm)
    subst hx hy
    rw [e5, f5]
    generalize (s.map fun p => (p.1 - mx') ^ 2).sum = A at *
    generalize (s.map fun p => (p.1 - mx') * (p.2 - my')).sum = B at *
    generalize (s.map fun p => (p.2 - my') ^ 2).sum = C at *
    have q1 : u * (p.1 - mx') + v * (p.2 - my') = u * ((A * u' + B * v') / (s.length - 1)) + v * ((B * u' + C * v') / (s.length - 1)) := by
      rw [f3, f4]
    have q2 : u' * (p.1 - mx') + v' * (p.2 - my') = u' * ((A * u + B * v) / (s.length - 1)) + v' * ((B * u + C * v) / (s.length - 1)) := by
      rw [e3, e4]
    rw [q1, q2]
    ring

/-- The distances of one draw. -/
theorem mahalColumn_eq (s a : List (ℚ × ℚ)) (h : ¬ OnLine s) :
    ∃ D : ℚ × ℚ → ℚ, (∀ p, IsMahalanobis s p (D p)) ∧ mahalColumn s.length s a = .ok (a.map D) := by
  have hdet := (singular_iff s).not.mpr h
  have hs : 1 < s.length := by
    rcases s with _ | ⟨q, _ | ⟨q', s⟩⟩
    · exact absurd ⟨1, 0, 0, Or.inl one_ne_zero, by simp⟩ h
    · exact absurd ⟨1, 0, q.1, Or.inl one_ne_zero, by simp⟩ h
    · simp
  have hlen : (s.length : ℚ) ≠ 0 := by
    have : s.length ≠ 0 := by omega
    exact_mod_cast this
  have hlen1 : (s.length : ℚ) - 1 ≠ 0 := by
    have : (1 : ℚ) < s.length := by exact_mod_cast hs
    linarith
  unfold mahalColumn
  unfold scatter at hdet ⊢
  dsimp only at hdet ⊢
  generalize hmx : (s.map Prod.fst).sum / s.length = mx at *
  generalize hmy : (s.map Prod.snd).sum / s.length = my at *
  rw [if_neg hdet]
  refine ⟨_, fun p => ?_, rfl⟩
  refine ⟨mx, my,
    ((s.map fun p => (p.2 - my) ^ 2).sum * (p.1 - mx) - (s.map fun p => (p.1 - mx) * (p.2 - my)).sum * (p.2 - my)) /
      ((s.map fun p => (p.1 - mx) ^ 2).sum * (s.map fun p => (p.2 - my) ^ 2).sum -
        (s.map fun p => (p.1 - mx) * (p.2 - my)).sum * (s.map fun p => (p.1 - mx) * (p.2 - my)).sum) * (s.length - 1),
    ((s.map fun p => (p.1 - mx) ^ 2).sum * (p.2 - my) - (s.map fun p => (p.1 - mx) * (p.2 - my)).sum * (p.1 - mx)) /
      ((s.map fun p => (p.1 - mx) ^ 2).sum * (s.map fun p => (p.2 - my) ^ 2).sum -
        (s.map fun p => (p.1 - mx) * (p.2 - my)).sum * (s.map fun p => (p.1 - mx) * (p.2 - my)).sum) * (s.length - 1), ?_, ?_, ?_, ?_, ?_⟩
  · rw [← hmx]; field_simp
  · rw [← hmy]; field_simp
  all_goals
    generalize (s.map fun p => (p.1 - mx) ^ 2).sum = A at *
    generalize (s.map fun p => (p.1 - mx) * (p.2 - my)).sum = B at *
    generalize (s.map fun p => (p.2 - my) ^ 2).sum = C at *
    generalize (s.length : ℚ) - 1 = N at *
    have hI := mul_inv_cancel₀ hdet
    simp only [div_eq_mul_inv _ (A * C - B * B)]
    generalize (A * C - B * B)⁻¹ = I at *
    first
      | (rw [div_eq_iff hlen1]; linear_combination (p.1 - mx) * N * hI)
      | (rw [div_eq_iff hlen1]; linear_combination (p.2 - my) * N * hI)
      | ring

/-- **C195, Shepherd's pi.**  If no draw of the bootstrap lies on a line, there are the Mahalanobis distances of all points from every draw,
and the result is the rank correlation of exactly the pairs whose mean distance is less than 6; the others are marked.  Partial: a draw on
a line makes the call fail (`C195_counterexample`). -/
theorem C195_shepherd_partial (spearman : List ℚ → List ℚ → Except PyErr (Option CorrResult)) (x y : List ℚ) (draws : List (List ℕ))
    (h0 : draws ≠ []) (hl : ∀ d ∈ draws, d.length = (x.zip y).length) (hd : ∀ d ∈ draws, ¬ OnLine (drawn (x.zip y) d)) :
    ∃ D : List ℕ → ℚ × ℚ → ℚ, (∀ d ∈ draws, ∀ p, IsMahalanobis (drawn (x.zip y) d) p (D d p)) ∧
      shepherd spearman x y draws =
        (spearman (((x.zip y).filter fun p => (draws.map fun d => D d p).sum / draws.length < 6).map Prod.fst)
          (((x.zip y).filter fun p => (draws.map fun d => D d p).sum / draws.length < 6).map Prod.snd)).map fun r =>
          (r, (x.zip y).map fun p => decide (6 ≤ (draws.map fun d => D d p).sum / draws.length)) := by
  classical
  generalize hX : x.zip y = X at *
  have hex : ∀ d, ∃ D : ℚ × ℚ → ℚ, d ∈ draws → (∀ p, IsMahalanobis (drawn X d) p (D p)) ∧
      mahalColumn X.length (drawn X d) X = .ok (X.map D) := by
    intro d
    by_cases h : d ∈ draws
    · obtain ⟨D, h1, h2⟩ := mahalColumn_eq (drawn X d) X (hd d h)
      refine ⟨D, fun _ => ⟨h1, ?_⟩⟩
      rw [← h2]
      congr 1
      simp [drawn, hl d h]
    · exact ⟨fun _ => 0, fun h' => absurd h' h⟩
  choose D hD using hex
  refine ⟨D, fun d h => (hD d h).1, ?_⟩
  have hm : (draws.mapM fun d => mahalColumn X.length (d.map fun i => X.getD i (0, 0)) X) = .ok (draws.map fun d => X.map (D d)) := by
    clear h0 hl hd
    induction draws with
    | nil => rfl
    | cons d ds ih =>
      rw [List.mapM_cons, ih fun e he => hD e (by simp [he])]
      have := (hD d (by simp)).2
      unfold drawn at this
      rw [this]
      rfl
  have hlen : (draws.map fun d => X.map (D d)).length ≠ 0 := by
    simpa using h0
  have hb : bsmahal X draws = .ok (X.map fun p => some ((draws.map fun d => D d p).sum / draws.length)) := by
    unfold bsmahal
    rw [hm]
    simp only [bind, Except.bind]
    simp only [hlen, if_false]
    congr 1
    apply List.ext_getElem
    · simp
    · intro i h1 h2
      have hi : i < X.length := by simpa using h2
      simp [hi, Function.comp_def]
  unfold shepherd
  rw [hX, hb]
  simp only [bind, Except.bind, List.map_map, Function.comp_def]
  have hk : ∀ f : ℚ × ℚ → ℚ, (X.zip (X.map fun p => decide (6 ≤ f p))).filterMap (fun p => if p.2 then none else some p.1) =
      X.filter fun p => f p < 6 := by
    intro f
    clear hX hl hd hD hm hlen hb
    induction X with
    | nil => rfl
    | cons q X ih =>
      rw [List.map_cons, List.zip_cons_cons, List.filterMap_cons, ih, List.filter_cons]
      by_cases hq : f q < 6
      · simp [hq, not_le.mpr hq]
      · simp [hq, not_lt.mp hq]
  rw [hk fun p => (draws.map fun d => D d p).sum / draws.length]
  cases spearman _ _ <;> rfl

theorem mahalColumn_units (n : ℕ) (s q : List (ℚ × ℚ)) (a b c d : ℚ) (ha : a ≠ 0) (hc : c ≠ 0) :
    mahalColumn n (s.map fun p => (a * p.1 + b, c * p.2 + d)) (q.map fun p => (a * p.1 + b, c * p.2 + d)) = mahalColumn n s q := by
  by_cases hs : s = []
  · subst hs
    simp [mahalColumn, scatter]
  have hlen : (s.length : ℚ) ≠ 0 := by
    have := List.length_pos_iff.mpr hs
    exact_mod_cast this.ne'
  have hx : ((s.map fun p => (a * p.1 + b, c * p.2 + d)).map Prod.fst).sum / (s.map fun p => (a * p.1 + b, c * p.2 + d)).length =
      a * ((s.map Prod.fst).sum / s.length) + b := by
    have : ((s.map fun p : ℚ × ℚ => (a * p.1 + b, c * p.2 + d)).map Prod.fst).sum = a * (s.map Prod.fst).sum + s.length * b := by
      clear hs hlen
      induction s with
      | nil => simp
      | cons e s ih => simp only [List.map_cons, List.sum_cons, ih, List.length_cons]; push_cast; ring
    rw [this, List.length_map]
    field_simp
  have hy : ((s.map fun p => (a * p.1 + b, c * p.2 + d)).map Prod.snd).sum / (s.map fun p => (a * p.1 + b, c * p.2 + d)).length =
      c * ((s.map Prod.snd).sum / s.length) + d := by
    have : ((s.map fun p : ℚ × ℚ => (a * p.1 + b, c * p.2 + d)).map Prod.snd).sum = c * (s.map Prod.snd).sum + s.length * d := by
      clear hs hlen hx
      induction s with
      | nil => simp
      | cons e s ih => simp only [List.map_cons, List.sum_cons, ih, List.length_cons]; push_cast; ring
    rw [this, List.length_map]
    field_simp
  unfold mahalColumn scatter
  dsimp only
  rw [hx, hy]
  generalize (s.map Prod.fst).sum / s.length = mx
  generalize (s.map Prod.snd).sum / s.length = my
  have e1 : ((s.map fun p => (a * p.1 + b, c * p.2 + d)).map fun p => (p.1 - (a * mx + b)) ^ 2).sum =
      a ^ 2 * (s.map fun p => (p.1 - mx) ^ 2).sum := by
    rw [List.map_map, ← List.sum_map_mul_left]
    congr 1
    apply List.map_congr_left
    intro p _
    simp only [Function.comp]
    ring
  have e2 : ((s.map fun p => (a * p.1 + b, c * p.2 + d)).map fun p => (p.1 - (a * mx + b)) * (p.2 - (c * my + d))).sum =
      a * c * (s.map fun p => (p.1 - mx) * (p.2 - my)).sum := by
    rw [List.map_map, ← List.sum_map_mul_left]
    congr 1
    apply List.map_congr_left
    intro p _
    simp only [Function.comp]
    ring
  have e3 : ((s.map fun p => (a * p.1 + b, c * p.2 + d)).map fun p => (p.2 - (c * my + d)) ^ 2).sum =
      c ^ 2 * (s.map fun p => (p.2 - my) ^ 2).sum := by
    rw [List.map_map, ← List.sum_map_mul_left]
    congr 1
    apply List.map_congr_left
    intro p _
    simp only [Function.comp]
    ring
  rw [e1, e2, e3]
  generalize (s.map fun p => (p.1 - mx) ^ 2).sum = A at *
  generalize (s.map fun p => (p.1 - mx) * (p.2 - my)).sum = B at *
  generalize (s.map fun p => (p.2 - my) ^ 2).sum = C at *
  have hdet : a ^ 2 * A * (c ^ 2 * C) - a * c * B * (a * c * B) = (a * c) ^ 2 * (A * C - B * B) := by ring
  rw [hdet]
  have hac : (a * c) ^ 2 ≠ 0 := pow_ne_zero _ (mul_ne_zero ha hc)
  by_cases h : A * C - B * B = 0
  · rw [if_pos h, if_pos (by rw [h, mul_zero])]
  · rw [if_neg h, if_neg (mul_ne_zero hac h), List.map_map]
    congr 1
    apply List.map_congr_left
    intro p _
    simp only [Function.comp]
    congr 1
    rw [div_eq_div_iff (mul_ne_zero hac h) h]
    ring

theorem bsmahal_units (X : List (ℚ × ℚ)) (draws : List (List ℕ)) (hr : ∀ d ∈ draws, ∀ i ∈ d, i < X.length) (a b c d : ℚ) (ha : a ≠ 0)
    (hc : c ≠ 0) : bsmahal (X.map fun p => (a * p.1 + b, c * p.2 + d)) draws = bsmahal X draws := by
  unfold bsmahal
  have h : (draws.mapM fun e => mahalColumn (X.map fun p => (a * p.1 + b, c * p.2 + d)).length
      (e.map fun i => (X.map fun p => (a * p.1 + b, c * p.2 + d)).getD i (0, 0)) (X.map fun p => (a * p.1 + b, c * p.2 + d))) =
      draws.mapM fun e => mahalColumn X.length (e.map fun i => X.getD i (0, 0)) X := by
    induction draws with
    | nil => rw [List.mapM_nil, List.mapM_nil]
    | cons e es ih =>
      rw [List.mapM_cons, List.mapM_cons, ih fun e' he => hr e' (by simp [he])]
      have : (e.map fun i => (X.map fun p => (a * p.1 + b, c * p.2 + d)).getD i (0, 0)) =
          (e.map fun i => X.getD i (0, 0)).map fun p => (a * p.1 + b, c * p.2 + d) := by
        rw [List.map_map]
        apply List.map_congr_left
        intro i hi
        have := hr e (by simp) i hi
        simp [this]
      rw [this, mahalColumn_units _ _ _ a b c d ha hc, List.length_map]
  rw [h, List.length_map]

/-- **C195, the units do not matter.**  Scaling and shifting either variable leaves the outliers the same. -/
theorem C195_units (sp sp' : List ℚ → List ℚ → Except PyErr (Option CorrResult)) (x y : List ℚ) (draws : List (List ℕ))
    (hr : ∀ d ∈ draws, ∀ i ∈ d, i < (x.zip y).length) (a b c d : ℚ) (ha : a ≠ 0) (hc : c ≠ 0) (r r' : Option CorrResult)
    (out out' : List Bool) (h : shepherd sp x y draws = .ok (r, out))
    (h' : shepherd sp' (x.map fun v => a * v + b) (y.map fun v => c * v + d) draws = .ok (r', out')) : out' = out := by
  have hz : (x.map fun v => a * v + b).zip (y.map fun v => c * v + d) = (x.zip y).map fun p => (a * p.1 + b, c * p.2 + d) := by
    rw [List.zip_map]
    rfl
  unfold shepherd at h h'
  obtain ⟨m, h1, h⟩ := bind_ok_parts h
  obtain ⟨m', h1', h'⟩ := bind_ok_parts h'
  obtain ⟨q, _, h⟩ := bind_ok_parts h
  obtain ⟨q', _, h'⟩ := bind_ok_parts h'
  rw [hz, bsmahal_units _ _ hr a b c d ha hc, h1] at h1'
  cases h1'
  cases h
  cases h'
  rfl

/-- **C195, a draw on a line.**  The call fails when one of the draws lies on a line. -/
theorem C195_line (sp : List ℚ → List ℚ → Except PyErr (Option CorrResult)) (x y : List ℚ) (draws : List (List ℕ)) (d : List ℕ)
    (hd : d ∈ draws) (hl : OnLine (drawn (x.zip y) d)) : shepherd sp x y draws = .error .valueError := by
  unfold shepherd bsmahal
  have : (draws.mapM fun d => mahalColumn (x.zip y).length (d.map fun i => (x.zip y).getD i (0, 0)) (x.zip y)) = .error .valueError := by
    induction draws with
    | nil => simp at hd
    | cons e es ih =>
      rw [List.mapM_cons]
      by_cases he : OnLine (drawn (x.zip y) e)
      · have := (singular_iff _).mpr he
        unfold drawn at this
        unfold mahalColumn
        dsimp only
        rw [if_pos this]
        rfl
      · have hde : d ∈ es := by
          rcases List.mem_cons.mp hd with rfl | h
          · exact absurd hl he
          · exact h
        rw [ih hde]
        unfold mahalColumn
        dsimp only
        split <;> rfl
  rw [this]
  rfl

/-- **C195, counterexample.**  For all data there is a possible draw that makes the call fail: the same pair every time. -/
theorem C195_counterexample (x y : List ℚ) (h : x.zip y ≠ []) :
    ∃ d : List ℕ, d.length = (x.zip y).length ∧ (∀ i ∈ d, i < (x.zip y).length) ∧
      ∀ sp draws, d ∈ draws → shepherd sp x y draws = .error .valueError := by
  have hpos := List.length_pos_iff.mpr h
  refine ⟨List.replicate (x.zip y).length 0, List.length_replicate, fun i hi => ?_, fun sp draws hd => C195_line sp x y draws _ hd ?_⟩
  · rw [List.eq_of_mem_replicate hi]
    exact hpos
  · refine ⟨1, 0, ((x.zip y).getD 0 (0, 0)).1, Or.inl one_ne_zero, fun p hp => ?_⟩
    unfold drawn at hp
    rw [List.map_replicate] at hp
    rw [List.eq_of_mem_replicate hp]
    ring

/-- Four points, not on a line. -/
def shepherdExample : List ℚ × List ℚ := ([0, 1, 0, 1], [0, 0, 1, 2])

/-- Not vacuous: the points above with the draw of each of them once, and the same turned around. -/
example : ∃ D : List ℕ → ℚ × ℚ → ℚ, (∀ d ∈ [[0, 1, 2, 3], [3, 2, 1, 0]], ∀ p,
      IsMahalanobis (drawn (shepherdExample.1.zip shepherdExample.2) d) p (D d p)) ∧
    shepherd (fun _ _ => .ok none) shepherdExample.1 shepherdExample.2 [[0, 1, 2, 3], [3, 2, 1, 0]] =
      .ok (none, [false, false, false, false]) := by
  have h : ∀ d ∈ [[0, 1, 2, 3], [3, 2, 1, 0]], ¬ OnLine (drawn (shepherdExample.1.zip shepherdExample.2) d) := by
    intro d hd
    rw [← singular_iff]
    simp only [List.mem_cons, List.not_mem_nil, or_false] at hd
    rcases hd with rfl | rfl <;> norm_num [scatter, drawn, shepherdExample]
  obtain ⟨D, h1, _⟩ := C195_shepherd_partial (fun _ _ => .ok none) shepherdExample.1 shepherdExample.2 [[0, 1, 2, 3], [3, 2, 1, 0]] (by simp)
    (by decide) h
  have e : bsmahal (shepherdExample.1.zip shepherdExample.2) [[0, 1, 2, 3], [3, 2, 1, 0]] =
      .ok [some (21 / 20), some (39 / 20), some (21 / 20), some (39 / 20)] := by
    simp only [bsmahal, List.mapM_cons, List.mapM_nil, shepherdExample, mahalColumn, scatter]
    norm_num [bind, Except.bind, pure, Except.pure, List.range_succ]
  refine ⟨D, h1, ?_⟩
  unfold shepherd
  rw [e]
  simp only [bind, Except.bind]
  norm_num

end Metcalcpy.Props
