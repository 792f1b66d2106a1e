/-
C226  The components of the OMI index are least squares coefficients of the filtered field.
C227  Which waves the filter of the OMI index lets pass.
-/
import Verif.Props.C190_Omi
import Verif.Props.C143_OmiFilter
import Verif.Lemmas.Dft
import Mathlib.Data.List.GetD

namespace Metcalcpy

theorem zipDot_eq_sum : ∀ x y : List ℝ, x.length = y.length →
    (List.zipWith (· * ·) x y).sum = ∑ i ∈ Finset.range y.length, x.getD i 0 * y.getD i 0
  | [], [], _ => by simp
  | a :: x, b :: y, h => by
    rw [List.zipWith_cons_cons, List.sum_cons, zipDot_eq_sum x y (by simpa using h), List.length_cons, Finset.sum_range_succ']
    simp only [List.getD_cons_succ, List.getD_cons_zero]
    ring

namespace Spec

/-- The sum of the squares of what the combination `a e1 + b e2` leaves of `v`. -/
noncomputable def fitResidual (v e1 e2 : List ℝ) (a b : ℝ) : ℝ :=
  ∑ i ∈ Finset.range v.length, (v.getD i 0 - a * e1.getD i 0 - b * e2.getD i 0) ^ 2

/-- `a` and `b` leave least, and are the smallest such pair. -/
def BestFit (v e1 e2 : List ℝ) (a b : ℝ) : Prop :=
  ∀ a' b' : ℝ, fitResidual v e1 e2 a b ≤ fitResidual v e1 e2 a' b' ∧
    (fitResidual v e1 e2 a' b' ≤ fitResidual v e1 e2 a b → a ^ 2 + b ^ 2 ≤ a' ^ 2 + b' ^ 2)

end Spec
open Spec

theorem lstsqTwo_best (v e1 e2 : List ℝ) (h1 : e1.length = v.length) (h2 : e2.length = v.length) :
    BestFit v e1 e2 (lstsqTwo v e1 e2).1 (lstsqTwo v e1 e2).2 := by
  set A := ∑ i ∈ Finset.range v.length, e1.getD i 0 * e1.getD i 0 with hA
  set B := ∑ i ∈ Finset.range v.length, e1.getD i 0 * e2.getD i 0 with hB
  set C := ∑ i ∈ Finset.range v.length, e2.getD i 0 * e2.getD i 0 with hC
  set D := ∑ i ∈ Finset.range v.length, e1.getD i 0 * v.getD i 0 with hD
  set E := ∑ i ∈ Finset.range v.length, e2.getD i 0 * v.getD i 0 with hE
  have hS : ∀ a b, fitResidual v e1 e2 a b = (∑ i ∈ Finset.range v.length, v.getD i 0 * v.getD i 0) - 2 * a * D - 2 * b * E +
      a ^ 2 * A + 2 * a * b * B + b ^ 2 * C := by
    intro a b
    unfold fitResidual
    rw [hA, hB, hC, hD, hE]
    simp only [Finset.mul_sum]
    rw [← Finset.sum_sub_distrib, ← Finset.sum_sub_distrib, ← Finset.sum_add_distrib, ← Finset.sum_add_distrib,
      ← Finset.sum_add_distrib]
    exact Finset.sum_congr rfl fun i _ => by ring
  have hQ : ∀ p q r : ℝ, p ^ 2 * A + q ^ 2 * C + 2 * p * q * B =
      ∑ i ∈ Finset.range v.length, (p * e1.getD i 0 + q * e2.getD i 0) ^ 2 := by
    intro p q r
    rw [hA, hB, hC]
    simp only [Finset.mul_sum]
    rw [← Finset.sum_add_distrib, ← Finset.sum_add_distrib]
    exact Finset.sum_congr rfl fun i _ => by ring
  have hQ0 : ∀ p q : ℝ, 0 ≤ p ^ 2 * A + q ^ 2 * C + 2 * p * q * B := by
    intro p q
    rw [hQ p q 0]
    exact Finset.sum_nonneg fun i _ => sq_nonneg _
  -- a combination of the two vectors with no length is zero against the field too
  have hZ : ∀ p q : ℝ, p ^ 2 * A + q ^ 2 * C + 2 * p * q * B = 0 → p * D + q * E = 0 ∧ p * A + q * B = 0 ∧ p * B + q * C = 0 := by
    intro p q h0
    rw [hQ p q 0] at h0
    have hz := (Finset.sum_eq_zero_iff_of_nonneg (fun i _ => sq_nonneg _)).1 h0
    have hz' : ∀ i ∈ Finset.range v.length, p * e1.getD i 0 + q * e2.getD i 0 = 0 := fun i hi => by
      have := hz i hi
      exact pow_eq_zero_iff (two_ne_zero) |>.1 this
    rw [hA, hB, hC, hD, hE]
    simp only [Finset.mul_sum]
    rw [← Finset.sum_add_distrib, ← Finset.sum_add_distrib, ← Finset.sum_add_distrib]
    refine ⟨Finset.sum_eq_zero fun i hi => ?_, Finset.sum_eq_zero fun i hi => ?_, Finset.sum_eq_zero fun i hi => ?_⟩
    · have := hz' i hi; linear_combination v.getD i 0 * this
    · have := hz' i hi; linear_combination e1.getD i 0 * this
    · have := hz' i hi; linear_combination e2.getD i 0 * this
  have hA0 : 0 ≤ A := by have := hQ0 1 0; linarith
  have hC0 : 0 ≤ C := by have := hQ0 0 1; linarith
  have hdet : 0 ≤ A * C - B * B := by
    rcases eq_or_lt_of_le hA0 with h | h
    · have h0 := hZ 1 0 (by rw [← h]; ring)
      have : B = 0 := by linarith [h0.2.2]
      rw [this, ← h]; simp
    · have := hQ0 (-B) A
      have e : (-B) ^ 2 * A + A ^ 2 * C + 2 * (-B) * A * B = A * (A * C - B * B) := by ring
      rw [e] at this
      exact nonneg_of_mul_nonneg_right this h
  -- it is enough to solve the normal equations with a pair that no zero combination changes
  have main : ∀ a b : ℝ, a * A + b * B = D → a * B + b * C = E →
      (∀ p q : ℝ, p ^ 2 * A + q ^ 2 * C + 2 * p * q * B = 0 → a * p + b * q = 0) → BestFit v e1 e2 a b := by
    intro a b n1 n2 hmin a' b'
    have hd : fitResidual v e1 e2 a' b' = fitResidual v e1 e2 a b +
        ((a' - a) ^ 2 * A + (b' - b) ^ 2 * C + 2 * (a' - a) * (b' - b) * B) := by
      rw [hS, hS, ← n1, ← n2]; ring
    have h0 := hQ0 (a' - a) (b' - b)
    refine ⟨by linarith, fun hle => ?_⟩
    have hm := hmin (a' - a) (b' - b) (by linarith)
    nlinarith [sq_nonneg (a' - a), sq_nonneg (b' - b)]
  have hl : lstsqTwo v e1 e2 = if A * C - B * B ≠ 0 then ((D * C - E * B) / (A * C - B * B), (E * A - D * B) / (A * C - B * B))
      else if A + C ≠ 0 then ((A * D + B * E) / (A + C) ^ 2, (B * D + C * E) / (A + C) ^ 2) else (0, 0) := by
    have hv : ∀ x y : List ℝ, x.length = v.length → y.length = v.length →
        (List.zipWith (· * ·) x y).sum = ∑ i ∈ Finset.range v.length, x.getD i 0 * y.getD i 0 := by
      intro x y hx hy
      rw [zipDot_eq_sum x y (by omega), hy]
    unfold lstsqTwo
    dsimp only
    simp only [hv e1 e1 h1 h1, hv e2 e2 h2 h2, hv e1 e2 h1 h2, hv e1 v h1 rfl, hv e2 v h2 rfl, ← hA, ← hB, ← hC, ← hD, ← hE]
  rw [hl]
  by_cases hd : A * C - B * B ≠ 0
  · rw [if_pos hd]
    apply main
    · dsimp only
      rw [div_mul_eq_mul_div, div_mul_eq_mul_div, ← add_div, div_eq_iff hd]; ring
    · dsimp only
      rw [div_mul_eq_mul_div, div_mul_eq_mul_div, ← add_div, div_eq_iff hd]; ring
    · intro p q h0
      obtain ⟨-, z1, z2⟩ := hZ p q h0
      have hp : p = 0 := by
        have : p * (A * C - B * B) = 0 := by linear_combination C * z1 - B * z2
        exact (mul_eq_zero.1 this).resolve_right hd
      have hq : q = 0 := by
        have : q * (A * C - B * B) = 0 := by linear_combination A * z2 - B * z1
        exact (mul_eq_zero.1 this).resolve_right hd
      rw [hp, hq]; ring
  · rw [if_neg hd]
    push Not at hd
    have k1 := hZ (-B) A (by linear_combination A * hd)
    have k2 := hZ C (-B) (by linear_combination C * hd)
    by_cases ht : A + C ≠ 0
    · rw [if_pos ht]
      apply main
      · dsimp only
        field_simp
        linear_combination (-(A + C)) * k2.1 + (-D) * hd + 0 * k1.1
      · dsimp only
        field_simp
        linear_combination (-(A + C)) * k1.1 + (-E) * hd
      · intro p q h0
        obtain ⟨z0, z1, z2⟩ := hZ p q h0
        dsimp only
        have : (A * D + B * E) / (A + C) ^ 2 * p + (B * D + C * E) / (A + C) ^ 2 * q = (D * (p * A + q * B) + E * (p * B + q * C)) / (A + C) ^ 2 := by
          ring
        rw [this, z1, z2]; simp
    · rw [if_neg ht]
      push Not at ht
      have hA' : A = 0 := by linarith
      have hC' : C = 0 := by linarith
      have c1 := hZ 1 0 (by rw [hA']; ring)
      have c2 := hZ 0 1 (by rw [hC']; ring)
      apply main
      · dsimp only; linarith [c1.1]
      · dsimp only; linarith [c2.1]
      · intro p q _; dsimp only; ring

/-! ### waves through the filter -/

open Props

/-- The transform of a wave with complex values. -/
theorem unit_transform (nt nl : ℕ) (ht : 0 < nt) (hl : 0 < nl) (a b i j : ℤ) :
    ∑ t ∈ Finset.range nt, ∑ m ∈ Finset.range nl, (unit nt a t * unit nl b m) * (unit nt (-i) t * unit nl (-j) m) =
      (if (nt : ℤ) ∣ a - i then (nt : ℂ) else 0) * (if (nl : ℤ) ∣ b - j then (nl : ℂ) else 0) := by
  rw [← sum_unit nt ht, ← sum_unit nl hl, Finset.sum_mul_sum]
  refine Finset.sum_congr rfl fun t _ => Finset.sum_congr rfl fun m _ => ?_
  rw [sub_eq_add_neg, sub_eq_add_neg, ← unit_mul, ← unit_mul]
  ring

theorem dvd_pos_iff {n p i : ℕ} (hp : p < n) (hi : i < n) : (n : ℤ) ∣ (p : ℤ) - i ↔ i = p := by
  constructor
  · rintro ⟨k, hk⟩
    have h1 : (p : ℤ) - i < n := by omega
    have h2 : -(n : ℤ) < (p : ℤ) - i := by omega
    rw [hk] at h1 h2
    have : k = 0 := by
      have hn : (0 : ℤ) < n := by omega
      have a1 : k < 1 := by nlinarith
      have a2 : -1 < k := by nlinarith
      omega
    rw [this] at hk
    omega
  · rintro rfl; simp

theorem dvd_neg_iff {n p i : ℕ} (hp : p < n) (hi : i < n) : (n : ℤ) ∣ -(p : ℤ) - i ↔ i = mirrorPos n p := by
  have hn : 0 < n := by omega
  rcases Nat.eq_zero_or_pos p with rfl | h0
  · rw [mirrorPos_zero]
    have := dvd_pos_iff (p := 0) hn hi
    simpa using this
  · rw [mirrorPos_of_pos h0 hp, ← dvd_pos_iff (n := n) (p := n - p) (by omega) hi]
    have : ((n - p : ℕ) : ℤ) - i = n + (-(p : ℤ) - i) := by rw [Nat.cast_sub hp.le]; ring
    rw [this]
    exact (Int.dvd_add_right (dvd_refl _)).symm

theorem unit_mirror {n p : ℕ} (hp : p < n) (t : ℕ) : unit n (mirrorPos n p : ℕ) t = unit n (-(p : ℤ)) t := by
  rcases Nat.eq_zero_or_pos p with rfl | h0
  · rw [mirrorPos_zero]; simp
  · rw [mirrorPos_of_pos h0 hp, Nat.cast_sub hp.le]
    have := unit_add_mul n (by omega) (-(p : ℤ)) 1 t
    rw [← this]
    congr 1
    ring

theorem mapM_pairs {α β : Type} (f : α → Except PyErr β) : ∀ (l : List α) (bs : List β), l.mapM f = .ok bs →
    bs.length = l.length ∧ ∀ (i : ℕ) (a : α), l[i]? = some a → ∃ b, bs[i]? = some b ∧ f a = .ok b
  | [], bs, h => by
    have : bs = [] := (Except.ok.inj h).symm
    subst this
    simp
  | a :: l, bs, h => by
    rw [List.mapM_cons] at h
    cases ha : f a with
    | error e => rw [ha] at h; cases h
    | ok b =>
      cases hl : l.mapM f with
      | error e => rw [ha, hl] at h; cases h
      | ok cs =>
        rw [ha, hl] at h
        have : bs = b :: cs := (Except.ok.inj h).symm
        subst this
        obtain ⟨h1, h2⟩ := mapM_pairs f l cs hl
        refine ⟨by simp [h1], ?_⟩
        intro i a' hi
        cases i with
        | zero =>
          simp only [List.getElem?_cons_zero, Option.some.injEq] at hi
          subst hi
          exact ⟨b, by simp, ha⟩
        | succ i =>
          rw [List.getElem?_cons_succ] at hi ⊢
          exact h2 i a' hi

open Classical in
/-- The field that is left when the components outside of a set are taken out of the transform. -/
noncomputable def maskedField (nt nl : ℕ) (c : ℕ → ℕ → Prop) (x : ℕ → ℕ → ℝ) (t m : ℕ) : ℝ :=
  ifft2Real nt nl (fun i j => if c i j then fft2 nt nl x i j else 0) t m

theorem maskedField_zero (nt nl : ℕ) (c : ℕ → ℕ → Prop) (t m : ℕ) : maskedField nt nl c (fun _ _ => 0) t m = 0 := by
  unfold maskedField ifft2Real fft2
  simp

theorem maskedField_add (nt nl : ℕ) (c : ℕ → ℕ → Prop) (x y : ℕ → ℕ → ℝ) (t m : ℕ) :
    maskedField nt nl c (fun t m => x t m + y t m) t m = maskedField nt nl c x t m + maskedField nt nl c y t m := by
  unfold maskedField ifft2Real
  rw [← mul_add, ← Finset.sum_add_distrib]
  congr 1
  refine Finset.sum_congr rfl fun i _ => ?_
  rw [← Finset.sum_add_distrib]
  refine Finset.sum_congr rfl fun j _ => ?_
  rw [← Complex.add_re, ← add_mul]
  congr 2
  beta_reduce
  split
  · unfold fft2
    rw [← Finset.sum_add_distrib]
    refine Finset.sum_congr rfl fun i _ => ?_
    rw [← Finset.sum_add_distrib]
    refine Finset.sum_congr rfl fun j _ => ?_
    rw [Complex.ofReal_add, add_mul]
  · simp

theorem maskedField_scale (nt nl : ℕ) (c : ℕ → ℕ → Prop) (a : ℝ) (x : ℕ → ℕ → ℝ) (t m : ℕ) :
    maskedField nt nl c (fun t m => a * x t m) t m = a * maskedField nt nl c x t m := by
  unfold maskedField
  rw [← ifft2Real_scale]
  congr 1
  funext i j
  rw [fft2_scale]
  split <;> simp

theorem wave_eq_units (nt nl p q t m : ℕ) (φ : ℝ) :
    ((Real.cos (2 * Real.pi * (p * t / nt + q * m / nl) + φ) : ℝ) : ℂ) =
      (Complex.exp (φ * Complex.I) * (unit nt p t * unit nl q m) +
        Complex.exp (-φ * Complex.I) * (unit nt (-p) t * unit nl (-q) m)) / 2 := by
  rw [Complex.ofReal_cos, Complex.cos, unit, unit, unit, unit, ← Complex.exp_add, ← Complex.exp_add, ← Complex.exp_add, ← Complex.exp_add]
  congr 2
  · congr 1; push_cast; ring
  · congr 1; push_cast; ring

open Classical in
/-- A wave passes as a whole or not at all. -/
theorem maskedField_wave (nt nl : ℕ) (h0 : 0 < nt) (h0' : 0 < nl) (c : ℕ → ℕ → Prop) (p q : ℕ) (hp : p < nt) (hq : q < nl)
    (hc : c (mirrorPos nt p) (mirrorPos nl q) ↔ c p q) (φ : ℝ) (t m : ℕ) :
    maskedField nt nl c (fun t m => Real.cos (2 * Real.pi * (p * t / nt + q * m / nl) + φ)) t m =
      if c p q then Real.cos (2 * Real.pi * (p * t / nt + q * m / nl) + φ) else 0 := by
  have hnt : (nt : ℂ) ≠ 0 := by exact_mod_cast h0.ne'
  have hnl : (nl : ℂ) ≠ 0 := by exact_mod_cast h0'.ne'
  have hF : ∀ i < nt, ∀ j < nl, fft2 nt nl (fun t m => Real.cos (2 * Real.pi * (p * t / nt + q * m / nl) + φ)) i j =
      (Complex.exp (φ * Complex.I) * ((if i = p then (nt : ℂ) else 0) * (if j = q then (nl : ℂ) else 0)) +
       Complex.exp (-φ * Complex.I) * ((if i = mirrorPos nt p then (nt : ℂ) else 0) * (if j = mirrorPos nl q then (nl : ℂ) else 0))) / 2 := by
    intro i hi j hj
    have e1 := unit_transform nt nl h0 h0' p q i j
    have e2 := unit_transform nt nl h0 h0' (-p) (-q) i j
    simp only [dvd_pos_iff hp hi, dvd_pos_iff hq hj] at e1
    simp only [dvd_neg_iff hp hi, dvd_neg_iff hq hj] at e2
    rw [← e1, ← e2, Finset.mul_sum, Finset.mul_sum, ← Finset.sum_add_distrib, Finset.sum_div]
    unfold fft2
    refine Finset.sum_congr rfl fun t _ => ?_
    rw [Finset.mul_sum, Finset.mul_sum, ← Finset.sum_add_distrib, Finset.sum_div]
    refine Finset.sum_congr rfl fun m _ => ?_
    rw [wave_eq_units]
    have hu : Complex.exp (-(2 * Real.pi * Complex.I * ((i : ℂ) * t / nt + (j : ℂ) * m / nl))) = unit nt (-i) t * unit nl (-j) m := by
      unfold unit
      rw [← Complex.exp_add]
      congr 1
      push_cast
      ring
    rw [hu]
    ring
  have hU : ∀ i j : ℕ, Complex.exp (2 * Real.pi * Complex.I * ((i : ℂ) * t / nt + (j : ℂ) * m / nl)) = unit nt i t * unit nl j m := by
    intro i j
    unfold unit
    rw [← Complex.exp_add]
    congr 1
    push_cast
    ring
  unfold maskedField ifft2Real
  simp only [hU]
  have hsum : ∑ i ∈ Finset.range nt, ∑ j ∈ Finset.range nl,
      (if c i j then fft2 nt nl (fun t m => Real.cos (2 * Real.pi * (p * t / nt + q * m / nl) + φ)) i j else 0) * (unit nt i t * unit nl j m) =
      (nt * nl : ℂ) * (if c p q then ((Real.cos (2 * Real.pi * (p * t / nt + q * m / nl) + φ) : ℝ) : ℂ) else 0) := by
    have hG : ∀ (P Q : ℕ), P < nt → Q < nl → ∀ z : ℂ, ∑ i ∈ Finset.range nt, ∑ j ∈ Finset.range nl,
        (if c i j then z * ((if i = P then (nt : ℂ) else 0) * (if j = Q then (nl : ℂ) else 0)) / 2 else 0) * (unit nt i t * unit nl j m) =
        if c P Q then z * (nt * nl) / 2 * (unit nt P t * unit nl Q m) else 0 := by
      intro P Q hP hQ z
      rw [Finset.sum_eq_single P, Finset.sum_eq_single Q]
      · simp only [if_true]
        split <;> simp
      · intro j _ hj
        rw [if_neg hj]
        simp
      · intro hn; exact absurd (Finset.mem_range.2 hQ) hn
      · intro i _ hi
        refine Finset.sum_eq_zero fun j _ => ?_
        rw [if_neg hi]
        simp
      · intro hn; exact absurd (Finset.mem_range.2 hP) hn
    have e1 := hG p q hp hq (Complex.exp (φ * Complex.I))
    have e2 := hG _ _ (mirrorPos_lt (i := p) h0) (mirrorPos_lt (i := q) h0') (Complex.exp (-φ * Complex.I))
    rw [unit_mirror hp, unit_mirror hq] at e2
    have : (nt * nl : ℂ) * (if c p q then ((Real.cos (2 * Real.pi * (p * t / nt + q * m / nl) + φ) : ℝ) : ℂ) else 0) =
        (if c p q then Complex.exp (φ * Complex.I) * (nt * nl) / 2 * (unit nt p t * unit nl q m) else 0) +
        (if c (mirrorPos nt p) (mirrorPos nl q) then Complex.exp (-φ * Complex.I) * (nt * nl) / 2 * (unit nt (-p) t * unit nl (-q) m) else 0) := by
      by_cases h : c p q
      · rw [if_pos h, if_pos h, if_pos (hc.2 h), wave_eq_units]; ring
      · rw [if_neg h, if_neg h, if_neg (fun h' => h (hc.1 h'))]; simp
    rw [this, ← e1, ← e2, ← Finset.sum_add_distrib]
    refine Finset.sum_congr rfl fun i hi => ?_
    rw [← Finset.sum_add_distrib]
    refine Finset.sum_congr rfl fun j hj => ?_
    rw [hF i (Finset.mem_range.1 hi) j (Finset.mem_range.1 hj)]
    by_cases h : c i j
    · rw [if_pos h, if_pos h, if_pos h]; ring
    · rw [if_neg h, if_neg h, if_neg h]; ring
  have hre := congrArg Complex.re hsum
  simp only [Complex.re_sum] at hre
  rw [hre]
  have hn : ((nt : ℝ) * nl) ≠ 0 := by positivity
  by_cases h : c p q
  · rw [if_pos h, if_pos h, show ((nt : ℂ) * nl) = (((nt : ℝ) * nl : ℝ) : ℂ) by push_cast; rfl, ← Complex.ofReal_mul, Complex.ofReal_re]
    field_simp
  · rw [if_neg h, if_neg h]; simp

namespace Props

/-- C226.  Whenever omi returns an index, its two components are, up to one positive factor common to all days, the coefficients
that fit the filtered field of the day best by the EOFs of that day of the year (the smallest such coefficients if there are
several). -/
theorem C226_regression (nm nl : ℕ) (times : List (ℚ × ℕ)) (eof1 eof2 : List (List ℝ)) (x : ℕ → ℕ → ℕ → ℝ) (p1 p2 : List ℝ)
    (h : (omi nm nl times eof1 eof2 x).2 = .ok (some (p1, p2))) :
    ∃ s > 0, ∃ filtered : List (ℕ → ℕ → ℝ),
      (List.range nm).mapM (fun i => omiFilterLat times.length nl ((times.getD 1 (0, 0)).1 - (times.getD 0 (0, 0)).1)
        20 96 (-720) 720 fun t l => x t i l) = .ok filtered ∧
      p1.length = times.length ∧ p2.length = times.length ∧
      ∀ t < times.length, ∃ e1 e2 : List ℝ, eof1[(times.getD t (0, 0)).2 - 1]? = some e1 ∧
        eof2[(times.getD t (0, 0)).2 - 1]? = some e2 ∧
        BestFit (filtered.flatMap fun y => (List.range nl).map fun l => y t l) e1 e2 (s * p1.getD t 0) (s * p2.getD t 0) := by
  match times with
  | [] => cases h
  | [_] => cases h
  | a :: b :: ts =>
    rw [omi_eq] at h
    split at h
    · cases h
    · split at h
      · cases h
      · cases hr : omiRaw nm nl (b.1 - a.1) (a :: b :: ts) eof1 eof2 x with
        | error e => rw [hr] at h; cases h
        | ok raw =>
          rw [hr] at h
          simp only [Except.map] at h
          split at h
          · cases h
          · next hs =>
            obtain ⟨rfl, rfl⟩ := Prod.mk.inj (Option.some.inj (Except.ok.inj h))
            have hpos : 0 < stdReal (raw.map Prod.fst) := lt_of_le_of_ne (Real.sqrt_nonneg _) (Ne.symm hs)
            generalize stdReal (raw.map Prod.fst) = s at hpos
            clear h
            unfold omiRaw at hr
            have hdt : ((a :: b :: ts).getD 1 (0, 0)).1 - ((a :: b :: ts).getD 0 (0, 0)).1 = b.1 - a.1 := by simp
            rw [hdt]
            generalize a :: b :: ts = times at *
            cases hf : (List.range nm).mapM (fun i => omiFilterLat times.length nl (b.1 - a.1) 20 96 (-720) 720 fun t l => x t i l) with
            | error e => rw [hf] at hr; cases hr
            | ok lats =>
              rw [hf] at hr
              obtain ⟨hlen, hat⟩ := mapM_pairs _ _ _ hr
              rw [List.length_zipIdx] at hlen
              refine ⟨s, hpos, lats, rfl, by rw [List.length_map, hlen], by rw [List.length_map, hlen], ?_⟩
              intro t ht
              obtain ⟨c, hc, hd⟩ := hat t (times.getD t (0, 0), t) (by
                rw [List.getElem?_zipIdx, List.getElem?_eq_getElem ht, List.getD_eq_getElem _ _ ht]
                simp)
              have hg : ∀ g : ℝ × ℝ → ℝ, s * (raw.map fun r => g r * (1 / s)).getD t 0 = g c := by
                intro g
                rw [List.getD_eq_getElem?_getD, List.getElem?_map, hc]
                simp only [Option.map_some, Option.getD_some]
                field_simp
              rw [hg Prod.fst, hg Prod.snd]
              unfold omiDay at hd
              dsimp only at hd
              split at hd
              · next e1 e2 h1 h2 =>
                split at hd
                · next hle =>
                  obtain rfl := Except.ok.inj hd
                  exact ⟨e1, e2, h1, h2, lstsqTwo_best _ _ _ hle.1 hle.2⟩
                · cases hd
              · cases hd

open Classical in
/-- C227.  For even numbers of times (padding included) and longitudes the filter of omi takes a field that is a sum of waves,
each with `p` cycles in the time of the record, `q` around the circle, any phase and amplitude, to the sum of those of them that have a
period between the limits (in days, `dt` days between the times) and a wavenumber of at most `K`; the others are removed without rest. -/
theorem C227_waves (nt nl : ℕ) (dt pmin pmax K : ℚ) (hdt : 0 < dt) (hp : 0 < pmin) (hpp : pmin < pmax) (hK : 0 < K)
    (h0 : 0 < nt) (h0' : 0 < nl) (het : nt % 2 = 0) (hel : nl % 2 = 0) (waves : List (ℕ × ℕ × ℝ × ℝ))
    (hw : ∀ w ∈ waves, w.1 < nt ∧ w.2.1 < nl) (t m : ℕ) :
    ifft2Real nt nl (omiFilter nt nl dt pmin pmax (-K) K (fft2 nt nl fun t m =>
        (waves.map fun w => w.2.2.2 * Real.cos (2 * Real.pi * (w.1 * t / nt + w.2.1 * m / nl) + w.2.2.1)).sum)) t m =
      ((waves.filter fun w => PeriodInBand (nt * dt) pmin pmax (min w.1 (nt - w.1)) ∧ ((min w.2.1 (nl - w.2.1) : ℕ) : ℚ) ≤ K).map
        fun w => w.2.2.2 * Real.cos (2 * Real.pi * (w.1 * t / nt + w.2.1 * m / nl) + w.2.2.1)).sum := by
  have hf : ∀ x : ℕ → ℕ → ℝ, ifft2Real nt nl (omiFilter nt nl dt pmin pmax (-K) K (fft2 nt nl x)) t m =
      maskedField nt nl (fun i j => PeriodInBand (nt * dt) pmin pmax (min i (nt - i)) ∧ ((min j (nl - j) : ℕ) : ℚ) ≤ K) x t m := by
    intro x
    unfold maskedField ifft2Real
    congr 1
    refine Finset.sum_congr rfl fun i hi => Finset.sum_congr rfl fun j hj => ?_
    rw [C143_even_partial nt nl dt pmin pmax K _ hdt hp hpp hK het hel i j (Finset.mem_range.1 hi) (Finset.mem_range.1 hj)]
    congr 2
    beta_reduce
    congr
  rw [hf]
  clear hf
  induction waves with
  | nil =>
    simp only [List.map_nil, List.sum_nil, List.filter_nil]
    exact maskedField_zero nt nl _ t m
  | cons w ws ih =>
    have hw1 := hw w (by simp)
    rw [show (fun t m : ℕ => ((w :: ws).map fun w => w.2.2.2 * Real.cos (2 * Real.pi * (w.1 * t / nt + w.2.1 * m / nl) + w.2.2.1)).sum) =
      fun t m : ℕ => w.2.2.2 * Real.cos (2 * Real.pi * (w.1 * t / nt + w.2.1 * m / nl) + w.2.2.1) +
        (ws.map fun w => w.2.2.2 * Real.cos (2 * Real.pi * (w.1 * t / nt + w.2.1 * m / nl) + w.2.2.1)).sum by
      funext t m; rw [List.map_cons, List.sum_cons]]
    rw [maskedField_add, maskedField_scale, ih (fun w' h' => hw w' (List.mem_cons_of_mem _ h')),
      maskedField_wave nt nl h0 h0' _ w.1 w.2.1 hw1.1 hw1.2 (by
        rw [min_mirror nt _ hw1.1, min_mirror nl _ hw1.2])]
    by_cases hc : PeriodInBand (nt * dt) pmin pmax (min w.1 (nt - w.1)) ∧ ((min w.2.1 (nl - w.2.1) : ℕ) : ℚ) ≤ K
    · rw [if_pos hc, List.filter_cons_of_pos (by simpa using hc), List.map_cons, List.sum_cons]
    · rw [if_neg hc, List.filter_cons_of_neg (by simpa using hc)]
      simp

/-- Three days, one point of two longitudes and constant EOFs: the fit of (1, 3) by (1, 1) and (1, -1) is 2 and -1. -/
example : BestFit [1, 3] [1, 1] [1, -1] 2 (-1) := by
  have h := lstsqTwo_best [1, 3] [1, 1] [1, -1] rfl rfl
  have e : lstsqTwo [1, 3] [1, 1] [1, -1] = (2, -1) := by norm_num [lstsqTwo]
  rw [e] at h
  exact h

/-- Two EOFs that are multiples of each other: of all the best fits the smallest is taken. -/
example : BestFit [5, 0] [1, 0] [2, 0] 1 2 := by
  have h := lstsqTwo_best [5, 0] [1, 0] [2, 0] rfl rfl
  have e : lstsqTwo [5, 0] [1, 0] [2, 0] = (1, 2) := by norm_num [lstsqTwo]
  rw [e] at h
  exact h

/-- A record of 1460 days with its padding: of a wave of 24.6 days and one of 19.8 days the first is left. -/
example (t m : ℕ) : ifft2Real 2460 144 (omiFilter 2460 144 1 20 96 (-720) 720 (fft2 2460 144 fun t m =>
      (([(100, 3, 0.5, 2), (124, 3, 0, 1)] : List (ℕ × ℕ × ℝ × ℝ)).map fun w =>
        w.2.2.2 * Real.cos (2 * Real.pi * (w.1 * t / (2460 : ℕ) + w.2.1 * m / (144 : ℕ)) + w.2.2.1)).sum)) t m =
    2 * Real.cos (2 * Real.pi * ((100 : ℕ) * t / (2460 : ℕ) + (3 : ℕ) * m / (144 : ℕ)) + 0.5) := by
  rw [C227_waves 2460 144 1 20 96 720 (by norm_num) (by norm_num) (by norm_num) (by norm_num) (by norm_num) (by norm_num)
    (by norm_num) (by norm_num) _ (by simp)]
  rw [List.filter_cons_of_pos (by simp [PeriodInBand]; norm_num), List.filter_cons_of_neg (by simp [PeriodInBand]; norm_num)]
  simp

/-- The pulse of C193 has an index, so C226 says something about it. -/
example : ∃ p1 p2 : List ℝ, (omi 1 1 [(0, 1), (11, 1), (22, 1)] [[1]] [[0]] fun t _ _ => omiPulse t).2 = .ok (some (p1, p2)) ∧
    p1.length = 3 := by
  obtain ⟨⟨p1, p2⟩, h⟩ := omiPulse_run
  obtain ⟨s, hs, lats, -, hl, -⟩ := C226_regression _ _ _ _ _ _ _ _ h
  exact ⟨p1, p2, h, hl⟩

end Props
end Metcalcpy
