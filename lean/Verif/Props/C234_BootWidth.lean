/-
C234  Width of a bootstrap interval.
C235  Relative width of a bootstrap interval.
-/
import Verif.Model.BootWidth
import Verif.Props.C30_Interval
import Mathlib.Tactic.Linarith
import Mathlib.Tactic.FieldSimp
import Mathlib.Tactic.NormNum

namespace Metcalcpy.Props
open Metcalcpy

/-- The factor by which an operation stretches. -/
def stretch : BootOp → ℚ
  | .mul x => |x|
  | .rmul x => |x|
  | _ => 1

theorem mkBoot_width (l v u : ℚ) : errorWidth (mkBoot (some l) (some v) (some u)) = .ok |u - l| ∧
    (mkBoot (some l) (some v) (some u)).value = some v := by
  unfold mkBoot
  dsimp only
  split
  · next h =>
    refine ⟨?_, rfl⟩
    simp only [errorWidth]
    rw [abs_sub_comm, abs_of_pos (by linarith)]
  · next h =>
    refine ⟨?_, rfl⟩
    simp only [errorWidth]
    rw [abs_of_nonneg (by linarith)]

theorem apply_width (op : BootOp) (l u : ℚ) : |op.fn u - op.fn l| = stretch op * |u - l| := by
  cases op <;> simp only [BootOp.fn, stretch]
  · rw [one_mul]; congr 1; ring
  · rw [one_mul]; congr 1; ring
  · rw [one_mul]; congr 1; ring
  · rw [one_mul, ← abs_neg]; congr 1; ring
  · rw [← sub_mul, abs_mul]; ring
  · rw [← sub_mul, abs_mul]; ring

/-- C234.  The width of the interval of a result made from two bounds and changed by any number of additions, subtractions and
multiplications is the distance of the two bounds, in whatever order they were given, times the absolute values of all factors;
it is never negative. -/
theorem C234_width (l v u : ℚ) (ops : List BootOp) (r : BootResult) (h : ops.foldlM bootApply (mkBoot (some l) (some v) (some u)) = .ok r) :
    errorWidth r = .ok ((ops.map stretch).prod * |u - l|) ∧ 0 ≤ (ops.map stretch).prod * |u - l| := by
  have key : ∀ (ops : List BootOp) (r0 : BootResult) (a b c : ℚ), r0 = ⟨some a, some b, some c⟩ → a ≤ c → ops.foldlM bootApply r0 = .ok r →
      errorWidth r = .ok ((ops.map stretch).prod * (c - a)) := by
    intro ops
    induction ops with
    | nil =>
      rintro r0 a b c rfl hac h
      obtain rfl := Except.ok.inj h
      simp [errorWidth]
    | cons op ops ih =>
      rintro r0 a b c rfl hac h
      rw [List.foldlM_cons] at h
      have e : bootApply ⟨some a, some b, some c⟩ op = .ok (mkBoot (some (op.fn a)) (some (op.fn b)) (some (op.fn c))) := rfl
      rw [e] at h
      have hw := apply_width op a c
      rw [abs_of_nonneg (a := c - a) (by linarith)] at hw
      rw [List.map_cons, List.prod_cons]
      simp only [bind, Except.bind] at h
      unfold mkBoot at h
      dsimp only at h
      split at h
      · next hg =>
        rw [ih _ _ _ _ rfl hg.le h]
        rw [abs_sub_comm, abs_of_pos (by linarith)] at hw
        rw [hw]
        congr 1
        ring
      · next hg =>
        rw [ih _ _ _ _ rfl (not_lt.1 hg) h]
        rw [abs_of_nonneg (by linarith)] at hw
        rw [hw]
        congr 1
        ring
  constructor
  · unfold mkBoot at h
    dsimp only at h
    split at h
    · next hg =>
      rw [key ops _ _ _ _ rfl hg.le h, abs_sub_comm, abs_of_pos (by linarith)]
    · next hg =>
      rw [key ops _ _ _ _ rfl (not_lt.1 hg) h, abs_of_nonneg (by linarith)]
  · apply mul_nonneg _ (abs_nonneg _)
    clear h key
    induction ops with
    | nil => simp
    | cons op ops ih =>
      rw [List.map_cons, List.prod_cons]
      refine mul_nonneg ?_ ih
      cases op <;> simp [stretch]

/-- Bounds given in the wrong order, then doubled with a change of sign and shifted. -/
example : (mkBoot (some 3) (some 2) (some 1)) = ⟨some 1, some 2, some 3⟩ ∧
    [BootOp.rmul (-2), .rsub 5].foldlM bootApply (mkBoot (some 3) (some 2) (some 1)) = .ok ⟨some 7, some 9, some 11⟩ := by
  decide +kernel

/-- C235 (what holds): for a positive value the relative width is the width divided by the value, is not negative, and does not change
when the result is multiplied by a positive number. -/
theorem C235_fraction_partial (l v u x : ℚ) (hv : 0 < v) (hx : 0 < x) :
    errorFraction (mkBoot (some l) (some v) (some u)) = .ok (.num (|u - l| / v)) ∧ 0 ≤ |u - l| / v ∧
    ∀ op, op = .mul x ∨ op = .rmul x → ∀ r, bootApply (mkBoot (some l) (some v) (some u)) op = .ok r →
      errorFraction r = .ok (.num (|u - l| / v)) := by
  have key : ∀ l v u : ℚ, 0 < v → errorFraction (mkBoot (some l) (some v) (some u)) = .ok (.num (|u - l| / v)) := by
    intro l v u hv
    obtain ⟨a, b⟩ := mkBoot_width l v u
    unfold errorFraction
    rw [b, if_neg (by simpa using hv.ne'), a]
    rfl
  refine ⟨key l v u hv, by positivity, ?_⟩
  intro op hop r hr
  have hf : ∀ q, op.fn q = q * x := by rcases hop with rfl | rfl <;> intro q <;> rfl
  have : ∃ l' u', mkBoot (some l) (some v) (some u) = ⟨some l', some v, some u'⟩ ∧ |u' - l'| = |u - l| := by
    unfold mkBoot
    dsimp only
    split
    · exact ⟨u, l, rfl, abs_sub_comm _ _⟩
    · exact ⟨l, u, rfl, rfl⟩
  obtain ⟨l', u', e, ew⟩ := this
  rw [e] at hr
  have e2 : bootApply ⟨some l', some v, some u'⟩ op = .ok (mkBoot (some (op.fn l')) (some (op.fn v)) (some (op.fn u'))) := rfl
  rw [e2] at hr
  obtain rfl := Except.ok.inj hr
  rw [hf, hf, hf, key _ _ _ (by positivity), ← sub_mul, abs_mul, ew, abs_of_pos hx]
  congr 2
  field_simp

/-- C235, extent: a value of zero gives infinity, whatever the bounds; a negative one the negative quotient. -/
theorem C235_other_values (l v u : ℚ) : errorFraction (mkBoot (some l) (some 0) (some u)) = .ok .inf ∧
    (v < 0 → errorFraction (mkBoot (some l) (some v) (some u)) = .ok (.num (-(|u - l| / |v|)))) := by
  constructor
  · unfold errorFraction
    rw [(mkBoot_width l 0 u).2, if_pos rfl]
  · intro hv
    obtain ⟨a, b⟩ := mkBoot_width l v u
    unfold errorFraction
    rw [b, if_neg (by simpa using hv.ne), a]
    show Except.ok (Fraction.num (|u - l| / v)) = _
    rw [abs_of_neg hv, div_neg, neg_neg]

/-- C235, failure: a negative value has a negative relative width. -/
theorem C235_negative_counterexample : errorFraction (mkBoot (some (-3)) (some (-2)) (some (-1))) = .ok (.num (-1)) ∧
    errorFraction (mkBoot (some 1) (some 2) (some 3)) = .ok (.num 1) := by
  decide +kernel

end Metcalcpy.Props
