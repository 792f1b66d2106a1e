import Verif.Model.Ctc
import Verif.Spec.Ctc
import Verif.Lemmas.Table
import Verif.Lemmas.Round

namespace Metcalcpy
open Spec

theorem pyDiv_zero (a : ℚ) : pyDiv a 0 = none := by simp [pyDiv]
theorem pyDiv_ne {a b : ℚ} (h : b ≠ 0) : pyDiv a b = some (a / b) := by simp [pyDiv, h]

theorem pyDiv_round (a b : ℚ) :
    ((pyDiv a b).bind fun q => some (roundHalfUp q PRECISION)) = Ratio.rounded ⟨a, b⟩ := by
  unfold Spec.Ratio.rounded pyDiv
  by_cases h : b = 0 <;> simp [h, PRECISION]

variable {t : Table} {h f m c n : List ℚ}

section
variable (D : CtcData t h f m c n)
include D
theorem sum_fy_oy : sumColumn t "fy_oy" = some h.sum := sumColumn_complete D.rows_ne D.fy_oy _
theorem sum_fy_on : sumColumn t "fy_on" = some f.sum := sumColumn_complete D.rows_ne D.fy_on _
theorem sum_fn_oy : sumColumn t "fn_oy" = some m.sum := sumColumn_complete D.rows_ne D.fn_oy _
theorem sum_fn_on : sumColumn t "fn_on" = some c.sum := sumColumn_complete D.rows_ne D.fn_on _
theorem sum_total : sumColumn t "total" = some n.sum := sumColumn_complete D.rows_ne D.total _

theorem acc_eq : ctcAcc t = (accRatio h.sum c.sum n.sum).rounded := by
  simp [ctcAcc, sum_fy_oy D, sum_fn_on D, sum_total D, pyDiv_round, accRatio]
theorem fmean_eq : ctcFmean t = (fmeanRatio h.sum f.sum n.sum).rounded := by
  simp only [ctcFmean, sum_fy_oy D, sum_fy_on D, sum_total D, Option.bind_eq_bind, Option.bind_some,
    pyDiv_round, fmeanRatio]
  split
  · next h0 => simp [Spec.Ratio.rounded, h0]
  · rfl
theorem fbias_eq : ctcFbias t = (fbiasRatio h.sum f.sum m.sum).rounded := by
  simp only [ctcFbias, sum_fy_oy D, sum_fy_on D, sum_fn_oy D, Option.bind_eq_bind, Option.bind_some,
    pyDiv_round, fbiasRatio]
  split
  · next h0 => simp [Spec.Ratio.rounded, h0]
  · rfl
theorem pody_eq : ctcPody t = (podyRatio h.sum m.sum).rounded := by
  simp [ctcPody, sum_fy_oy D, sum_fn_oy D, pyDiv_round, podyRatio]
theorem podYes_eq : podYes t = (podyRatio h.sum m.sum).rounded := by
  simp [podYes, sum_fy_oy D, sum_fn_oy D, pyDiv_round, podyRatio]
theorem podNo_eq : podNo t = (podnRatio f.sum c.sum).rounded := by
  simp [podNo, sum_fy_on D, sum_fn_on D, pyDiv_round, podnRatio, add_comm]
theorem pofd_eq : ctcPofd t = (pofdRatio f.sum c.sum).rounded := by
  simp [ctcPofd, sum_fy_on D, sum_fn_on D, pyDiv_round, pofdRatio]
theorem podn_eq : ctcPodn t = (podnRatio f.sum c.sum).rounded := by
  simp [ctcPodn, sum_fy_on D, sum_fn_on D, pyDiv_round, podnRatio]
theorem far_eq : ctcFar t = (farRatio h.sum f.sum).rounded := by
  simp [ctcFar, sum_fy_oy D, sum_fy_on D, pyDiv_round, farRatio]
theorem csi_eq : ctcCsi t = (csiRatio h.sum f.sum m.sum).rounded := by
  simp [ctcCsi, sum_fy_oy D, sum_fy_on D, sum_fn_oy D, pyDiv_round, csiRatio]
theorem orss_eq : ctcOrss t = (orssRatio h.sum f.sum m.sum c.sum).rounded := by
  simp [ctcOrss, sum_fy_oy D, sum_fy_on D, sum_fn_oy D, sum_fn_on D, pyDiv_round, orssRatio]
theorem gss_eq : ctcGss t = if n.sum = 0 then none else (gssRatio h.sum f.sum m.sum n.sum).rounded := by
  simp only [ctcGss, sum_fy_oy D, sum_fy_on D, sum_fn_oy D, sum_total D, Option.bind_eq_bind,
    Option.bind_some]
  split
  · rfl
  · next h0 =>
    simp only [pyDiv_ne h0, Option.bind_some, pyDiv_round, gssRatio, chanceHits]
    rw [div_mul_eq_mul_div]
theorem hss_eq : ctcHss t = if n.sum = 0 then none else
    (hssRatio h.sum f.sum m.sum c.sum n.sum).rounded := by
  simp only [ctcHss, sum_fy_oy D, sum_fy_on D, sum_fn_oy D, sum_fn_on D, sum_total D,
    Option.bind_eq_bind, Option.bind_some]
  split
  · rfl
  · next h0 =>
    simp only [pyDiv_ne h0, Option.bind_some, pyDiv_round, hssRatio, chanceCorrect]
    rw [div_mul_eq_mul_div, div_mul_eq_mul_div, ← add_div]
theorem baser_eq : ctcBaser t = .ok (baserRatio h.sum m.sum n.sum).rounded := by
  have e : ∀ l : List ℚ, (List.map some l).filterMap id = l := fun l => by simp
  have e2 : ∀ l : List ℚ, (List.map some l).any Option.isNone = false := fun l => by simp
  simp only [ctcBaser, rawSum, (rawSum_complete D.fy_oy).2, (rawSum_complete D.fn_oy).2,
    (rawSum_complete D.total).2, e, e2]
  simp [bind, Except.bind, pure, Except.pure, baserRatio, ← pyDiv_round]
theorem hk_eq : ctcHk t = (do
    let p ← (podyRatio h.sum m.sum).rounded
    let q ← (pofdRatio f.sum c.sum).rounded
    some (roundHalfUp (p - q) 7)) := by
  simp [ctcHk, pody_eq D, pofd_eq D, PRECISION]
end

theorem rounded_eq_some {r : Ratio} {v : ℚ} :
    r.rounded = some v ↔ r.den ≠ 0 ∧ v = roundHalfUp (r.num / r.den) 7 := by
  unfold Spec.Ratio.rounded
  by_cases h : r.den = 0
  · simp [h]
  · simp [h, eq_comm]

theorem rounded_unit {r : Ratio} {v : ℚ} (h : r.rounded = some v) (h0 : 0 ≤ r.num)
    (h1 : r.num ≤ r.den) : 0 ≤ v ∧ v ≤ 1 := by
  obtain ⟨hd, rfl⟩ := rounded_eq_some.mp h
  have hp : 0 < r.den := lt_of_le_of_ne (h0.trans h1) (Ne.symm hd)
  exact ⟨round7_nonneg (div_nonneg h0 hp.le), round7_le_one ((div_le_one hp).mpr h1)⟩

end Metcalcpy
