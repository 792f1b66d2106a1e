/-
C169 The wind stress of the MJO when no value is missing at the points that take part.
-/
import Verif.Props.C168_TauMJO

namespace Metcalcpy.Spec

/-- The series `a` of length `n` averaged with the `m` weights `v`, centred; beyond the ends nothing is added. -/
noncomputable def centred (n : ℕ) (a : ℕ → ℝ) (m : ℕ) (v : ℕ → ℝ) (t : ℕ) : ℝ :=
  ∑ i ∈ Finset.range n, if i ≤ t + (m - 1) / 2 ∧ t + (m - 1) / 2 - i < m then a i * v (t + (m - 1) / 2 - i) else 0

/-- Remove from a series its average with the first weights, then average with the second ones. -/
noncomputable def filtered (n : ℕ) (m₁ : ℕ) (v₁ : ℕ → ℝ) (m₂ : ℕ) (v₂ : ℕ → ℝ) (a : ℕ → ℝ) (t : ℕ) : ℝ :=
  centred n (fun s => a s - centred n a m₁ v₁ s) m₂ v₂ t

/-- The standard deviation of `n` numbers (divisor `n - 1`). -/
noncomputable def sampleDeviation (n : ℕ) (a : ℕ → ℝ) : ℝ :=
  √((∑ t ∈ Finset.range n, (a t - (∑ s ∈ Finset.range n, a s) / n) ^ 2) / (n - 1))

end Metcalcpy.Spec

namespace Metcalcpy.Props
open Metcalcpy Spec

theorem convSame_some {n : ℕ} {a : ℕ → Option ℝ} {b : ℕ → ℝ} (h : ∀ i < n, a i = some (b i)) (m : ℕ) (v : ℕ → ℝ) (t : ℕ) :
    convSame n a m v t = some (centred n b m v t) := by
  unfold convSame centred
  apply osum_some
  intro i hi
  rw [h i hi]
  split <;> rfl

theorem ostd_some {n : ℕ} {f : ℕ → Option ℝ} {g : ℕ → ℝ} (h : ∀ i < n, f i = some (g i)) : ostd n f = some (sampleDeviation n g) := by
  unfold ostd sampleDeviation
  rw [osum_some h, Option.bind_some,
    osum_some (g := fun i : ℕ => (g i - (∑ s ∈ Finset.range n, g s) / n) ^ 2) (fun i hi => by rw [h i hi]; rfl)]
  rfl

/-- C169, the positive part: with `V` the points that are not missing on the eleventh day, all of them complete, the modes known
there, `u p t` the filtered flux, `amp j t` the mean of mode times filtered flux over the points and `dev j` its standard deviation,
every point of `V` has at every time the sum over the four modes of (sum of flux times amplitude over all times) / deviation ×
amplitude, and no finite result at any time if one amplitude does not vary.  A point missing at all times has no result.
The property itself is false: `C169_missing_counterexample`, `C169_left_out_counterexample`. -/
theorem C169_complete_partial (nT nG : ℕ) (flxa : ℕ → ℕ → Option ℝ) (nE : ℕ) (eof : ℕ → ℕ → Option ℝ) (f1 f2 : FiltBank)
    (out : ℕ → ℕ → Option ℝ) (h : calcTauMJO nT nG flxa nE eof f1 f2 = .ok out)
    (V : List ℕ) (hV : V = (List.range nG).filter (fun g => (flxa 10 g).isSome)) (F E : ℕ → ℕ → ℝ)
    (hF : ∀ t < nT, ∀ g ∈ V, flxa t g = some (F t g)) (hE : ∀ j < 4, ∀ g ∈ V, eof j g = some (E j g))
    (u amp : ℕ → ℕ → ℝ) (dev : ℕ → ℝ)
    (hu : u = fun p t => if p < f1.cols then
        filtered nT f1.len (fun k => f1.w k p) f2.len (fun k => f2.w k p) (fun s => F s (V.getD p 0)) t
      else F t (V.getD p 0))
    (hamp : amp = fun j t => (∑ p ∈ Finset.range V.length, E j (V.getD p 0) * u p t) / V.length)
    (hdev : dev = fun j => sampleDeviation nT (amp j)) :
    (∀ g, (∀ t, flxa t g = none) → ∀ t, out t g = none) ∧
    ∀ (p : ℕ) (hp : p < V.length), ∀ t < nT,
      out t V[p] = if ∀ j < 4, dev j ≠ 0 then
          some (∑ j ∈ Finset.range 4, (∑ s ∈ Finset.range nT, u p s * amp j s) / dev j * amp j t)
        else none := by
  refine ⟨fun g hg t => ?_, fun p hp t ht => ?_⟩
  · rw [C169_left_out_counterexample nT nG flxa nE eof f1 f2 out h g (hg 10) t, hg t]
  obtain ⟨h1, h2, h3, h4, rfl⟩ := calcTauMJO_ok h
  have hV' : validPoints nG flxa = V := hV.symm
  rw [hV'] at *
  have hnd : V.Nodup := hV ▸ List.nodup_range.filter _
  have hget : ∀ p, p < V.length → V.getD p 0 ∈ V := fun p hp => by
    rw [List.getD_eq_getElem _ _ hp]; exact List.getElem_mem hp
  set fl := bandPass nT f1 f2 (fun p t => flxa t (V.getD p 0)) with hfl
  set un : ℕ → ℕ → Option ℝ := fun j p => eof j (V.getD p 0) with hun
  have hfl' : ∀ p < V.length, ∀ t < nT, fl p t = some (u p t) := by
    intro p hp t ht
    rw [hfl, hu]
    unfold bandPass
    by_cases hc : p < f1.cols
    · simp only [if_pos hc]
      have e : ∀ s < nT, flxa s (V.getD p 0) = some (F s (V.getD p 0)) := fun s hs => hF s hs _ (hget p hp)
      refine convSame_some (b := fun s => F s (V.getD p 0) - centred nT (fun s => F s (V.getD p 0)) f1.len (fun k => f1.w k p) s)
        (fun s hs => ?_) _ _ _
      rw [convSame_some e, e s hs]
      rfl
    · simp only [if_neg hc]
      exact hF t ht _ (hget p hp)
  have hVpos : ((V.length : ℕ) : ℝ) ≠ 0 := by
    have : 0 < V.length := by omega
    positivity
  have ha : ∀ j < 4, ∀ t < nT, modeAmp V.length un fl j t = some (amp j t) := by
    intro j hj t ht
    unfold modeAmp
    rw [osum_some (g := fun p : ℕ => E j (V.getD p 0) * u p t) (fun p hp => by
      rw [hfl' p hp t ht, hun]
      simp only
      rw [hE j hj _ (hget p hp)]
      rfl)]
    simp only [odiv, Option.bind_some, if_neg hVpos, hamp]
  have hs : ∀ j < 4, ostd nT (modeAmp V.length un fl j) = some (dev j) := by
    intro j hj
    rw [hdev]
    exact ostd_some (ha j hj)
  have hpat : ∀ j < 4, modePattern nT V.length un fl j p =
      if dev j = 0 then none else some ((∑ s ∈ Finset.range nT, u p s * amp j s) / dev j) := by
    intro j hj
    unfold modePattern
    rw [hs j hj, osum_some (g := fun t : ℕ => u p t * amp j t) (fun s hs => by rw [hfl' p hp s hs, ha j hj s hs]; rfl)]
    rfl
  simp only [List.getElem_mem, if_true]
  rw [hnd.idxOf_getElem p hp]
  unfold mjoSum
  have r4 : List.range 4 = [0, 1, 2, 3] := rfl
  rw [r4]
  simp only [List.foldl_cons, List.foldl_nil]
  rw [hpat 0 (by omega), hpat 1 (by omega), hpat 2 (by omega), hpat 3 (by omega), ha 0 (by omega) t ht, ha 1 (by omega) t ht,
    ha 2 (by omega) t ht, ha 3 (by omega) t ht]
  have hall : (∀ j < 4, dev j ≠ 0) ↔ dev 0 ≠ 0 ∧ dev 1 ≠ 0 ∧ dev 2 ≠ 0 ∧ dev 3 ≠ 0 := by
    constructor
    · intro h; exact ⟨h 0 (by omega), h 1 (by omega), h 2 (by omega), h 3 (by omega)⟩
    · rintro ⟨a, b, c, d⟩ j hj
      have : j = 0 ∨ j = 1 ∨ j = 2 ∨ j = 3 := by omega
      rcases this with rfl | rfl | rfl | rfl <;> assumption
  by_cases d0 : dev 0 = 0
  · rw [if_neg (fun h => (hall.mp h).1 d0), if_pos d0]; rfl
  by_cases d1 : dev 1 = 0
  · rw [if_neg (fun h => (hall.mp h).2.1 d1), if_pos d1, if_neg d0]; rfl
  by_cases d2 : dev 2 = 0
  · rw [if_neg (fun h => (hall.mp h).2.2.1 d2), if_pos d2, if_neg d0, if_neg d1]; rfl
  by_cases d3 : dev 3 = 0
  · rw [if_neg (fun h => (hall.mp h).2.2.2 d3), if_pos d3, if_neg d0, if_neg d1, if_neg d2]; rfl
  rw [if_pos (hall.mpr ⟨d0, d1, d2, d3⟩), if_neg d0, if_neg d1, if_neg d2, if_neg d3]
  simp only [omul, oadd, Option.bind_some, Option.map_some, Finset.sum_range_succ, Finset.sum_range_zero]

/-- The record of `C168_example`: complete at both points, and the call succeeds. -/
example := C169_complete_partial 12 2 _ 4 _ _ _ C168_example.choose C168_example.choose_spec.choose_spec.1 [0, 1] (by decide)
  (fun t g => if g = 0 then (-1) ^ t else 0) (fun _ p => if p = 0 then 1 else 0) (fun _ _ _ _ => rfl) (fun _ _ _ _ => rfl)
  _ _ _ rfl rfl rfl

end Metcalcpy.Props
