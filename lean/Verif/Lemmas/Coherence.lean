/-
Lemmas about the averages of cross spectra: predicates closed under sums and positive multiples are kept.
-/
import Verif.Props.C152_Smooth121
import Mathlib.Data.List.GetD

namespace Metcalcpy

/-- Sum of spectra. -/
def Spectrum.plus (a b : Spectrum) : Spectrum := ⟨a.px + b.px, a.py + b.py, a.co + b.co, a.quad + b.quad⟩

/-- Multiple of a spectrum. -/
def Spectrum.times (t : ℝ) (a : Spectrum) : Spectrum := ⟨t * a.px, t * a.py, t * a.co, t * a.quad⟩

/-- The zero spectrum. -/
def Spectrum.none0 : Spectrum := ⟨0, 0, 0, 0⟩

/-- The array of one wavenumber with first entries `e` and the spectra `g` at the frequencies after it. -/
def stcOf (e : Option ℝ) (g : ℕ → Spectrum) (m : ℕ) : Stc where
  px := e :: (List.range m).map fun i => some (g i).px
  py := e :: (List.range m).map fun i => some (g i).py
  co := e :: (List.range m).map fun i => some (g i).co
  quad := e :: (List.range m).map fun i => some (g i).quad

open Props in
theorem smoothEntry_eq (rows : List Spectrum) (h : 3 ≤ rows.length) (f : Spectrum → ℝ) (hf : f Spectrum.none0 = 0) :
    smoothEntry (rows.map f) = .ok (none :: (List.range (rows.length - 1)).map fun i =>
      some (smoothed (fun j => f (rows.tail.getD j Spectrum.none0)) (rows.length - 1) i)) := by
  unfold smoothEntry
  rw [← List.map_tail, smooth121_complete _ (by simp; omega)]
  obtain ⟨r, rs, rfl⟩ : ∃ r rs, rows = r :: rs := by
    cases rows with
    | nil => simp at h
    | cons r rs => exact ⟨r, rs, rfl⟩
  simp only [bind, Except.bind, List.tail_cons, List.length_map, List.length_cons, Nat.add_sub_cancel, List.map_cons, List.take_succ_cons,
    List.take_zero, List.map_nil, List.cons_append, List.nil_append, List.map_map]
  congr 2
  apply List.map_congr_left
  intro i _
  simp only [Function.comp]
  congr 2
  funext j
  rw [← hf, List.getD_map]

open Props in
/-- The smoothed spectrum at frequency `i + 1` of a segment. -/
noncomputable def segPoint (rows : List Spectrum) (i : ℕ) : Spectrum where
  px := smoothed (fun j => (rows.tail.getD j Spectrum.none0).px) (rows.length - 1) i
  py := smoothed (fun j => (rows.tail.getD j Spectrum.none0).py) (rows.length - 1) i
  co := smoothed (fun j => (rows.tail.getD j Spectrum.none0).co) (rows.length - 1) i
  quad := smoothed (fun j => (rows.tail.getD j Spectrum.none0).quad) (rows.length - 1) i

theorem segmentStc_eq (seg : List (List (ℂ × ℂ))) (h : 3 ≤ (segmentRows (seg.map crossAt)).length) :
    segmentStc seg = .ok (stcOf none (segPoint (segmentRows (seg.map crossAt))) ((segmentRows (seg.map crossAt)).length - 1)) := by
  unfold segmentStc
  simp only [smoothEntry_eq _ h Spectrum.px rfl, smoothEntry_eq _ h Spectrum.py rfl, smoothEntry_eq _ h Spectrum.co rfl,
    smoothEntry_eq _ h Spectrum.quad rfl, bind, Except.bind]
  rfl

theorem mem_segmentRows {α : Type} {l : List α} {x : α} (h : x ∈ segmentRows l) : x ∈ l := by
  unfold segmentRows at h
  split at h
  · exact h
  · rcases List.mem_append.mp h with h | h
    · exact h
    · exact List.mem_of_mem_take h

/-- A predicate on spectra closed under sums and positive multiples. -/
structure ConeLike (P : Spectrum → Prop) : Prop where
  plus : ∀ a b, P a → P b → P (a.plus b)
  times : ∀ (t : ℝ) a, 0 < t → P a → P (a.times t)

theorem segPoint_cone {P : Spectrum → Prop} (hP : ConeLike P) (rows : List Spectrum) (h : 3 ≤ rows.length) (hr : ∀ r ∈ rows, P r)
    (i : ℕ) (hi : i < rows.length - 1) : P (segPoint rows i) := by
  have hg : ∀ j, j < rows.length - 1 → P (rows.tail.getD j Spectrum.none0) := by
    intro j hj
    have : j < rows.tail.length := by simpa using hj
    rw [List.getD_eq_getElem _ _ this]
    exact hr _ (List.mem_of_mem_tail (List.getElem_mem this))
  unfold segPoint Props.smoothed
  generalize (fun j => rows.tail.getD j Spectrum.none0) = r at hg ⊢
  by_cases h0 : i = 0
  · simp only [h0, if_true]
    have := hP.plus _ _ (hP.times (3 / 4) _ (by norm_num) (hg 0 (by omega))) (hP.times (1 / 4) _ (by norm_num) (hg 1 (by omega)))
    convert this using 1
    simp only [Spectrum.plus, Spectrum.times, Spectrum.mk.injEq]
    refine ⟨?_, ?_, ?_, ?_⟩ <;> ring
  · by_cases hl : i = rows.length - 1 - 1
    · have := hP.plus _ _ (hP.times (3 / 4) _ (by norm_num) (hg i (by omega))) (hP.times (1 / 4) _ (by norm_num) (hg (i - 1) (by omega)))
      convert this using 1
      simp only [Spectrum.plus, Spectrum.times, Spectrum.mk.injEq, h0, if_false]
      rw [← hl]
      simp only [if_true]
      refine ⟨?_, ?_, ?_, ?_⟩ <;> ring
    · have := hP.plus _ _ (hP.plus _ _ (hP.times (1 / 4) _ (by norm_num) (hg (i + 1) (by omega)))
        (hP.times (1 / 2) _ (by norm_num) (hg i (by omega)))) (hP.times (1 / 4) _ (by norm_num) (hg (i - 1) (by omega)))
      convert this using 1
      simp only [Spectrum.plus, Spectrum.times, Spectrum.mk.injEq, h0, hl, if_false]
      refine ⟨?_, ?_, ?_, ?_⟩ <;> ring

theorem addEntries_eq (e : Option ℝ) (a b : ℕ → ℝ) (m : ℕ) :
    addEntries (e :: (List.range m).map fun i => some (a i)) (none :: (List.range m).map fun i => some (b i)) =
      .ok (none :: (List.range m).map fun i => some (a i + b i)) := by
  unfold addEntries
  rw [if_pos (by simp)]
  cases e <;> simp [List.zipWith_map, List.zipWith_self]

theorem addStc_eq (e : Option ℝ) (g g' : ℕ → Spectrum) (m : ℕ) :
    addStc (stcOf e g m) (stcOf none g' m) = .ok (stcOf none (fun i => (g i).plus (g' i)) m) := by
  unfold addStc stcOf
  simp only [addEntries_eq, bind, Except.bind, Spectrum.plus]

theorem plus_none0 (b : Spectrum) : Spectrum.none0.plus b = b := by
  simp [Spectrum.plus, Spectrum.none0]

theorem foldlM_addStc {P : Spectrum → Prop} (hP : ConeLike P) (m : ℕ) (hm : 2 ≤ m) : ∀ (segs : List (List (List (ℂ × ℂ)))),
    (∀ seg ∈ segs, (segmentRows seg).length = m + 1) → (∀ seg ∈ segs, ∀ row ∈ seg, P (crossAt row)) →
    ∀ (e : Option ℝ) (g : ℕ → Spectrum), ((e = none ∧ ∀ i, i < m → P (g i)) ∨ (segs ≠ [] ∧ g = fun _ => Spectrum.none0)) →
    ∃ g' : ℕ → Spectrum, segs.foldlM (fun s seg => do addStc s (← segmentStc seg)) (stcOf e g m) = .ok (stcOf none g' m) ∧
      ∀ i, i < m → P (g' i) := by
  intro segs
  induction segs with
  | nil =>
    intro _ _ e g h
    rcases h with ⟨rfl, h⟩ | ⟨h, -⟩
    · exact ⟨g, rfl, h⟩
    · exact absurd rfl h
  | cons seg segs ih =>
    intro hl hr e g h
    have hlen : (segmentRows (seg.map crossAt)).length = m + 1 := by
      rw [← hl seg (by simp)]
      unfold segmentRows
      split <;> simp_all
    have hpt : ∀ i, i < m → P (segPoint (segmentRows (seg.map crossAt)) i) := by
      intro i hi
      refine segPoint_cone hP _ (by omega) ?_ i (by omega)
      intro r hr'
      obtain ⟨row, hrow, rfl⟩ := List.mem_map.mp (mem_segmentRows hr')
      exact hr seg (by simp) row hrow
    rw [List.foldlM_cons]
    have h1 : (do addStc (stcOf e g m) (← segmentStc seg)) =
        Except.ok (stcOf none (fun i => (g i).plus (segPoint (segmentRows (seg.map crossAt)) i)) m) := by
      rw [segmentStc_eq seg (by omega), hlen]
      exact addStc_eq e g _ m
    rw [h1]
    refine ih (fun s hs => hl s (by simp [hs])) (fun s hs => hr s (by simp [hs])) none _ (Or.inl ⟨rfl, ?_⟩)
    intro i hi
    rcases h with ⟨-, h⟩ | ⟨-, rfl⟩
    · exact hP.plus _ _ (h i hi) (hpt i hi)
    · rw [plus_none0]; exact hpt i hi

/-- Every predicate on spectra closed under sums and positive multiples that holds for the segments holds for their average. -/
theorem mjoCross_cone {P : Spectrum → Prop} (hP : ConeLike P) (nfreq : ℕ) (hn : 3 ≤ nfreq) (segs : List (List (List (ℂ × ℂ))))
    (hs : segs ≠ []) (hl : ∀ seg ∈ segs, (segmentRows seg).length = nfreq) (hr : ∀ seg ∈ segs, ∀ row ∈ seg, P (crossAt row)) :
    ∃ g : ℕ → Spectrum, mjoCross nfreq segs = .ok ((none, none, none, none) ::
      (List.range (nfreq - 1)).map fun i => coh2pha (some (g i).px) (some (g i).py) (some (g i).co) (some (g i).quad)) ∧
      ∀ i, i < nfreq - 1 → P (g i) := by
  obtain ⟨m, rfl⟩ : ∃ m, nfreq = m + 1 := ⟨nfreq - 1, by omega⟩
  obtain ⟨g, h1, h2⟩ := foldlM_addStc hP m (by omega) segs hl hr (some 0) (fun _ => Spectrum.none0) (Or.inr ⟨hs, rfl⟩)
  have hk : 0 < segs.length := List.length_pos_iff.mpr hs
  refine ⟨fun i => (g i).times (1 / (segs.length : ℝ)), ?_, fun i hi => hP.times _ _ (by positivity) (h2 i (by omega))⟩
  unfold mjoCross
  have hz : (⟨List.replicate (m + 1) (some (0 : ℝ)), List.replicate (m + 1) (some 0), List.replicate (m + 1) (some 0),
      List.replicate (m + 1) (some 0)⟩ : Stc) = stcOf (some 0) (fun _ => Spectrum.none0) m := by
    simp [stcOf, Spectrum.none0, List.replicate_succ]
  dsimp only
  rw [hz, h1]
  simp only [bind, Except.bind]
  congr 1
  rw [List.range_succ_eq_map]
  simp only [List.map_cons, List.map_map, Nat.add_sub_cancel]
  have hk' : ¬ segs.length = 0 := by omega
  congr 1
  · simp [divEntry, stcOf, coh2pha]
  · apply List.map_congr_left
    intro i hi
    have hi' := List.mem_range.mp hi
    simp only [Function.comp, divEntry, stcOf, hk', if_false, List.map_cons, List.map_map, List.getD_cons_succ]
    simp [List.getD, List.getElem?_range hi', Spectrum.times, div_eq_inv_mul]

end Metcalcpy
