/-
C183  The statistics of neighborhood contingency tables are the scores of the pooled counts.
C184  Images of a comparison can be saved in any order and number (false).
-/
import Verif.Model.NbrCtc
import Verif.Model.CompareImages
import Verif.Props.C09_C12_Ctc

namespace Metcalcpy.Props
open Metcalcpy Spec

/-! ### C183 -/

/-- C183: the statistics of a table of neighborhood contingency counts `h, f, m, c` (hits, false alarms, misses, correct negatives) with
totals `n` are the textbook scores of the pooled counts. -/
theorem C183_nbr_scores {t : Table} {h f m c n : List ℚ} (D : CtcData t h f m c n) :
    nbrCtc "nbr_baser" t = .ok (baserRatio h.sum m.sum n.sum).rounded ∧
    nbrCtc "nbr_acc" t = .ok (accRatio h.sum c.sum n.sum).rounded ∧
    nbrCtc "nbr_fbias" t = .ok (fbiasRatio h.sum f.sum m.sum).rounded ∧
    nbrCtc "nbr_fmean" t = .ok (fmeanRatio h.sum f.sum n.sum).rounded ∧
    nbrCtc "nbr_pody" t = .ok (podyRatio h.sum m.sum).rounded ∧
    nbrCtc "nbr_pofd" t = .ok (pofdRatio f.sum c.sum).rounded ∧
    nbrCtc "nbr_podn" t = .ok (podnRatio f.sum c.sum).rounded ∧
    nbrCtc "nbr_far" t = .ok (farRatio h.sum f.sum).rounded ∧
    nbrCtc "nbr_csi" t = .ok (csiRatio h.sum f.sum m.sum).rounded ∧
    nbrCtc "nbr_ctc_total" t = .ok (some (roundHalfUp n.sum 7)) := by
  obtain ⟨h1, h2, h3, h4, h5, h6, h7, h8, h9, -, -, -⟩ := C10_ratio_scores D
  refine ⟨h1, congrArg Except.ok h2, congrArg Except.ok h3, congrArg Except.ok h4, congrArg Except.ok h5, congrArg Except.ok h6,
    congrArg Except.ok h7, congrArg Except.ok h8, congrArg Except.ok h9, ?_⟩
  have e : nbrCtc "nbr_ctc_total" t = (ctcCount t "total").map some := rfl
  rw [e, ctcCount, sum_total D]
  rfl

/-- C183: the skill scores (missing for a zero total). -/
theorem C183_nbr_skill {t : Table} {h f m c n : List ℚ} (D : CtcData t h f m c n) :
    (n.sum = 0 → nbrCtc "nbr_gss" t = .ok none ∧ nbrCtc "nbr_hss" t = .ok none) ∧
    (n.sum ≠ 0 → nbrCtc "nbr_gss" t = .ok (gssRatio h.sum f.sum m.sum n.sum).rounded ∧
      nbrCtc "nbr_hss" t = .ok (hssRatio h.sum f.sum m.sum c.sum n.sum).rounded) :=
  ⟨fun h0 => ⟨congrArg Except.ok ((C10_skill_scores D).1 h0).1, congrArg Except.ok ((C10_skill_scores D).1 h0).2⟩,
    fun h0 => ⟨congrArg Except.ok ((C10_skill_scores D).2 h0).1, congrArg Except.ok ((C10_skill_scores D).2 h0).2⟩⟩

/-- C183: the Hanssen-Kuipers discriminant and the odds ratio, from the rounded rates `p` and `q`. -/
theorem C183_nbr_composed {t : Table} {h f m c n : List ℚ} (D : CtcData t h f m c n) :
    ((h.sum + m.sum = 0 ∨ f.sum + c.sum = 0) → nbrCtc "nbr_hk" t = .ok none ∧ nbrCtc "nbr_odds" t = .ok none) ∧
    (∀ p q, (podyRatio h.sum m.sum).rounded = some p → (pofdRatio f.sum c.sum).rounded = some q →
      nbrCtc "nbr_hk" t = .ok (some (roundHalfUp (p - q) 7)) ∧
      nbrCtc "nbr_odds" t = .ok (Ratio.rounded ⟨p * (1 - q), q * (1 - p)⟩)) :=
  ⟨fun h0 => ⟨congrArg Except.ok ((C10_composed_scores D).1 h0).1, congrArg Except.ok ((C10_composed_scores D).1 h0).2.1⟩,
    fun p q hp hq => ⟨congrArg Except.ok ((C10_composed_scores D).2 p q hp hq).1,
      congrArg Except.ok ((C10_composed_scores D).2 p q hp hq).2.1⟩⟩

/-- Two rows of neighborhood counts. -/
def nbrCounts2 : Table where
  cols := ["total", "fy_oy", "fy_on", "fn_oy", "fn_on"]
  rows := [[some 10, some 4, some 1, some 2, some 3], [some 6, some 2, some 2, some 1, some 1]]

example : CtcData nbrCounts2 [4, 2] [1, 2] [2, 1] [3, 1] [10, 6] where
  rows_ne := by decide
  fy_oy := ⟨1, by decide, by decide, by decide +kernel⟩
  fy_on := ⟨2, by decide, by decide, by decide +kernel⟩
  fn_oy := ⟨3, by decide, by decide, by decide +kernel⟩
  fn_on := ⟨4, by decide, by decide, by decide +kernel⟩
  total := ⟨0, by decide, by decide, by decide +kernel⟩

/-! ### C184 -/

variable {I : Type}

/-- The image a call is to save: of the differences, of the threshold, of the boxes on the first or the second image. -/
def wantedImage (T : ImageTools I) (a b g : I) : ImageCall → I
  | .difference => g
  | .thresh => T.threshold g
  | .inImage1 => T.boxes (T.threshold g) a
  | .inImage2 => T.boxes (T.threshold g) b

/-- `y` can follow `x` in a sequence of calls: the threshold image only follows images of differences, and the second image does not
follow itself. -/
def CanFollow (x y : ImageCall) : Prop := (y = .thresh → x = .difference) ∧ (y = .inImage2 → x ≠ .inImage2)

/-- What is known of an object after some calls: images held are the wanted ones. -/
structure Holds (T : ImageTools I) (a b g : I) (s : Comparison I) : Prop where
  i1 : s.image1 = a
  i2 : s.image2 = b
  gr : s.grad = g
  th : s.thresh = none ∨ s.thresh = some (T.threshold g)
  d1 : s.diff1 = none ∨ s.diff1 = some (T.boxes (T.threshold g) a)
  d2 : s.diff2 = none ∨ s.diff2 = some (T.boxes (T.threshold g) b)
  has : s.diff1 ≠ none ∨ s.diff2 ≠ none → s.thresh ≠ none

/-- A call fails when the threshold image, or the second image, is asked for while held, and else gives the wanted image. -/
theorem call_spec (T : ImageTools I) (a b g : I) (s : Comparison I) (H : Holds T a b g s) (c : ImageCall) :
    ((c = .thresh ∧ s.thresh ≠ none) ∨ (c = .inImage2 ∧ s.diff2 ≠ none) → s.call T c = .error .valueError) ∧
    (¬((c = .thresh ∧ s.thresh ≠ none) ∨ (c = .inImage2 ∧ s.diff2 ≠ none)) →
      ∃ s', s.call T c = .ok (s', wantedImage T a b g c) ∧ Holds T a b g s' ∧
        (s'.thresh ≠ none ↔ s.thresh ≠ none ∨ c ≠ .difference) ∧ (s'.diff2 ≠ none ↔ s.diff2 ≠ none ∨ c = .inImage2)) := by
  obtain ⟨h1, h2, h3, h4, h5, h6, h7⟩ := H
  obtain ⟨i1, i2, ms, gr, th, d1, d2⟩ := s
  simp only at h1 h2 h3 h4 h5 h6 h7
  subst h1 h2 h3
  cases c <;> rcases h4 with rfl | rfl <;> rcases h5 with rfl | rfl <;> rcases h6 with rfl | rfl <;>
    simp at h7 <;>
    simp [Comparison.call, pyNotImage, imageOf, Comparison.initThresh, Comparison.initDiff1, Comparison.initDiff2, wantedImage,
      bind, Except.bind, pure, Except.pure] <;>
    exact ⟨by simp, by simp, by simp, by simp, by simp, by simp, by simp⟩

theorem calls_spec (T : ImageTools I) (a b g : I) (cs : List ImageCall) (s : Comparison I) (H : Holds T a b g s) :
    (cs.Pairwise CanFollow ∧ (s.thresh ≠ none → .thresh ∉ cs) ∧ (s.diff2 ≠ none → .inImage2 ∉ cs) →
      s.calls T cs = .ok (cs.map (wantedImage T a b g))) ∧
    (¬(cs.Pairwise CanFollow ∧ (s.thresh ≠ none → .thresh ∉ cs) ∧ (s.diff2 ≠ none → .inImage2 ∉ cs)) →
      s.calls T cs = .error .valueError) := by
  induction cs generalizing s with
  | nil => exact ⟨fun _ => rfl, fun h => absurd (by simp) h⟩
  | cons c cs ih =>
    obtain ⟨hbad, hgood⟩ := call_spec T a b g s H c
    by_cases hb : (c = .thresh ∧ s.thresh ≠ none) ∨ (c = .inImage2 ∧ s.diff2 ≠ none)
    · have he : s.calls T (c :: cs) = .error .valueError := by
        simp only [Comparison.calls, hbad hb, bind, Except.bind]
      refine ⟨?_, fun _ => he⟩
      rintro ⟨-, ht, hd⟩
      rcases hb with ⟨rfl, h⟩ | ⟨rfl, h⟩
      · exact absurd (List.mem_cons_self) (ht h)
      · exact absurd (List.mem_cons_self) (hd h)
    · obtain ⟨s', hs, H', ht, hd⟩ := hgood hb
      obtain ⟨ih1, ih2⟩ := ih s' H'
      have hstep : s.calls T (c :: cs) = (s'.calls T cs).map (wantedImage T a b g c :: ·) := by
        simp only [Comparison.calls, hs, bind, Except.bind]
        cases s'.calls T cs <;> rfl
      have hiff : ((c :: cs).Pairwise CanFollow ∧ (s.thresh ≠ none → .thresh ∉ c :: cs) ∧ (s.diff2 ≠ none → .inImage2 ∉ c :: cs)) ↔
          (cs.Pairwise CanFollow ∧ (s'.thresh ≠ none → .thresh ∉ cs) ∧ (s'.diff2 ≠ none → .inImage2 ∉ cs)) := by
        rw [List.pairwise_cons, ht, hd]
        simp only [List.mem_cons, not_or]
        push Not at hb
        constructor
        · rintro ⟨⟨hc, hp⟩, h1, h2⟩
          refine ⟨hp, ?_, ?_⟩
          · rintro (h | h)
            · exact (h1 h).2
            · exact fun hm => h ((hc _ hm).1 rfl)
          · rintro (h | h)
            · exact (h2 h).2
            · exact fun hm => (hc _ hm).2 rfl h
        · rintro ⟨hp, h1, h2⟩
          refine ⟨⟨?_, hp⟩, ?_, ?_⟩
          · intro y hy
            refine ⟨?_, ?_⟩
            · rintro rfl
              by_contra hne
              exact h1 (Or.inr hne) hy
            · rintro rfl rfl
              exact h2 (Or.inr rfl) hy
          · intro h
            exact ⟨fun e => h (hb.1 e.symm), h1 (Or.inl h)⟩
          · intro h
            exact ⟨fun e => h (hb.2 e.symm), h2 (Or.inl h)⟩
      rw [hiff, hstep]
      exact ⟨fun h => by rw [ih1 h]; rfl, fun h => by rw [ih2 h]; rfl⟩

/-- C184 (what holds): for two readable images of suitable size, the calls of save and show methods succeed and give the wanted images
whenever the threshold image is asked for at most once, before the images with boxes, and the second image at most once; every other
sequence of calls raises a ValueError. -/
theorem C184_calls_partial (T : ImageTools I) (p q : String) (a b g : I) (m : ℚ) (ha : T.read p = some a) (hb : T.read q = some b)
    (hs : T.similarity a b = .ok (m, g)) (cs : List ImageCall) :
    ∃ s, Comparison.init T p q = .ok s ∧ s.mssim = m ∧
      (cs.Pairwise CanFollow → s.calls T cs = .ok (cs.map (wantedImage T a b g))) ∧
      (¬cs.Pairwise CanFollow → s.calls T cs = .error .valueError) := by
  refine ⟨⟨a, b, m, g, none, none, none⟩, ?_, rfl, ?_, ?_⟩
  · unfold Comparison.init
    rw [ha, hb]
    simp only [hs, bind, Except.bind]
    rfl
  · intro h
    exact (calls_spec T a b g cs _ ⟨rfl, rfl, rfl, Or.inl rfl, Or.inl rfl, Or.inl rfl, by simp⟩).1 ⟨h, by simp, by simp⟩
  · intro h
    exact (calls_spec T a b g cs _ ⟨rfl, rfl, rfl, Or.inl rfl, Or.inl rfl, Or.inl rfl, by simp⟩).2 (fun h' => h h'.1)

/-- C184: an image that cannot be read is a KeyError. -/
theorem C184_unreadable (T : ImageTools I) (p q : String) (h : T.read p = none ∨ T.read q = none) :
    Comparison.init T p q = .error .keyError := by
  unfold Comparison.init
  cases hp : T.read p with
  | none => rfl
  | some a =>
    rw [hp] at h
    simp only [reduceCtorEq, false_or] at h
    rw [h]

/-- C184: the script shows nothing for images with similarity 1 and the four images for others. -/
theorem C184_script (T : ImageTools I) (p q : String) (a b g : I) (m : ℚ) (ha : T.read p = some a) (hb : T.read q = some b)
    (hs : T.similarity a b = .ok (m, g)) :
    compareScript T p q = .ok (if m = 1 then [] else
      [g, T.threshold g, T.boxes (T.threshold g) a, T.boxes (T.threshold g) b]) := by
  obtain ⟨s, h1, h2, h3, -⟩ := C184_calls_partial T p q a b g m ha hb hs [.difference, .thresh, .inImage1, .inImage2]
  unfold compareScript
  rw [h1]
  simp only [bind, Except.bind, h2]
  by_cases hm : m = 1
  · rw [if_pos hm, if_pos hm]
  · rw [if_neg hm, if_neg hm, h3 (by simp [CanFollow])]
    rfl

/-- Images as numbers, for the examples. -/
def numberTools : ImageTools ℕ where
  read := fun p => if p = "a.png" then some 3 else if p = "b.png" then some 5 else none
  similarity := fun a b => .ok (1 / 2, a + b)
  threshold := fun g => g + 100
  boxes := fun t i => t * 1000 + i

/-- C184 is false: saving the threshold image twice, or after an image with boxes, and saving the second image with boxes twice raise. -/
theorem C184_twice_counterexample :
    (do let s ← Comparison.init numberTools "a.png" "b.png"; s.calls numberTools [.thresh, .thresh]) = .error .valueError ∧
    (do let s ← Comparison.init numberTools "a.png" "b.png"; s.calls numberTools [.inImage1, .thresh]) = .error .valueError ∧
    (do let s ← Comparison.init numberTools "a.png" "b.png"; s.calls numberTools [.inImage2, .inImage2]) = .error .valueError ∧
    (do let s ← Comparison.init numberTools "a.png" "b.png"; s.calls numberTools [.inImage1, .inImage1, .inImage2]) =
      .ok [108003, 108003, 108005] := by
  decide +kernel

example : numberTools.read "a.png" = some 3 ∧ numberTools.read "b.png" = some 5 ∧
    numberTools.similarity 3 5 = .ok (1 / 2, 8) ∧
    [ImageCall.difference, .thresh, .inImage2, .inImage1, .difference].Pairwise CanFollow := by
  refine ⟨rfl, rfl, rfl, by simp [CanFollow]⟩

end Metcalcpy.Props
