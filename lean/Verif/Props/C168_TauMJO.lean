import Mathlib.Tactic.Linarith
import Mathlib.Tactic.Ring
import Mathlib.Tactic.FieldSimp
import Mathlib.Tactic.Positivity
import Mathlib.Data.List.GetD
import Mathlib.Algebra.BigOperators.Ring.Finset
import Mathlib.Algebra.BigOperators.Field
import Verif.Model.MjoEnso

/-!
C168, C169: the wind stress of the MJO.
-/

namespace Metcalcpy

/-- Multiply a value that may be missing. -/
noncomputable def oscale (c : ℝ) (x : Option ℝ) : Option ℝ := x.map (fun v => c * v)

theorem isSome_oscale (c : ℝ) (x : Option ℝ) : (oscale c x).isSome = x.isSome := by
  cases x <;> rfl

theorem osum_scale (c : ℝ) (n : ℕ) (f : ℕ → Option ℝ) : osum n (fun i => oscale c (f i)) = oscale c (osum n f) := by
  unfold osum
  simp only [isSome_oscale]
  split
  · rename_i h
    unfold oscale
    simp only [Option.map_some]
    congr 1
    rw [Finset.mul_sum]
    apply Finset.sum_congr rfl
    intro i hi
    obtain ⟨v, hv⟩ := Option.isSome_iff_exists.mp (h i (Finset.mem_range.mp hi))
    rw [hv]; rfl
  · rfl

theorem omul_scale_right (c : ℝ) (a b : Option ℝ) : omul a (oscale c b) = oscale c (omul a b) := by
  cases a <;> cases b <;> simp [omul, oscale]; ring

theorem omul_scale_left (c : ℝ) (a b : Option ℝ) : omul (oscale c a) b = oscale c (omul a b) := by
  cases a <;> cases b <;> simp [omul, oscale]; ring

theorem osub_scale (c : ℝ) (a b : Option ℝ) : osub (oscale c a) (oscale c b) = oscale c (osub a b) := by
  cases a <;> cases b <;> simp [osub, oscale]; ring

theorem oadd_scale (c : ℝ) (a b : Option ℝ) : oadd (oscale c a) (oscale c b) = oscale c (oadd a b) := by
  cases a <;> cases b <;> simp [oadd, oscale]; ring

theorem oscale_oscale (c d : ℝ) (a : Option ℝ) : oscale c (oscale d a) = oscale (c * d) a := by
  cases a <;> simp [oscale]; ring

theorem odiv_scale_left (c : ℝ) (a b : Option ℝ) : odiv (oscale c a) b = oscale c (odiv a b) := by
  cases a <;> cases b <;> simp [odiv, oscale]
  split <;> simp
  ring

theorem odiv_scale_right (c : ℝ) (hc : c ≠ 0) (a b : Option ℝ) : odiv a (oscale c b) = oscale c⁻¹ (odiv a b) := by
  cases a <;> cases b <;> simp [odiv, oscale, hc]
  split <;> simp
  field_simp

theorem convSame_scale (c : ℝ) (n : ℕ) (a : ℕ → Option ℝ) (m : ℕ) (v : ℕ → ℝ) (t : ℕ) :
    convSame n (fun i => oscale c (a i)) m v t = oscale c (convSame n a m v t) := by
  unfold convSame
  rw [← osum_scale]
  congr 1
  funext i
  split
  · dsimp only
    generalize a i = x
    cases x <;> simp [oscale, mul_assoc]
  · simp [oscale]

theorem bandPass_scale (c : ℝ) (n : ℕ) (f1 f2 : FiltBank) (flx : ℕ → ℕ → Option ℝ) (p t : ℕ) :
    bandPass n f1 f2 (fun p t => oscale c (flx p t)) p t = oscale c (bandPass n f1 f2 flx p t) := by
  unfold bandPass
  split
  · rw [← convSame_scale]
    congr 1
    funext s
    rw [convSame_scale, osub_scale]
  · rfl

theorem modeAmp_scale (c : ℝ) (nP : ℕ) (un flxi : ℕ → ℕ → Option ℝ) (j t : ℕ) :
    modeAmp nP un (fun p t => oscale c (flxi p t)) j t = oscale c (modeAmp nP un flxi j t) := by
  unfold modeAmp
  rw [← odiv_scale_left, ← osum_scale]
  congr 2
  funext p
  rw [omul_scale_right]

theorem ostd_scale (c : ℝ) (hc : 0 ≤ c) (n : ℕ) (f : ℕ → Option ℝ) : ostd n (fun i => oscale c (f i)) = oscale c (ostd n f) := by
  unfold ostd
  rw [osum_scale]
  cases hs : osum n f with
  | none => rfl
  | some s =>
    simp only [oscale, Option.map_some, Option.bind_some]
    have e : (fun i : ℕ => Option.map (fun x => (x - c * s / n) ^ 2) (Option.map (fun v => c * v) (f i))) =
        (fun i : ℕ => oscale (c ^ 2) ((f i).map (fun x => (x - s / n) ^ 2))) := by
      funext i
      cases f i <;> simp [oscale]; ring
    rw [e, osum_scale]
    cases osum n (fun i : ℕ => (f i).map (fun x => (x - s / n) ^ 2)) with
    | none => rfl
    | some q =>
      simp only [oscale, Option.map_some]
      congr 1
      rw [mul_div_assoc, Real.sqrt_mul (by positivity), Real.sqrt_sq hc]

theorem modePattern_scale (c : ℝ) (hc : 0 < c) (nT nP : ℕ) (un flxi : ℕ → ℕ → Option ℝ) (j p : ℕ) :
    modePattern nT nP un (fun p t => oscale c (flxi p t)) j p = oscale c (modePattern nT nP un flxi j p) := by
  unfold modePattern
  have h1 : modeAmp nP un (fun p t => oscale c (flxi p t)) j = fun t => oscale c (modeAmp nP un flxi j t) := by
    funext t; exact modeAmp_scale c nP un flxi j t
  rw [h1, ostd_scale c hc.le, odiv_scale_right c hc.ne']
  have h2 : (fun t : ℕ => omul (oscale c (flxi p t)) (oscale c (modeAmp nP un flxi j t))) =
      fun t : ℕ => oscale (c * c) (omul (flxi p t) (modeAmp nP un flxi j t)) := by
    funext t; rw [omul_scale_left, omul_scale_right, oscale_oscale]
  rw [h2, osum_scale, odiv_scale_left, oscale_oscale]
  congr 1
  field_simp

theorem mjoSum_scale (c : ℝ) (hc : 0 < c) (nT nP : ℕ) (un flxi : ℕ → ℕ → Option ℝ) (p t : ℕ) :
    mjoSum nT nP un (fun p t => oscale c (flxi p t)) p t = oscale (c ^ 2) (mjoSum nT nP un flxi p t) := by
  unfold mjoSum
  have h : ∀ (js : List ℕ) (acc : Option ℝ),
      js.foldl (fun acc j => oadd acc (omul (modePattern nT nP un (fun p t => oscale c (flxi p t)) j p)
        (modeAmp nP un (fun p t => oscale c (flxi p t)) j t))) (oscale (c ^ 2) acc) =
      oscale (c ^ 2) (js.foldl (fun acc j => oadd acc (omul (modePattern nT nP un flxi j p) (modeAmp nP un flxi j t))) acc) := by
    intro js
    induction js with
    | nil => intro acc; rfl
    | cons j js ih =>
      intro acc
      rw [List.foldl_cons, List.foldl_cons, ← ih]
      congr 1
      rw [modePattern_scale c hc, modeAmp_scale, omul_scale_left, omul_scale_right, oscale_oscale, ← pow_two, oadd_scale]
  have := h (List.range 4) (some 0)
  rw [← this]
  congr 1
  simp [oscale]

theorem validPoints_scale (c : ℝ) (nG : ℕ) (flxa : ℕ → ℕ → Option ℝ) :
    validPoints nG (fun t g => oscale c (flxa t g)) = validPoints nG flxa := by
  unfold validPoints
  simp only [isSome_oscale]

theorem mem_validPoints {nG : ℕ} {flxa : ℕ → ℕ → Option ℝ} {g : ℕ} :
    g ∈ validPoints nG flxa ↔ g < nG ∧ (flxa 10 g).isSome := by
  unfold validPoints; simp

/-- What a successful call returns, and what it has checked. -/
theorem calcTauMJO_ok {nT nG : ℕ} {flxa : ℕ → ℕ → Option ℝ} {nE : ℕ} {eof : ℕ → ℕ → Option ℝ} {f1 f2 : FiltBank}
    {out : ℕ → ℕ → Option ℝ} (h : calcTauMJO nT nG flxa nE eof f1 f2 = .ok out) :
    10 < nT ∧ (validPoints nG flxa).length ≠ 1 ∧ bandPassCheck nT (validPoints nG flxa).length f1 f2 = .ok () ∧ 4 ≤ nE ∧
    out = fun t g => if g ∈ validPoints nG flxa then
      mjoSum nT (validPoints nG flxa).length (fun j p => eof j ((validPoints nG flxa).getD p 0))
        (bandPass nT f1 f2 (fun p t => flxa t ((validPoints nG flxa).getD p 0))) ((validPoints nG flxa).idxOf g) t
      else flxa t g := by
  unfold calcTauMJO at h
  split at h
  · simp at h
  · rename_i h1
    dsimp only at h
    split at h
    · simp at h
    · rename_i h2
      split at h
      · simp at h
      · rename_i h3
        split at h
        · simp at h
        · rename_i h4
          refine ⟨by omega, h2, h3, by omega, ?_⟩
          exact (Except.ok.inj h).symm

theorem calcTauMJO_intro {nT nG : ℕ} {flxa : ℕ → ℕ → Option ℝ} {nE : ℕ} {eof : ℕ → ℕ → Option ℝ} {f1 f2 : FiltBank}
    (h1 : 10 < nT) (h2 : (validPoints nG flxa).length ≠ 1)
    (h3 : bandPassCheck nT (validPoints nG flxa).length f1 f2 = .ok ()) (h4 : 4 ≤ nE) :
    calcTauMJO nT nG flxa nE eof f1 f2 = .ok (fun t g => if g ∈ validPoints nG flxa then
      mjoSum nT (validPoints nG flxa).length (fun j p => eof j ((validPoints nG flxa).getD p 0))
        (bandPass nT f1 f2 (fun p t => flxa t ((validPoints nG flxa).getD p 0))) ((validPoints nG flxa).idxOf g) t
      else flxa t g) := by
  unfold calcTauMJO
  rw [if_neg (by omega)]
  dsimp only
  rw [if_neg h2, h3]
  dsimp only
  rw [if_neg (by omega)]

theorem osum_none {n : ℕ} {f : ℕ → Option ℝ} {i : ℕ} (hi : i < n) (h : f i = none) : osum n f = none := by
  unfold osum
  rw [if_neg]
  intro hc
  have := hc i hi
  rw [h] at this
  simp at this

theorem osum_some {n : ℕ} {f : ℕ → Option ℝ} {g : ℕ → ℝ} (h : ∀ i < n, f i = some (g i)) :
    osum n f = some (∑ i ∈ Finset.range n, g i) := by
  unfold osum
  rw [if_pos (fun i hi => by rw [h i hi]; rfl)]
  congr 1
  apply Finset.sum_congr rfl
  intro i hi
  rw [h i (Finset.mem_range.mp hi)]; rfl

namespace Props

/-- C168.  What the function computes instead of a part of the flux: `c` times the flux has `c²` times the MJO flux, at all
    points that take part, for all filters, modes and records. -/
theorem C168_quadratic_counterexample (nT nG : ℕ) (flxa : ℕ → ℕ → Option ℝ) (nE : ℕ) (eof : ℕ → ℕ → Option ℝ)
    (f1 f2 : FiltBank) (c : ℝ) (hc : 0 < c) (out : ℕ → ℕ → Option ℝ)
    (h : calcTauMJO nT nG flxa nE eof f1 f2 = .ok out) :
    ∃ out', calcTauMJO nT nG (fun t g => (flxa t g).map (fun v => c * v)) nE eof f1 f2 = .ok out' ∧
      ∀ t g, g < nG → flxa 10 g ≠ none → out' t g = (out t g).map (fun v => c ^ 2 * v) := by
  obtain ⟨h1, h2, h3, h4, rfl⟩ := calcTauMJO_ok h
  have hv := validPoints_scale c nG flxa
  have hs : (fun t g => (flxa t g).map (fun v => c * v)) = fun t g => oscale c (flxa t g) := rfl
  rw [hs]
  refine ⟨_, calcTauMJO_intro h1 (by rw [hv]; exact h2) (by rw [hv]; exact h3) h4, ?_⟩
  intro t g hg hne
  have hmem : g ∈ validPoints nG flxa := mem_validPoints.mpr ⟨hg, by
    cases hx : flxa 10 g with
    | none => exact absurd hx hne
    | some _ => rfl⟩
  simp only [hv]
  rw [if_pos hmem, if_pos hmem]
  have hb : bandPass nT f1 f2 (fun p t => oscale c (flxa t ((validPoints nG flxa).getD p 0))) =
      fun p t => oscale c (bandPass nT f1 f2 (fun p t => flxa t ((validPoints nG flxa).getD p 0)) p t) := by
    funext p t; exact bandPass_scale c nT f1 f2 _ p t
  rw [hb, mjoSum_scale c hc]
  rfl

/-- C168.  Exceptions: exactly a record of ten times or less, a single valid point, filters that do not fit, or fewer than
    four modes. -/
theorem C168_raises (nT nG : ℕ) (flxa : ℕ → ℕ → Option ℝ) (nE : ℕ) (eof : ℕ → ℕ → Option ℝ) (f1 f2 : FiltBank)
    (n : ℕ) (hn : n = ((List.range nG).filter (fun g => (flxa 10 g).isSome)).length) :
    (∃ out, calcTauMJO nT nG flxa nE eof f1 f2 = .ok out) ↔
      10 < nT ∧ n ≠ 1 ∧ 4 ≤ nE ∧
      (f1.cols = 0 ∨ (f1.cols ≤ n ∧ f1.cols ≤ f2.cols ∧ 1 ≤ f1.len ∧ f1.len ≤ nT ∧ 1 ≤ f2.len ∧ f2.len ≤ nT)) := by
  have hl : (validPoints nG flxa).length = n := hn.symm
  have hchk : bandPassCheck nT n f1 f2 = .ok () ↔
      (f1.cols = 0 ∨ (f1.cols ≤ n ∧ f1.cols ≤ f2.cols ∧ 1 ≤ f1.len ∧ f1.len ≤ nT ∧ 1 ≤ f2.len ∧ f2.len ≤ nT)) := by
    unfold bandPassCheck
    split
    · simp_all
    · split
      · simp; omega
      · split
        · simp; omega
        · split
          · simp; omega
          · split
            · simp; omega
            · split
              · simp; omega
              · simp; omega
  constructor
  · rintro ⟨out, h⟩
    obtain ⟨h1, h2, h3, h4, _⟩ := calcTauMJO_ok h
    rw [hl] at h2 h3
    exact ⟨h1, h2, h4, hchk.mp h3⟩
  · rintro ⟨h1, h2, h3, h4⟩
    exact ⟨_, calcTauMJO_intro h1 (by rw [hl]; exact h2) (by rw [hl]; exact hchk.mpr h4) h3⟩

/-- C169.  One missing value at a point that takes part makes the result missing at all points that take part and at all
    times. -/
theorem C169_missing_counterexample (nT nG : ℕ) (flxa : ℕ → ℕ → Option ℝ) (nE : ℕ) (eof : ℕ → ℕ → Option ℝ)
    (f1 f2 : FiltBank) (out : ℕ → ℕ → Option ℝ) (h : calcTauMJO nT nG flxa nE eof f1 f2 = .ok out)
    (t0 g0 : ℕ) (ht : t0 < nT) (hg0 : g0 < nG) (hv0 : flxa 10 g0 ≠ none) (hmiss : flxa t0 g0 = none) :
    ∀ t g, g < nG → flxa 10 g ≠ none → out t g = none := by
  obtain ⟨h1, h2, h3, h4, rfl⟩ := calcTauMJO_ok h
  set idx := validPoints nG flxa with hidx
  set flxi := bandPass nT f1 f2 (fun p t => flxa t (idx.getD p 0)) with hflxi
  have hsome : ∀ g, flxa 10 g ≠ none → (flxa 10 g).isSome := by
    intro g hne
    cases hx : flxa 10 g with
    | none => exact absurd hx hne
    | some _ => rfl
  have hm0 : g0 ∈ idx := mem_validPoints.mpr ⟨hg0, hsome g0 hv0⟩
  set p0 := idx.idxOf g0 with hp0
  have hp0l : p0 < idx.length := List.idxOf_lt_length_iff.mpr hm0
  have hp0g : idx.getD p0 0 = g0 := by
    rw [List.getD_eq_getElem _ _ hp0l]
    exact List.getElem_idxOf hp0l
  -- the filtered flux is missing there
  have hfm : flxi p0 t0 = none := by
    rw [hflxi]
    unfold bandPass
    by_cases hc : p0 < f1.cols
    · rw [if_pos hc]
      have hlen : 1 ≤ f2.len := by
        unfold bandPassCheck at h3
        by_contra hlt
        have h0 : f2.len = 0 := by omega
        rw [if_neg (by omega)] at h3
        split at h3
        · simp at h3
        · split at h3
          · simp at h3
          · split at h3
            · simp at h3
            · rw [if_pos (Or.inl h0)] at h3; simp at h3
      unfold convSame
      apply osum_none ht
      rw [if_pos ⟨by omega, by omega⟩]
      dsimp only
      rw [hp0g, hmiss]
      rfl
    · rw [if_neg hc]
      dsimp only
      rw [hp0g, hmiss]
  intro t g hg hne
  have hmem : g ∈ idx := mem_validPoints.mpr ⟨hg, hsome g hne⟩
  simp only
  rw [if_pos hmem]
  have hamp : ∀ j, modeAmp idx.length (fun j p => eof j (idx.getD p 0)) flxi j t0 = none := by
    intro j
    unfold modeAmp
    rw [osum_none hp0l (by
      rw [hfm]
      generalize (fun j p => eof j (idx.getD p 0)) j p0 = x
      cases x <;> rfl)]
    rfl
  have hstd : ∀ j, ostd nT (modeAmp idx.length (fun j p => eof j (idx.getD p 0)) flxi j) = none := by
    intro j
    unfold ostd
    rw [osum_none ht (hamp j)]
    rfl
  have hpat : ∀ j p, modePattern nT idx.length (fun j p => eof j (idx.getD p 0)) flxi j p = none := by
    intro j p
    unfold modePattern
    rw [hstd j]
    cases osum nT _ <;> rfl
  unfold mjoSum
  have : List.range 4 = [0, 1, 2, 3] := rfl
  rw [this]
  simp only [List.foldl_cons, List.foldl_nil, hpat]
  rfl

/-- C169.  A point that is missing at the eleventh time keeps its own flux, neither filtered nor projected. -/
theorem C169_left_out_counterexample (nT nG : ℕ) (flxa : ℕ → ℕ → Option ℝ) (nE : ℕ) (eof : ℕ → ℕ → Option ℝ)
    (f1 f2 : FiltBank) (out : ℕ → ℕ → Option ℝ) (h : calcTauMJO nT nG flxa nE eof f1 f2 = .ok out)
    (g : ℕ) (hmiss : flxa 10 g = none) (t : ℕ) : out t g = flxa t g := by
  obtain ⟨_, _, _, _, rfl⟩ := calcTauMJO_ok h
  simp only
  rw [if_neg]
  intro hm
  have := (mem_validPoints.mp hm).2
  rw [hmiss] at this
  simp at this

/-- A record of 12 days at two points with alternating flux at the first; four equal modes; no filter columns.  The result
    is not zero, so that the factor is seen. -/
theorem C168_example : ∃ out v, calcTauMJO 12 2 (fun t g => some (if g = 0 then (-1) ^ t else 0)) 4
    (fun _ p => some (if p = 0 then 1 else 0)) ⟨0, 0, fun _ _ => 0⟩ ⟨0, 0, fun _ _ => 0⟩ = .ok out ∧
    out 0 0 = some v ∧ v ≠ 0 := by
  set flxa : ℕ → ℕ → Option ℝ := fun t g => some (if g = 0 then (-1) ^ t else 0) with hfl
  have hv : validPoints 2 flxa = [0, 1] := by
    unfold validPoints; rw [hfl]; rfl
  have hsq : 0 < Real.sqrt (3 / 11 : ℝ) := by positivity
  refine ⟨_, 12 / Real.sqrt (3 / 11), calcTauMJO_intro (by norm_num) (by rw [hv]; decide) rfl le_rfl, ?_, by positivity⟩
  · rw [hv, if_pos (by decide)]
    have hamp : ∀ j t, modeAmp [0, 1].length (fun j p => some (if [0, 1].getD p 0 = 0 then (1 : ℝ) else 0))
        (bandPass 12 ⟨0, 0, fun _ _ => 0⟩ ⟨0, 0, fun _ _ => 0⟩ (fun p t => flxa t ([0, 1].getD p 0))) j t =
        some ((-1) ^ t / 2) := by
      intro j t
      unfold modeAmp
      rw [osum_some (g := fun p : ℕ => if p = 0 then (-1 : ℝ) ^ t else 0)]
      · simp [odiv, Finset.sum_range_succ]
      · intro p hp
        have : p = 0 ∨ p = 1 := by simp at hp; omega
        rcases this with rfl | rfl <;> simp [omul, bandPass, hfl]
    have hstd : ∀ j, ostd 12 (modeAmp [0, 1].length (fun j p => some (if [0, 1].getD p 0 = 0 then (1 : ℝ) else 0))
        (bandPass 12 ⟨0, 0, fun _ _ => 0⟩ ⟨0, 0, fun _ _ => 0⟩ (fun p t => flxa t ([0, 1].getD p 0))) j) =
        some (Real.sqrt (3 / 11)) := by
      intro j
      unfold ostd
      rw [osum_some (fun i _ => hamp j i)]
      simp only [Option.bind_some, hamp, Option.map_some]
      rw [osum_some (fun i _ => rfl)]
      simp [Finset.sum_range_succ]
      norm_num
    have hpat : ∀ j, modePattern 12 [0, 1].length (fun j p => some (if [0, 1].getD p 0 = 0 then (1 : ℝ) else 0))
        (bandPass 12 ⟨0, 0, fun _ _ => 0⟩ ⟨0, 0, fun _ _ => 0⟩ (fun p t => flxa t ([0, 1].getD p 0))) j 0 =
        some (6 / Real.sqrt (3 / 11)) := by
      intro j
      unfold modePattern
      rw [hstd]
      rw [osum_some (g := fun t : ℕ => (-1 : ℝ) ^ t * ((-1) ^ t / 2))]
      · have : Real.sqrt (3 / 11) ≠ 0 := by positivity
        simp only [odiv, Option.bind_some, if_neg this]
        congr 2
        simp [Finset.sum_range_succ]
        norm_num
      · intro t _
        rw [hamp]
        simp [omul, bandPass, hfl]
    have hi : List.idxOf 0 [0, 1] = 0 := rfl
    rw [hi]
    unfold mjoSum
    have : List.range 4 = [0, 1, 2, 3] := rfl
    rw [this]
    simp only [List.foldl_cons, List.foldl_nil, hpat, hamp, omul, oadd, Option.bind_some, Option.map_some]
    congr 1
    field_simp
    norm_num

end Props

end Metcalcpy
